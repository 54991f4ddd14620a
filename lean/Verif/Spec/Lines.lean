/-
Text lines as they appear in a data file.
-/
import Verif.Model.Go

namespace Verif.Spec

/-- A line: its text, and whether it ends with CRLF instead of LF. -/
structure Line where
  text : Bytes
  crlf : Bool

/-- The bytes of the line without its final LF. -/
def Line.raw (l : Line) : Bytes := l.text ++ (if l.crlf then [13] else [])

/-- The bytes of the line. -/
def Line.render (l : Line) : Bytes := l.raw ++ [10]

/-- The text contains no newline, does not itself end with CR, and the line is shorter than 64 KiB. -/
structure Line.Ok (l : Line) : Prop where
  noNL : 10 ∉ l.text
  noCR : l.text.getLast? ≠ some 13
  short : l.raw.length < 65536

/-- The fixed beginning of a comment line. -/
def commentTag : Bytes := b!"untrusted comment: "

/-- A comment line with the given text. -/
def commentLine (text : Bytes) (crlf : Bool) : Line := { text := commentTag ++ text, crlf := crlf }

/-- Consecutive lines. -/
def renderAll (ls : List Line) : Bytes := (ls.map Line.render).flatten

end Verif.Spec
