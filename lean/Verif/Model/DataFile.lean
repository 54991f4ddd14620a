/-
Model of signify/common.go.
-/
import Verif.Model.StdBase64
import Verif.Model.World

namespace Verif

/-- signify/common.go:11. -/
def commentPrefix : Bytes := b!"untrusted comment: "

/-- signify/common.go:13-16. -/
structure DataFile where
  comment : Bytes
  data : Bytes
  deriving DecidableEq, Repr

/-- signify/common.go:18-24 `dataFile.Encode`. -/
def DataFile.encode (d : DataFile) : Bytes := d.comment ++ [10] ++ d.data ++ [10]

/-- `bufio.MaxScanTokenSize`. -/
def maxScanTokenSize : Nat := 65536

/-- `dropCR` of `bufio.ScanLines`. -/
def dropCR (l : Bytes) : Bytes := if l.getLast? = some 13 then l.dropLast else l

/-- One `scanner.Scan()` with `bufio.ScanLines`: the token and the remaining input. `none`: Scan returns false, at the
end of the input or because the line does not fit the scanner's 64 KiB buffer (`bufio.ErrTooLong`). -/
def scanLine (data : Bytes) : Option (Bytes × Bytes) :=
  if data = [] then none
  else
    let raw := data.takeWhile (· != 10)
    if raw.length ≥ maxScanTokenSize then none
    else some (dropCR raw, data.drop (raw.length + 1))

theorem scanLine_lt {data tok rest} (h : scanLine data = some (tok, rest)) : rest.length < data.length := by
  unfold scanLine at h
  split at h
  · simp at h
  · rename_i hne
    simp only [ge_iff_le, Option.ite_none_left_eq_some, Option.some.injEq, Prod.mk.injEq] at h
    have : 0 < data.length := List.length_pos_iff.mpr hne
    rw [← h.2.2, List.length_drop]; omega

/-- signify/common.go:29-40: the scanning loop; `line` and `comment` are the variables of the code. -/
def scanLoop (line comment data : Bytes) : Bytes × Bytes :=
  match _h : scanLine data with
  | none => (line, comment)
  | some (tok, rest) =>
    if commentPrefix.isPrefixOf tok then
      scanLoop tok (comment ++ tok.drop commentPrefix.length) rest
    else (tok, comment)
termination_by data.length
decreasing_by exact scanLine_lt _h

/-- signify/common.go:26-49 `readDataFileBytes`. -/
def readDataFileBytes (data : Bytes) : Res DataFile :=
  let (line, comment) := scanLoop [] [] data
  match B64.decodeString line with
  | .ok out => .ok { comment := comment, data := out }
  | .corrupt => .err .corruptBase64
  | .panic => .panic

/-- signify/common.go:51-60 `writeDataFile`. -/
def writeDataFile (path comment data : Bytes) : Act World Unit :=
  World.writeFile path (DataFile.encode { comment := comment, data := B64.encode data }) 0o644

/-- signify/common.go:62-70 `zero` (nil is `none`). -/
def zero (buf : Option Bytes) : Option Bytes := buf.map fun b => b.map fun x => x ^^^ x

/-- signify/common.go:72-80 `zero64` (nil is `none`). -/
def zero64 (buf : Option (Arr 64)) : Option (Arr 64) := buf.map fun b => b.map fun x => x ^^^ x

/-- `zero(&buf)` for a passphrase buffer. -/
def World.zeroBuf (i : Nat) (w : World) : World :=
  { w with bufs := w.bufs.modify i fun b => (zero (some b)).getD [] }

end Verif
