/-
Specification of base64 (RFC 4648, section 4) and of the line layout, independent of the model: the text is obtained by
cutting the bit string into groups of six.
-/
import Verif.Model.Go

namespace Verif.Spec

/-- The alphabet of RFC 4648, table 1. -/
def alphabet : Bytes := b!"ABCDEFGHIJKLMNOPQRSTUVWXYZabcdefghijklmnopqrstuvwxyz0123456789+/"

/-- The bits of a byte, most significant first. -/
def byteBits (b : UInt8) : List Bool := (List.range 8).map fun i => b.toNat.testBit (7 - i)

/-- The bit string of a byte string. -/
def bits (bs : Bytes) : List Bool := bs.flatMap byteBits

/-- The number written in binary, most significant bit first. -/
def bitsVal (l : List Bool) : Nat := l.foldl (fun acc b => 2 * acc + b.toNat) 0

/-- Cut into sextets; the last one is filled with zero bits. -/
def sextets (l : List Bool) : List Nat :=
  if l = [] then []
  else bitsVal (l.take 6 ++ List.replicate (6 - l.length) false) :: sextets (l.drop 6)
termination_by l.length
decreasing_by
  have := List.length_pos_iff.mpr ‹_›
  simp only [List.length_drop]; omega

/-- Base64 text with padding to a multiple of four characters. -/
def base64 (bs : Bytes) : Bytes :=
  let text := (sextets (bits bs)).map fun v => alphabet.getD v 0
  text ++ List.replicate ((4 - text.length % 4) % 4) 61

/-- A newline after every complete block of `n` characters. -/
def breakEvery (n : Nat) (hn : 0 < n) (text : Bytes) : Bytes :=
  if text.length < n then text else text.take n ++ [10] ++ breakEvery n hn (text.drop n)
termination_by text.length
decreasing_by simp only [List.length_drop]; omega

/-- The text produced by the stream encoder for `data`: the complete three-byte groups in lines of 72 characters, then the
last, padded group, then a newline. -/
def encodedText (data : Bytes) : Bytes :=
  let full := data.length / 3 * 3
  breakEvery 72 (by decide) (base64 (data.take full)) ++ base64 (data.drop full) ++ [10]

end Verif.Spec
