/-
The files of OpenBSD's signify: what `parseb64file`, `writeb64file` and the unlocking of the secret key in its signify.c do. That source
is not part of /repo and was not at hand; this file is written from knowledge of it. Independent of the model of /repo.
-/
import Verif.Model.Prims
import Verif.Spec.Base64
import Verif.Spec.Lines

namespace Verif.Signify
open Spec

/-- The file as C string. -/
def cString (file : Bytes) : Bytes := file.takeWhile (· != 0)

/-- C `isspace`. -/
def isSpace (c : UInt8) : Bool := c == 32 || (9 ≤ c && c ≤ 13)

/-- signify accepts the file for a structure of `n` bytes, with this comment and this content (`parseb64file`): the first line is a
non-empty comment after the tag, the second ends with a newline and is the base64 text of the content, with white space at any
places; the content begins with the algorithm. What follows is the message of an embedded signature. -/
structure Reads (n : Nat) (file comment data : Bytes) : Prop where
  lines : ∃ line rest, cString file = commentTag ++ comment ++ [10] ++ line ++ [10] ++ rest ∧ 10 ∉ line ∧
    line.filter (fun c => !isSpace c) = base64 data
  comment : comment ≠ [] ∧ 10 ∉ comment
  size : data.length = n
  algo : data.take 2 = b!"Ed"

/-- What signify writes for a structure (`writeb64file`); `rest` is the message of an embedded signature or nothing. -/
def written (comment data rest : Bytes) : Bytes := commentTag ++ comment ++ [10] ++ base64 data ++ [10] ++ rest

/-- A comment that signify writes and, where it looks at comments, accepts (`COMMENTMAXLEN` is 1024). -/
def GoodComment (comment : Bytes) : Prop := comment ≠ [] ∧ 10 ∉ comment ∧ 0 ∉ comment ∧ comment.length < 1024

/-- Bytes `off` to `off + len` of a structure. -/
def field (data : Bytes) (off len : Nat) : Bytes := (data.drop off).take len

/-- A number, most significant byte first (`ntohl`). -/
def number (bs : Bytes) : Nat := bs.foldl (fun a b => a * 256 + b.toNat) 0

/-- The secret key in a `struct enckey` (pkalg 2, kdfalg 2, kdfrounds 4, salt 16, checksum 8, keynum 8, seckey 64), if the
passphrase is right (`sign`): the mask is zero if there are no rounds; the checksum must be that of the unmasked key. -/
def unlock (P : Prims) (pw data : Bytes) : Option Bytes :=
  let rounds := number (field data 4 4)
  let mask : Bytes := if rounds = 0 then List.replicate 64 0 else (P.bcrypt pw (copyZ 16 (field data 8 16)) rounds).toList
  let sk := List.zipWith (· ^^^ ·) (field data 40 64) mask
  if field data 2 2 = b!"BK" ∧ (P.sha512 sk).toList.take 8 = field data 24 8 then some sk else none

/-- keynum of a `struct enckey`. -/
def secretNum (data : Bytes) : Bytes := field data 32 8

/-- keynum of a `struct pubkey` (pkalg 2, keynum 8, pubkey 32) or a `struct sig` (pkalg 2, keynum 8, sig 64). -/
def publicNum (data : Bytes) : Bytes := field data 2 8

end Verif.Signify
