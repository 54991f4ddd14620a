/-
What it means that a private key can be used with a passphrase. Independent of the functions of the model.
-/
import Verif.Model.Keys
import Verif.Spec.Base64
import Verif.Spec.Lines

namespace Verif
open Spec

/-- The passphrase opens the encrypted key `priv`, and the result is `priv'`. -/
structure Unlocks (P : Prims) (pw : Bytes) (priv priv' : Private) : Prop where
  kdf : priv.kdfAlgo.toList = b!"BK"
  nonempty : pw ≠ []
  result : priv' = { priv with key := xorArr priv.key (P.bcrypt pw priv.salt priv.kdfRounds.toNat) }
  checksum : (P.sha512 priv'.key.toList).toList.take 8 = priv.checksum.toList

/-- With what the user is about to type, the stored key `priv` is usable as `priv'`: it is stored in the clear, or the user
gives a passphrase that opens it. -/
def Usable (P : Prims) (tty : List (Option Bytes)) (priv priv' : Private) : Prop :=
  (priv.kdfRounds = 0 ∧ priv' = priv) ∨
  (priv.kdfRounds ≠ 0 ∧ ∃ pw rest, tty = some pw :: rest ∧ Unlocks P pw priv priv')

/-- The X25519 secret that belongs to an Ed25519 key: the first half of SHA-512 of the seed (the first 32 bytes of the key), with
the low three bits of the first byte cleared, the top bit of the last byte cleared and its second-highest bit set. -/
def boxSecret (P : Prims) (seed : Bytes) : Arr 32 :=
  Vector.ofFn fun i =>
    let b := (P.sha512 seed)[i.val]'(by omega)
    if i.val = 0 then b &&& 248 else if i.val = 31 then (b &&& 127) ||| 64 else b

/-- With what the user is about to type, `Private.ToBox` is to return `k` for the stored key `priv`: the checksum matches
already; or the user gives a passphrase, and either the key is stored in the clear or the passphrase opens it. -/
def BoxUsable (P : Prims) (tty : List (Option Bytes)) (priv : Private) (k : Arr 32) : Prop :=
  ((P.sha512 priv.key.toList).toList.take 8 = priv.checksum.toList ∧ k = boxSecret P (priv.key.toList.take 32)) ∨
  ((P.sha512 priv.key.toList).toList.take 8 ≠ priv.checksum.toList ∧ ∃ pw rest, tty = some pw :: rest ∧
    ((priv.kdfRounds = 0 ∧ k = boxSecret P (priv.key.toList.take 32)) ∨
     (priv.kdfRounds ≠ 0 ∧ ∃ priv', Unlocks P pw priv priv' ∧ k = boxSecret P (priv'.key.toList.take 32))))

/-- The text of a signature file: comment line naming the public key file, then the base64 line with the algorithm tag, the
key number and the Ed25519 signature of the message. -/
def signatureFile (P : Prims) (priv : Private) (pubName message : Bytes) : Bytes :=
  commentTag ++ b!"verify with " ++ pubName ++ [10] ++
    base64 (priv.keyAlgo.toList ++ priv.keyNum.toList ++ (P.edSign priv.key message).toList) ++ [10]

/-- The content of a public key file and a signature file make a signature that is to be accepted for the message. -/
def Accepts (P : Prims) (pubFile message sigFile : Bytes) : Prop :=
  ∃ dp ds, readDataFileBytes pubFile = .ok dp ∧ readDataFileBytes sigFile = .ok ds ∧
    dp.data.length = 42 ∧ 10 ≤ ds.data.length ∧
    dp.data.take 2 = b!"Ed" ∧ ds.data.take 2 = b!"Ed" ∧
    (dp.data.drop 2).take 8 = (ds.data.drop 2).take 8 ∧
    P.edVerify (copyZ 32 (dp.data.drop 10)) message (copyZ 64 (ds.data.drop 10)) = true

/-- The signature path that is used. -/
def sigPath (mp sp : Path) : Path := if sp = [] then mp ++ b!".sig" else sp

/-- The path of the encrypted file that is used. -/
def encPath (mp ep : Path) : Path := if ep = [] then mp ++ b!".enc" else ep

/-- The round count that is stored. -/
def storedRounds (pw : Bytes) (opts : Option Int) : BitVec 32 :=
  if pw = [] then 0 else BitVec.ofInt 32 (opts.getD 42)

/-- The fields of a generated key pair. -/
structure Generated (P : Prims) (pw : Bytes) (opts : Option Int) (seed : Arr 32) (salt : Arr 16) (num : Arr 8)
    (priv : Private) (pub : Public) : Prop where
  algo : priv.keyAlgo.toList = b!"Ed"
  kdf : priv.kdfAlgo.toList = b!"BK"
  rounds : priv.kdfRounds = storedRounds pw opts
  roundsPos : pw ≠ [] → priv.kdfRounds ≠ 0
  saltEq : priv.salt = salt
  numEq : priv.keyNum = num
  checksum : priv.checksum.toList = (P.sha512 (seed.toList ++ (P.edPublic seed).toList)).toList.take 8
  plain : pw = [] → priv.key.toList = seed.toList ++ (P.edPublic seed).toList
  crypt : pw ≠ [] → (xorArr priv.key (P.bcrypt pw salt priv.kdfRounds.toNat)).toList =
    seed.toList ++ (P.edPublic seed).toList
  pubAlgo : pub.keyAlgo.toList = b!"Ed"
  pubNum : pub.keyNum = num
  pubKey : pub.key = P.edPublic seed

/-- The text of a secret key file. -/
def secretFile (priv : Private) : Bytes :=
  commentTag ++ b!"signify private key" ++ [10] ++
    base64 (priv.keyAlgo.toList ++ priv.kdfAlgo.toList ++ be32 priv.kdfRounds ++ priv.salt.toList ++
      priv.checksum.toList ++ priv.keyNum.toList ++ priv.key.toList) ++ [10]

/-- The text of a public key file. -/
def publicFile (pub : Public) : Bytes :=
  commentTag ++ b!"signify public key" ++ [10] ++
    base64 (pub.keyAlgo.toList ++ pub.keyNum.toList ++ pub.key.toList) ++ [10]

/-- A path split into directory part (empty or ending with '/') and base name. -/
structure Splits (path dir name : Path) : Prop where
  eq : path = dir ++ name
  dir : dir = [] ∨ dir.getLast? = some 47
  name : 47 ∉ name

end Verif
