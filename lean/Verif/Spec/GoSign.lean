/-
Signing as golang.org/x/crypto/ed25519 does it, for any 64 bytes as key, and how to sign without the key.
-/
import Verif.Spec.Ed25519
import Mathlib.Data.ZMod.Basic
import Mathlib.Algebra.Field.ZMod

namespace Verif.Ed

/-- What golang.org/x/crypto/ed25519 `Sign` computes: the first half of the key is the seed; the second half is taken for the public
key without a check. For a key whose second half is the public key of the first this is RFC 8032 (`goSign_rfc`). -/
def goSign (sha512 : Bytes → Arr 64) (key : Arr 64) (m : Bytes) : Arr 64 :=
  let h := (sha512 (key.toList.take 32)).toList
  let r := leNat (sha512 (h.drop 32 ++ m)).toList
  let R := encodePoint (r • base)
  let k := rfcChallenge sha512 R.toList (key.toList.drop 32) m
  copyZ 64 (R.toList ++ (encodeLE ((r + k * clampNat (leNat (h.take 32))) % groupOrder)).toList)

/-- Signing is that of golang.org/x/crypto/ed25519. -/
def GoSigns (P : Prims) : Prop := ∀ key m, P.edSign key m = goSign P.sha512 key m

/-- What anybody can compute from two signatures of the message `m`, and the public keys that they were made with. Division is
modulo the group order. -/
noncomputable def secretFrom (sha512 : Bytes → Arr 64) (pub pub' m : Bytes) (s s' : Arr 64) : ZMod groupOrder :=
  ((leNat (s.toList.drop 32) : ZMod groupOrder) - (leNat (s'.toList.drop 32) : ZMod groupOrder)) *
    ((rfcChallenge sha512 (s.toList.take 32) pub m : ZMod groupOrder) -
      (rfcChallenge sha512 (s'.toList.take 32) pub' m : ZMod groupOrder))⁻¹

/-- What anybody can compute from a public key, a number and a message. -/
def forge (sha512 : Bytes → Arr 64) (pub : Arr 32) (a : ZMod groupOrder) (m : Bytes) : Arr 64 :=
  let R := encodePoint base
  copyZ 64 (R.toList ++ (encodeLE ((1 + rfcChallenge sha512 R.toList pub.toList m * a.val) % groupOrder)).toList)

end Verif.Ed
