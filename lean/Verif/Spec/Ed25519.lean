/-
Ed25519 signatures (RFC 8032 sections 5.1.6 and 5.1.7), transcribed from the RFC, for any hash function.
-/
import Verif.Spec.X25519
import Verif.Spec.Group

namespace Verif.Ed

/-- 5.1.6 step 2: r. -/
def rfcNonce (sha512 : Bytes → Arr 64) (seed : Arr 32) (m : Bytes) : Nat :=
  leNat (sha512 ((sha512 seed.toList).toList.drop 32 ++ m)).toList

/-- 5.1.6 step 4, 5.1.7 step 2: k, for the encodings of R and A. -/
def rfcChallenge (sha512 : Bytes → Arr 64) (R A m : Bytes) : Nat := leNat (sha512 (R ++ A ++ m)).toList

/-- 5.1.6: the signature of a message. -/
def rfcSign (sha512 : Bytes → Arr 64) (seed : Arr 32) (m : Bytes) : Arr 64 :=
  let s := clampNat (leNat ((sha512 seed.toList).toList.take 32))
  let r := rfcNonce sha512 seed m
  let R := encodePoint (r • base)
  let k := rfcChallenge sha512 R.toList (rfcPublic sha512 seed).toList m
  copyZ 64 (R.toList ++ (encodeLE ((r + k * s) % groupOrder)).toList)

/-- 5.1.7 without the cofactor, for a public key in the group that the base point generates: the two halves decode to a point R
and a number S below the group order, and S·B = R + k·A. -/
def RfcValid (sha512 : Bytes → Arr 64) (pub : Arr 32) (m : Bytes) (sig : Arr 64) : Prop :=
  ∃ (A R : Point) (a : Nat), A = a • base ∧ pub = encodePoint A ∧ sig.toList.take 32 = (encodePoint R).toList ∧
    leNat (sig.toList.drop 32) < groupOrder ∧
    leNat (sig.toList.drop 32) • base = R + rfcChallenge sha512 (sig.toList.take 32) pub.toList m • A

/-- Key derivation and signing follow the RFC, and verification accepts what it calls valid. (What it accepts beyond that is left
open: implementations differ on keys and signatures that no signer produces.) -/
structure Signs (P : Prims) : Prop where
  edPublic : ∀ seed, P.edPublic seed = rfcPublic P.sha512 seed
  edSign : ∀ seed key m, key.toList = seed.toList ++ (rfcPublic P.sha512 seed).toList → P.edSign key m = rfcSign P.sha512 seed m
  edVerify : ∀ pub m sig, RfcValid P.sha512 pub m sig → P.edVerify pub m sig = true

end Verif.Ed
