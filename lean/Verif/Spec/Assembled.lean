/-
Ed25519 put together from the functions of internal/edwards25519, in the way golang.org/x/crypto/ed25519 (from which the package
was copied) does it with its own copy. That outer package is not in /repo; the definitions here only say what it means that the
functions of the package fit together.
-/
import Verif.Spec.Ed25519
import Verif.Model.ScalarMult
import Verif.Model.Scalar

namespace Verif.Ed

/-- The secret scalar of a seed. -/
def asmSecret (sha512 : Bytes → Arr 64) (seed : Arr 32) : Arr 32 :=
  encodeLE (clampNat (leNat ((sha512 seed.toList).toList.take 32)))

/-- `GeScalarMultBase`, `ToBytes`. -/
def asmPublic (sha512 : Bytes → Arr 64) (seed : Arr 32) : Arr 32 := (geScalarMultBase (asmSecret sha512 seed)).toBytes

/-- `ScReduce`, `GeScalarMultBase`, `ToBytes`, `ScReduce`, `ScMulAdd`. -/
def asmSign (sha512 : Bytes → Arr 64) (seed pub : Arr 32) (m : Bytes) : Arr 64 :=
  let r := scReduce (sha512 ((sha512 seed.toList).toList.drop 32 ++ m))
  let R := (geScalarMultBase r).toBytes
  let k := scReduce (sha512 (R.toList ++ pub.toList ++ m))
  let S := scMulAdd k (asmSecret sha512 seed) r
  copyZ 64 (R.toList ++ S.toList)

/-- `FeNeg` on X and T, `ScReduce`, `ScMinimal`, `GeDoubleScalarMultVartime`, `ToBytes`. -/
def asmCheck (sha512 : Bytes → Arr 64) (A : Ext) (pub : Arr 32) (m : Bytes) (sig : Arr 64) : Res Bool :=
  let A : Ext := ⟨feNeg A.X, A.Y, A.Z, feNeg A.T⟩
  let k := scReduce (sha512 (sig.toList.take 32 ++ pub.toList ++ m))
  let S : Arr 32 := copyZ 32 (sig.toList.drop 32)
  if scMinimal S = false then .ok false
  else do
    let r ← geDoubleScalarMultVartime k A S
    pure (decide (r.toBytes.toList = sig.toList.take 32))

/-- Refuse if decoding failed. -/
def ifDecoded (o : Option Ext) (check : Ext → Res Bool) : Res Bool :=
  match o with
  | none => .ok false
  | some A => check A

/-- `FromBytes`, then the check. -/
def asmVerify (sha512 : Bytes → Arr 64) (pub : Arr 32) (m : Bytes) (sig : Arr 64) : Res Bool :=
  ifDecoded (extFromBytes pub) fun A => asmCheck sha512 A pub m sig

/-- What `FromBytes` makes of a string: the point has the encoded y modulo p, and the encoded sign unless x = 0. -/
def Decodes (s : Arr 32) (P : Point) : Prop := P.y = yOf s ∧ (P.x ≠ 0 → P.x.val % 2 = leNat s.toList / 2 ^ 255)

/-- What golang.org/x/crypto/ed25519 `Verify` computes (by C74): the key decodes to a point A, the second half of the signature is a
number S below the group order, and the first half is the encoding of S·B - k·A. -/
def GoValid (sha512 : Bytes → Arr 64) (pub : Arr 32) (m : Bytes) (sig : Arr 64) : Prop :=
  ∃ A, Decodes pub A ∧ leNat (sig.toList.drop 32) < groupOrder ∧
    sig.toList.take 32 = (encodePoint (leNat (sig.toList.drop 32) • base -
      (rfcChallenge sha512 (sig.toList.take 32) pub.toList m % groupOrder) • A)).toList

/-- Verification is that of golang.org/x/crypto/ed25519. -/
def GoVerifies (P : Prims) : Prop := ∀ pub m sig, P.edVerify pub m sig = true ↔ GoValid P.sha512 pub m sig

end Verif.Ed
