/-
The primitives put together, and the proof that they have all properties that the theorems of `Props/` assume of the libraries.
-/
import Verif.Real.Primitives
import Verif.Real.X25519
import Verif.Real.Scalars
import Verif.Props.Leak

namespace Verif.Real
open Ed Props Spec

/-- The result of a check that did not panic. -/
def accepted : Res Bool → Bool
  | .ok b => b
  | _ => false

theorem accepted_ok {r : Res Bool} {b : Bool} (h : r = .ok b) : accepted r = b := by rw [h]; rfl

/-- SHA-512, Ed25519 (from the functions of internal/edwards25519), X25519, XSalsa20, Poly1305, HMAC, and a given `bcrypt_pbkdf`. -/
def realWith (bcrypt : Bytes → Arr 16 → Nat → Arr 64) : Prims where
  sha512 := sha512
  edPublic := asmPublic sha512
  edSign := fun key m => signA sha512 (copyZ 32 key.toList) (copyZ 32 (key.toList.drop 32)) m
  edVerify := fun pub m sig => accepted (verifyA sha512 pub m sig)
  bcrypt := bcrypt
  x25519 := x25519
  x25519Base := fun k => x25519 k (encodeLE 9)
  hsalsa20 := fun k => copyZ 32 (hsalsa20 k.toList (List.replicate 16 0))
  stream := stream
  poly1305 := poly1305
  authSum := hmac

/-- All primitives. -/
def real : Prims := realWith bcryptPbkdf

variable (bcrypt : Bytes → Arr 16 → Nat → Arr 64)

/-- They implement the RFCs as `Conforms` requires. -/
theorem real_conforms : Conforms (realWith bcrypt) :=
  ⟨fun seed => C74_public _ seed, fun k u => x25519_rfc k u, fun k => x25519_rfc k _⟩

theorem real_goSigns : GoSigns (realWith bcrypt) := by
  intro key m
  refine (signA_spec sha512 _ _ m).trans (goSign_assembled sha512 _ _ key m ?_)
  have h : key.toList.length = 64 := by simp
  rw [copyZ_toList_of_le (by omega), copyZ_toList_eq (by rw [List.length_drop]; omega), List.take_append_drop]

theorem real_goVerifies : GoVerifies (realWith bcrypt) := by
  intro pub m sig
  obtain ⟨b, h, hb⟩ := C74_verify sha512 pub m sig
  have e : (realWith bcrypt).edVerify pub m sig = b := accepted_ok ((verifyA_spec sha512 pub m sig).trans h)
  rw [e]
  exact hb

/-- What the RFC calls valid is what Go accepts. -/
theorem rfcValid_goValid {sha : Bytes → Arr 64} {pub : Arr 32} {m : Bytes} {sig : Arr 64} (h : RfcValid sha pub m sig) :
    GoValid sha pub m sig := by
  obtain ⟨A, R, a, hA, hpub, hR, hS, he⟩ := h
  refine ⟨A, ?_, hS, ?_⟩
  · rw [hpub]; exact (decode_iff _ _).2 (extFromBytes_encode _)
  · rw [he]
    have hk : (rfcChallenge sha (sig.toList.take 32) pub.toList m % groupOrder) • A =
        rfcChallenge sha (sig.toList.take 32) pub.toList m • A := by
      rw [hA, ← mul_nsmul', ← mul_nsmul', mul_comm, ← mod_smul_base, Nat.mul_mod, Nat.mod_mod, ← Nat.mul_mod, mod_smul_base, mul_comm]
    rw [hk, add_sub_cancel_right]
    exact hR

/-- They sign and verify as RFC 8032 requires. -/
theorem real_signs : Signs (realWith bcrypt) where
  edPublic := fun seed => C74_public _ seed
  edSign := fun seed key m hk => (real_goSigns bcrypt key m).trans (goSign_rfc sha512 seed key m hk)
  edVerify := fun pub m sig h => (real_goVerifies bcrypt pub m sig).2 (rfcValid_goValid h)

/-- So the hypotheses of the round trip theorems C18, C36 and C57 hold for them. -/
theorem real_hypotheses : EdCorrect real ∧ DHAgrees real ∧ BoxMatches real :=
  ⟨C73_correct _ (real_signs _), C52_exchange _ (real_conforms _), C52_matching _ (real_conforms _)⟩

end Verif.Real
