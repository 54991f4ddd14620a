/-
`FeToBytes` and `FeFromBytes`: canonical reduction, packing and loading.
-/
import Verif.Spec.Little
import Verif.Lemmas.FieldVal
import Mathlib.Tactic.Linarith

namespace Verif.Ed

/-- The limbs are the digits of a number in the mixed radix 2^26, 2^25. -/
structure Fe.Digits (f : Fe) : Prop where
  h0 : 0 ≤ f.f0 ∧ f.f0 < 2 ^ 26
  h1 : 0 ≤ f.f1 ∧ f.f1 < 2 ^ 25
  h2 : 0 ≤ f.f2 ∧ f.f2 < 2 ^ 26
  h3 : 0 ≤ f.f3 ∧ f.f3 < 2 ^ 25
  h4 : 0 ≤ f.f4 ∧ f.f4 < 2 ^ 26
  h5 : 0 ≤ f.f5 ∧ f.f5 < 2 ^ 25
  h6 : 0 ≤ f.f6 ∧ f.f6 < 2 ^ 26
  h7 : 0 ≤ f.f7 ∧ f.f7 < 2 ^ 25
  h8 : 0 ≤ f.f8 ∧ f.f8 < 2 ^ 26
  h9 : 0 ≤ f.f9 ∧ f.f9 < 2 ^ 25

/-- The estimate of the quotient is exact. -/
theorem quotient_exact {h9 l t q : Int} (hl : -2 ^ 233 ≤ l ∧ l ≤ 2 ^ 233)
    (h9b : -2 ^ 26 ≤ h9 ∧ h9 ≤ 2 ^ 26)
    (ht : t * 2 ^ 25 ≤ 19 * h9 + 2 ^ 24 ∧ 19 * h9 + 2 ^ 24 < t * 2 ^ 25 + 2 ^ 25)
    (hq : q * 2 ^ 255 ≤ 2 ^ 230 * h9 + l + t ∧ 2 ^ 230 * h9 + l + t < q * 2 ^ 255 + 2 ^ 255) :
    0 ≤ 2 ^ 230 * h9 + l - q * (2 ^ 255 - 19) ∧ 2 ^ 230 * h9 + l - q * (2 ^ 255 - 19) < 2 ^ 255 - 19 := by
  omega

theorem sar26 {h : Int} (hb : -2 ^ 31 ≤ h ∧ h < 2 ^ 31) :
    sar (w32 h) 26 * 2 ^ 26 ≤ h ∧ h < sar (w32 h) 26 * 2 ^ 26 + 2 ^ 26 := by
  rw [w32_eq hb]; unfold sar; omega

theorem sar25 {h : Int} (hb : -2 ^ 31 ≤ h ∧ h < 2 ^ 31) :
    sar (w32 h) 25 * 2 ^ 25 ≤ h ∧ h < sar (w32 h) 25 * 2 ^ 25 + 2 ^ 25 := by
  rw [w32_eq hb]; unfold sar; omega

theorem sar26' {h : Int} : sar h 26 * 2 ^ 26 ≤ h ∧ h < sar h 26 * 2 ^ 26 + 2 ^ 26 := by unfold sar; omega
theorem sar25' {h : Int} : sar h 25 * 2 ^ 25 ≤ h ∧ h < sar h 25 * 2 ^ 25 + 2 ^ 25 := by unfold sar; omega

/-- The reduction of `FeToBytes` yields the digits of the canonical residue. -/
theorem feReduce_spec {h : Fe} (hb : h.Within (2 ^ 27) (2 ^ 26)) :
    (feReduce h).Digits ∧ (feReduce h).toInt = h.toInt % (p : Nat) := by
  obtain ⟨b0, b1, b2, b3, b4, b5, b6, b7, b8, b9⟩ := hb
  unfold feReduce
  extract_lets h0 h1 h2 h3 h4 h5 h6 h7 h8 h9 qt q0 q1 q2 q3 q4 q5 q6 q7 q8 q9 d0a c0 d1a d0 c1 d2a d1 c2 d3a d2 c3 d4a d3 c4 d5a d4 c5 d6a d5 c6 d7a d6 c7 d8a d7 c8 d9a d8 c9 d9
  obtain ⟨eh0, eh1, eh2, eh3, eh4, eh5, eh6, eh7, eh8, eh9⟩ : h.f0 = h0 ∧ h.f1 = h1 ∧ h.f2 = h2 ∧ h.f3 = h3 ∧ h.f4 = h4 ∧ h.f5 = h5 ∧ h.f6 = h6 ∧ h.f7 = h7 ∧ h.f8 = h8 ∧ h.f9 = h9 :=
    ⟨rfl, rfl, rfl, rfl, rfl, rfl, rfl, rfl, rfl, rfl⟩
  rw [Fe.toInt, Fe.toInt, eh0, eh1, eh2, eh3, eh4, eh5, eh6, eh7, eh8, eh9]
  rw [eh0] at b0; rw [eh1] at b1; rw [eh2] at b2; rw [eh3] at b3; rw [eh4] at b4
  rw [eh5] at b5; rw [eh6] at b6; rw [eh7] at b7; rw [eh8] at b8; rw [eh9] at b9
  have kt : qt * 2 ^ 25 ≤ 19 * h9 + 2 ^ 24 ∧ 19 * h9 + 2 ^ 24 < qt * 2 ^ 25 + 2 ^ 25 := sar25 (by omega)
  have k0 : q0 * 2 ^ 26 ≤ h0 + qt ∧ h0 + qt < q0 * 2 ^ 26 + 2 ^ 26 := sar26 (by clear_value qt; clear * - b0 kt b9; omega)
  have r0 : -2 ^ 6 ≤ q0 ∧ q0 ≤ 2 ^ 6 := by clear_value q0 qt; clear * - b0 k0 kt b9; omega
  have k1 : q1 * 2 ^ 25 ≤ h1 + q0 ∧ h1 + q0 < q1 * 2 ^ 25 + 2 ^ 25 := sar25 (by clear_value q0; clear * - b1 r0; omega)
  have r1 : -2 ^ 6 ≤ q1 ∧ q1 ≤ 2 ^ 6 := by clear_value q1 q0; clear * - b1 k1 r0; omega
  have k2 : q2 * 2 ^ 26 ≤ h2 + q1 ∧ h2 + q1 < q2 * 2 ^ 26 + 2 ^ 26 := sar26 (by clear_value q1; clear * - b2 r1; omega)
  have r2 : -2 ^ 6 ≤ q2 ∧ q2 ≤ 2 ^ 6 := by clear_value q2 q1; clear * - b2 k2 r1; omega
  have k3 : q3 * 2 ^ 25 ≤ h3 + q2 ∧ h3 + q2 < q3 * 2 ^ 25 + 2 ^ 25 := sar25 (by clear_value q2; clear * - b3 r2; omega)
  have r3 : -2 ^ 6 ≤ q3 ∧ q3 ≤ 2 ^ 6 := by clear_value q3 q2; clear * - b3 k3 r2; omega
  have k4 : q4 * 2 ^ 26 ≤ h4 + q3 ∧ h4 + q3 < q4 * 2 ^ 26 + 2 ^ 26 := sar26 (by clear_value q3; clear * - b4 r3; omega)
  have r4 : -2 ^ 6 ≤ q4 ∧ q4 ≤ 2 ^ 6 := by clear_value q4 q3; clear * - b4 k4 r3; omega
  have k5 : q5 * 2 ^ 25 ≤ h5 + q4 ∧ h5 + q4 < q5 * 2 ^ 25 + 2 ^ 25 := sar25 (by clear_value q4; clear * - b5 r4; omega)
  have r5 : -2 ^ 6 ≤ q5 ∧ q5 ≤ 2 ^ 6 := by clear_value q5 q4; clear * - b5 k5 r4; omega
  have k6 : q6 * 2 ^ 26 ≤ h6 + q5 ∧ h6 + q5 < q6 * 2 ^ 26 + 2 ^ 26 := sar26 (by clear_value q5; clear * - b6 r5; omega)
  have r6 : -2 ^ 6 ≤ q6 ∧ q6 ≤ 2 ^ 6 := by clear_value q6 q5; clear * - b6 k6 r5; omega
  have k7 : q7 * 2 ^ 25 ≤ h7 + q6 ∧ h7 + q6 < q7 * 2 ^ 25 + 2 ^ 25 := sar25 (by clear_value q6; clear * - b7 r6; omega)
  have r7 : -2 ^ 6 ≤ q7 ∧ q7 ≤ 2 ^ 6 := by clear_value q7 q6; clear * - b7 k7 r6; omega
  have k8 : q8 * 2 ^ 26 ≤ h8 + q7 ∧ h8 + q7 < q8 * 2 ^ 26 + 2 ^ 26 := sar26 (by clear_value q7; clear * - b8 r7; omega)
  have r8 : -2 ^ 6 ≤ q8 ∧ q8 ≤ 2 ^ 6 := by clear_value q8 q7; clear * - b8 k8 r7; omega
  have k9 : q9 * 2 ^ 25 ≤ h9 + q8 ∧ h9 + q8 < q9 * 2 ^ 25 + 2 ^ 25 := sar25 (by clear_value q8; clear * - b9 r8; omega)
  have r9 : -2 ^ 6 ≤ q9 ∧ q9 ≤ 2 ^ 6 := by clear_value q9 q8; clear * - b9 k9 r8; omega
  have ed0a : d0a = h0 + 19 * q9 := w32_eq (by clear_value q9; omega)
  clear_value qt q0 q1 q2 q3 q4 q5 q6 q7 q8 q9
  clear eh0 eh1 eh2 eh3 eh4 eh5 eh6 eh7 eh8 eh9
  clear_value h0 h1 h2 h3 h4 h5 h6 h7 h8 h9
  have hl : -2 ^ 233 ≤ h0 + 2 ^ 26 * h1 + 2 ^ 51 * h2 + 2 ^ 77 * h3 + 2 ^ 102 * h4 + 2 ^ 128 * h5 + 2 ^ 153 * h6 + 2 ^ 179 * h7 + 2 ^ 204 * h8 ∧ h0 + 2 ^ 26 * h1 + 2 ^ 51 * h2 + 2 ^ 77 * h3 + 2 ^ 102 * h4 + 2 ^ 128 * h5 + 2 ^ 153 * h6 + 2 ^ 179 * h7 + 2 ^ 204 * h8 ≤ 2 ^ 233 := by
    clear * - b0 b1 b2 b3 b4 b5 b6 b7 b8; omega
  have hq := quotient_exact (q := q9) hl b9 kt (by
    clear * - k0 k1 k2 k3 k4 k5 k6 k7 k8 k9
    constructor <;> linarith [k0.1, k1.1, k2.1, k3.1, k4.1, k5.1, k6.1, k7.1, k8.1, k9.1, k0.2, k1.2, k2.2, k3.2, k4.2, k5.2, k6.2, k7.2, k8.2, k9.2])
  clear hl kt k0 k1 k2 k3 k4 k5 k6 k7 k8 k9
  have m0 : c0 * 2 ^ 26 ≤ d0a ∧ d0a < c0 * 2 ^ 26 + 2 ^ 26 := sar26'
  have s0 : -2 ^ 6 ≤ c0 ∧ c0 ≤ 2 ^ 6 := by
    clear_value d0a c0; clear * - b0 m0 ed0a r9; omega
  have ed1a : d1a = h1 + c0 := w32_eq (by clear_value c0; clear * - b1 s0; omega)
  have ed0 : d0 = d0a - c0 * 2 ^ 26 := w32_eq (by clear_value d0a c0; clear * - m0; omega)
  have m1 : c1 * 2 ^ 25 ≤ d1a ∧ d1a < c1 * 2 ^ 25 + 2 ^ 25 := sar25'
  have s1 : -2 ^ 6 ≤ c1 ∧ c1 ≤ 2 ^ 6 := by
    clear_value d1a c1; clear * - b1 m1 ed1a s0; omega
  have ed2a : d2a = h2 + c1 := w32_eq (by clear_value c1; clear * - b2 s1; omega)
  have ed1 : d1 = d1a - c1 * 2 ^ 25 := w32_eq (by clear_value d1a c1; clear * - m1; omega)
  have m2 : c2 * 2 ^ 26 ≤ d2a ∧ d2a < c2 * 2 ^ 26 + 2 ^ 26 := sar26'
  have s2 : -2 ^ 6 ≤ c2 ∧ c2 ≤ 2 ^ 6 := by
    clear_value d2a c2; clear * - b2 m2 ed2a s1; omega
  have ed3a : d3a = h3 + c2 := w32_eq (by clear_value c2; clear * - b3 s2; omega)
  have ed2 : d2 = d2a - c2 * 2 ^ 26 := w32_eq (by clear_value d2a c2; clear * - m2; omega)
  have m3 : c3 * 2 ^ 25 ≤ d3a ∧ d3a < c3 * 2 ^ 25 + 2 ^ 25 := sar25'
  have s3 : -2 ^ 6 ≤ c3 ∧ c3 ≤ 2 ^ 6 := by
    clear_value d3a c3; clear * - b3 m3 ed3a s2; omega
  have ed4a : d4a = h4 + c3 := w32_eq (by clear_value c3; clear * - b4 s3; omega)
  have ed3 : d3 = d3a - c3 * 2 ^ 25 := w32_eq (by clear_value d3a c3; clear * - m3; omega)
  have m4 : c4 * 2 ^ 26 ≤ d4a ∧ d4a < c4 * 2 ^ 26 + 2 ^ 26 := sar26'
  have s4 : -2 ^ 6 ≤ c4 ∧ c4 ≤ 2 ^ 6 := by
    clear_value d4a c4; clear * - b4 m4 ed4a s3; omega
  have ed5a : d5a = h5 + c4 := w32_eq (by clear_value c4; clear * - b5 s4; omega)
  have ed4 : d4 = d4a - c4 * 2 ^ 26 := w32_eq (by clear_value d4a c4; clear * - m4; omega)
  have m5 : c5 * 2 ^ 25 ≤ d5a ∧ d5a < c5 * 2 ^ 25 + 2 ^ 25 := sar25'
  have s5 : -2 ^ 6 ≤ c5 ∧ c5 ≤ 2 ^ 6 := by
    clear_value d5a c5; clear * - b5 m5 ed5a s4; omega
  have ed6a : d6a = h6 + c5 := w32_eq (by clear_value c5; clear * - b6 s5; omega)
  have ed5 : d5 = d5a - c5 * 2 ^ 25 := w32_eq (by clear_value d5a c5; clear * - m5; omega)
  have m6 : c6 * 2 ^ 26 ≤ d6a ∧ d6a < c6 * 2 ^ 26 + 2 ^ 26 := sar26'
  have s6 : -2 ^ 6 ≤ c6 ∧ c6 ≤ 2 ^ 6 := by
    clear_value d6a c6; clear * - b6 m6 ed6a s5; omega
  have ed7a : d7a = h7 + c6 := w32_eq (by clear_value c6; clear * - b7 s6; omega)
  have ed6 : d6 = d6a - c6 * 2 ^ 26 := w32_eq (by clear_value d6a c6; clear * - m6; omega)
  have m7 : c7 * 2 ^ 25 ≤ d7a ∧ d7a < c7 * 2 ^ 25 + 2 ^ 25 := sar25'
  have s7 : -2 ^ 6 ≤ c7 ∧ c7 ≤ 2 ^ 6 := by
    clear_value d7a c7; clear * - b7 m7 ed7a s6; omega
  have ed8a : d8a = h8 + c7 := w32_eq (by clear_value c7; clear * - b8 s7; omega)
  have ed7 : d7 = d7a - c7 * 2 ^ 25 := w32_eq (by clear_value d7a c7; clear * - m7; omega)
  have m8 : c8 * 2 ^ 26 ≤ d8a ∧ d8a < c8 * 2 ^ 26 + 2 ^ 26 := sar26'
  have s8 : -2 ^ 6 ≤ c8 ∧ c8 ≤ 2 ^ 6 := by
    clear_value d8a c8; clear * - b8 m8 ed8a s7; omega
  have ed9a : d9a = h9 + c8 := w32_eq (by clear_value c8; clear * - b9 s8; omega)
  have ed8 : d8 = d8a - c8 * 2 ^ 26 := w32_eq (by clear_value d8a c8; clear * - m8; omega)
  have m9 : c9 * 2 ^ 25 ≤ d9a ∧ d9a < c9 * 2 ^ 25 + 2 ^ 25 := sar25'
  have s9 : -2 ^ 6 ≤ c9 ∧ c9 ≤ 2 ^ 6 := by
    clear_value d9a c9; clear * - b9 m9 ed9a s8; omega
  have ed9 : d9 = d9a - c9 * 2 ^ 25 := w32_eq (by clear_value d9a c9; clear * - m9; omega)
  clear_value d0a d0 c0 d1a d1 c1 d2a d2 c2 d3a d3 c3 d4a d4 c4 d5a d5 c5 d6a d6 c6 d7a d7 c7 d8a d8 c8 d9a d9 c9
  have t0 : 0 ≤ d0 ∧ d0 < 2 ^ 26 := by clear * - m0 ed0; omega
  have t1 : 0 ≤ d1 ∧ d1 < 2 ^ 25 := by clear * - m1 ed1; omega
  have t2 : 0 ≤ d2 ∧ d2 < 2 ^ 26 := by clear * - m2 ed2; omega
  have t3 : 0 ≤ d3 ∧ d3 < 2 ^ 25 := by clear * - m3 ed3; omega
  have t4 : 0 ≤ d4 ∧ d4 < 2 ^ 26 := by clear * - m4 ed4; omega
  have t5 : 0 ≤ d5 ∧ d5 < 2 ^ 25 := by clear * - m5 ed5; omega
  have t6 : 0 ≤ d6 ∧ d6 < 2 ^ 26 := by clear * - m6 ed6; omega
  have t7 : 0 ≤ d7 ∧ d7 < 2 ^ 25 := by clear * - m7 ed7; omega
  have t8 : 0 ≤ d8 ∧ d8 < 2 ^ 26 := by clear * - m8 ed8; omega
  have t9 : 0 ≤ d9 ∧ d9 < 2 ^ 25 := by clear * - m9 ed9; omega
  have hsum : limbs d0 d1 d2 d3 d4 d5 d6 d7 d8 d9 = limbs h0 h1 h2 h3 h4 h5 h6 h7 h8 h9 - q9 * (2 ^ 255 - 19) + (q9 - c9) * 2 ^ 255 := by
    unfold limbs
    rw [ed0, ed1, ed2, ed3, ed4, ed5, ed6, ed7, ed8, ed9, ed0a, ed1a, ed2a, ed3a, ed4a, ed5a, ed6a, ed7a, ed8a, ed9a]
    ring
  have hr : 0 ≤ limbs d0 d1 d2 d3 d4 d5 d6 d7 d8 d9 ∧ limbs d0 d1 d2 d3 d4 d5 d6 d7 d8 d9 < 2 ^ 255 := by
    unfold limbs; clear * - t0 t1 t2 t3 t4 t5 t6 t7 t8 t9; omega
  have hq' : 0 ≤ limbs h0 h1 h2 h3 h4 h5 h6 h7 h8 h9 - q9 * (2 ^ 255 - 19) ∧
      limbs h0 h1 h2 h3 h4 h5 h6 h7 h8 h9 - q9 * (2 ^ 255 - 19) < 2 ^ 255 - 19 := by
    unfold limbs; clear * - hq; constructor <;> linarith [hq.1, hq.2]
  refine ⟨⟨t0, t1, t2, t3, t4, t5, t6, t7, t8, t9⟩, ?_⟩
  dsimp only
  rw [show ((p : Nat) : Int) = 2 ^ 255 - 19 by norm_num]
  generalize limbs h0 h1 h2 h3 h4 h5 h6 h7 h8 h9 = x at *
  generalize limbs d0 d1 d2 d3 d4 d5 d6 d7 d8 d9 = y at *
  clear * - hsum hr hq'
  have hc : q9 = c9 := by omega
  have hy : y = x - q9 * (2 ^ 255 - 19) := by rw [hsum, hc]; ring
  rw [← Int.emod_eq_of_lt (a := y) (b := 2 ^ 255 - 19) (by omega) (by omega), hy, Int.sub_mul_emod_self_right]

end Verif.Ed
