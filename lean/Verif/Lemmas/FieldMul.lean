/-
`FeMul`, `FeSquare`, `FeSquare2`: no overflow, and the value.
-/
import Verif.Lemmas.FieldCombine
import Mathlib.Algebra.Order.Ring.Abs

namespace Verif.Ed

theorem prod_bound {a b A B : Int} (ha : -A ≤ a ∧ a ≤ A) (hb : -B ≤ b ∧ b ≤ B) : -(A * B) ≤ a * b ∧ a * b ≤ A * B := by
  have h1 : |a| ≤ A := abs_le.mpr ha
  have h2 : |b| ≤ B := abs_le.mpr hb
  have h3 : |a * b| ≤ A * B := by
    rw [abs_mul]
    exact mul_le_mul h1 h2 (abs_nonneg b) ((abs_nonneg a).trans h1)
  exact abs_le.mp h3

/-- Input bounds of `FeMul` and `FeSquare`: 1.65 * 2^26 for even limbs and 1.65 * 2^25 for odd ones. The documented bounds have 1.1
for 1.65; the group operations (e.g. `geAdd` followed by `ToExtended`) exceed those. -/
abbrev Fe.Ok (f : Fe) : Prop := f.Within 110729625 55364812

theorem feMul_spec {f g : Fe} (hf : f.Ok) (hg : g.Ok) :
    (feMul f g).Within (2 ^ 25) (2 ^ 24 + 2 ^ 16) ∧ ∃ q, (feMul f g).toInt = f.toInt * g.toInt - q * (p : Nat) := by
  obtain ⟨F0, F1, F2, F3, F4, F5, F6, F7, F8, F9⟩ := hf
  obtain ⟨G0, G1, G2, G3, G4, G5, G6, G7, G8, G9⟩ := hg
  obtain ⟨f0, f1, f2, f3, f4, f5, f6, f7, f8, f9⟩ := f
  obtain ⟨g0, g1, g2, g3, g4, g5, g6, g7, g8, g9⟩ := g
  dsimp only at F0 G0 F1 G1 F2 G2 F3 G3 F4 G4 F5 G5 F6 G6 F7 G7 F8 G8 F9 G9
  simp only [feMul]
  rw [show w32 (2 * f1) = 2 * f1 from w32_eq (by omega)]
  rw [show w32 (2 * f3) = 2 * f3 from w32_eq (by omega)]
  rw [show w32 (2 * f5) = 2 * f5 from w32_eq (by omega)]
  rw [show w32 (2 * f7) = 2 * f7 from w32_eq (by omega)]
  rw [show w32 (2 * f9) = 2 * f9 from w32_eq (by omega)]
  rw [show w32 (19 * g1) = 19 * g1 from w32_eq (by omega)]
  rw [show w32 (19 * g2) = 19 * g2 from w32_eq (by omega)]
  rw [show w32 (19 * g3) = 19 * g3 from w32_eq (by omega)]
  rw [show w32 (19 * g4) = 19 * g4 from w32_eq (by omega)]
  rw [show w32 (19 * g5) = 19 * g5 from w32_eq (by omega)]
  rw [show w32 (19 * g6) = 19 * g6 from w32_eq (by omega)]
  rw [show w32 (19 * g7) = 19 * g7 from w32_eq (by omega)]
  rw [show w32 (19 * g8) = 19 * g8 from w32_eq (by omega)]
  rw [show w32 (19 * g9) = 19 * g9 from w32_eq (by omega)]
  have S0 : -2 ^ 62 ≤ f0 * g0 + 2 * f1 * (19 * g9) + f2 * (19 * g8) + 2 * f3 * (19 * g7) + f4 * (19 * g6) + 2 * f5 * (19 * g5) + f6 * (19 * g4) + 2 * f7 * (19 * g3) + f8 * (19 * g2) + 2 * f9 * (19 * g1) ∧ f0 * g0 + 2 * f1 * (19 * g9) + f2 * (19 * g8) + 2 * f3 * (19 * g7) + f4 * (19 * g6) + 2 * f5 * (19 * g5) + f6 * (19 * g4) + 2 * f7 * (19 * g3) + f8 * (19 * g2) + 2 * f9 * (19 * g1) ≤ 2 ^ 62 := by
    have m0 := prod_bound (a := f0) (b := g0) (A := 110729625) (B := 110729625) (by omega) (by omega)
    have m1 := prod_bound (a := 2 * f1) (b := 19 * g9) (A := 110729624) (B := 1051931428) (by omega) (by omega)
    have m2 := prod_bound (a := f2) (b := 19 * g8) (A := 110729625) (B := 2103862875) (by omega) (by omega)
    have m3 := prod_bound (a := 2 * f3) (b := 19 * g7) (A := 110729624) (B := 1051931428) (by omega) (by omega)
    have m4 := prod_bound (a := f4) (b := 19 * g6) (A := 110729625) (B := 2103862875) (by omega) (by omega)
    have m5 := prod_bound (a := 2 * f5) (b := 19 * g5) (A := 110729624) (B := 1051931428) (by omega) (by omega)
    have m6 := prod_bound (a := f6) (b := 19 * g4) (A := 110729625) (B := 2103862875) (by omega) (by omega)
    have m7 := prod_bound (a := 2 * f7) (b := 19 * g3) (A := 110729624) (B := 1051931428) (by omega) (by omega)
    have m8 := prod_bound (a := f8) (b := 19 * g2) (A := 110729625) (B := 2103862875) (by omega) (by omega)
    have m9 := prod_bound (a := 2 * f9) (b := 19 * g1) (A := 110729624) (B := 1051931428) (by omega) (by omega)
    omega
  have S1 : -2 ^ 62 ≤ f0 * g1 + f1 * g0 + f2 * (19 * g9) + f3 * (19 * g8) + f4 * (19 * g7) + f5 * (19 * g6) + f6 * (19 * g5) + f7 * (19 * g4) + f8 * (19 * g3) + f9 * (19 * g2) ∧ f0 * g1 + f1 * g0 + f2 * (19 * g9) + f3 * (19 * g8) + f4 * (19 * g7) + f5 * (19 * g6) + f6 * (19 * g5) + f7 * (19 * g4) + f8 * (19 * g3) + f9 * (19 * g2) ≤ 2 ^ 62 := by
    have m0 := prod_bound (a := f0) (b := g1) (A := 110729625) (B := 55364812) (by omega) (by omega)
    have m1 := prod_bound (a := f1) (b := g0) (A := 55364812) (B := 110729625) (by omega) (by omega)
    have m2 := prod_bound (a := f2) (b := 19 * g9) (A := 110729625) (B := 1051931428) (by omega) (by omega)
    have m3 := prod_bound (a := f3) (b := 19 * g8) (A := 55364812) (B := 2103862875) (by omega) (by omega)
    have m4 := prod_bound (a := f4) (b := 19 * g7) (A := 110729625) (B := 1051931428) (by omega) (by omega)
    have m5 := prod_bound (a := f5) (b := 19 * g6) (A := 55364812) (B := 2103862875) (by omega) (by omega)
    have m6 := prod_bound (a := f6) (b := 19 * g5) (A := 110729625) (B := 1051931428) (by omega) (by omega)
    have m7 := prod_bound (a := f7) (b := 19 * g4) (A := 55364812) (B := 2103862875) (by omega) (by omega)
    have m8 := prod_bound (a := f8) (b := 19 * g3) (A := 110729625) (B := 1051931428) (by omega) (by omega)
    have m9 := prod_bound (a := f9) (b := 19 * g2) (A := 55364812) (B := 2103862875) (by omega) (by omega)
    omega
  have S2 : -2 ^ 62 ≤ f0 * g2 + 2 * f1 * g1 + f2 * g0 + 2 * f3 * (19 * g9) + f4 * (19 * g8) + 2 * f5 * (19 * g7) + f6 * (19 * g6) + 2 * f7 * (19 * g5) + f8 * (19 * g4) + 2 * f9 * (19 * g3) ∧ f0 * g2 + 2 * f1 * g1 + f2 * g0 + 2 * f3 * (19 * g9) + f4 * (19 * g8) + 2 * f5 * (19 * g7) + f6 * (19 * g6) + 2 * f7 * (19 * g5) + f8 * (19 * g4) + 2 * f9 * (19 * g3) ≤ 2 ^ 62 := by
    have m0 := prod_bound (a := f0) (b := g2) (A := 110729625) (B := 110729625) (by omega) (by omega)
    have m1 := prod_bound (a := 2 * f1) (b := g1) (A := 110729624) (B := 55364812) (by omega) (by omega)
    have m2 := prod_bound (a := f2) (b := g0) (A := 110729625) (B := 110729625) (by omega) (by omega)
    have m3 := prod_bound (a := 2 * f3) (b := 19 * g9) (A := 110729624) (B := 1051931428) (by omega) (by omega)
    have m4 := prod_bound (a := f4) (b := 19 * g8) (A := 110729625) (B := 2103862875) (by omega) (by omega)
    have m5 := prod_bound (a := 2 * f5) (b := 19 * g7) (A := 110729624) (B := 1051931428) (by omega) (by omega)
    have m6 := prod_bound (a := f6) (b := 19 * g6) (A := 110729625) (B := 2103862875) (by omega) (by omega)
    have m7 := prod_bound (a := 2 * f7) (b := 19 * g5) (A := 110729624) (B := 1051931428) (by omega) (by omega)
    have m8 := prod_bound (a := f8) (b := 19 * g4) (A := 110729625) (B := 2103862875) (by omega) (by omega)
    have m9 := prod_bound (a := 2 * f9) (b := 19 * g3) (A := 110729624) (B := 1051931428) (by omega) (by omega)
    omega
  have S3 : -2 ^ 62 ≤ f0 * g3 + f1 * g2 + f2 * g1 + f3 * g0 + f4 * (19 * g9) + f5 * (19 * g8) + f6 * (19 * g7) + f7 * (19 * g6) + f8 * (19 * g5) + f9 * (19 * g4) ∧ f0 * g3 + f1 * g2 + f2 * g1 + f3 * g0 + f4 * (19 * g9) + f5 * (19 * g8) + f6 * (19 * g7) + f7 * (19 * g6) + f8 * (19 * g5) + f9 * (19 * g4) ≤ 2 ^ 62 := by
    have m0 := prod_bound (a := f0) (b := g3) (A := 110729625) (B := 55364812) (by omega) (by omega)
    have m1 := prod_bound (a := f1) (b := g2) (A := 55364812) (B := 110729625) (by omega) (by omega)
    have m2 := prod_bound (a := f2) (b := g1) (A := 110729625) (B := 55364812) (by omega) (by omega)
    have m3 := prod_bound (a := f3) (b := g0) (A := 55364812) (B := 110729625) (by omega) (by omega)
    have m4 := prod_bound (a := f4) (b := 19 * g9) (A := 110729625) (B := 1051931428) (by omega) (by omega)
    have m5 := prod_bound (a := f5) (b := 19 * g8) (A := 55364812) (B := 2103862875) (by omega) (by omega)
    have m6 := prod_bound (a := f6) (b := 19 * g7) (A := 110729625) (B := 1051931428) (by omega) (by omega)
    have m7 := prod_bound (a := f7) (b := 19 * g6) (A := 55364812) (B := 2103862875) (by omega) (by omega)
    have m8 := prod_bound (a := f8) (b := 19 * g5) (A := 110729625) (B := 1051931428) (by omega) (by omega)
    have m9 := prod_bound (a := f9) (b := 19 * g4) (A := 55364812) (B := 2103862875) (by omega) (by omega)
    omega
  have S4 : -2 ^ 62 ≤ f0 * g4 + 2 * f1 * g3 + f2 * g2 + 2 * f3 * g1 + f4 * g0 + 2 * f5 * (19 * g9) + f6 * (19 * g8) + 2 * f7 * (19 * g7) + f8 * (19 * g6) + 2 * f9 * (19 * g5) ∧ f0 * g4 + 2 * f1 * g3 + f2 * g2 + 2 * f3 * g1 + f4 * g0 + 2 * f5 * (19 * g9) + f6 * (19 * g8) + 2 * f7 * (19 * g7) + f8 * (19 * g6) + 2 * f9 * (19 * g5) ≤ 2 ^ 62 := by
    have m0 := prod_bound (a := f0) (b := g4) (A := 110729625) (B := 110729625) (by omega) (by omega)
    have m1 := prod_bound (a := 2 * f1) (b := g3) (A := 110729624) (B := 55364812) (by omega) (by omega)
    have m2 := prod_bound (a := f2) (b := g2) (A := 110729625) (B := 110729625) (by omega) (by omega)
    have m3 := prod_bound (a := 2 * f3) (b := g1) (A := 110729624) (B := 55364812) (by omega) (by omega)
    have m4 := prod_bound (a := f4) (b := g0) (A := 110729625) (B := 110729625) (by omega) (by omega)
    have m5 := prod_bound (a := 2 * f5) (b := 19 * g9) (A := 110729624) (B := 1051931428) (by omega) (by omega)
    have m6 := prod_bound (a := f6) (b := 19 * g8) (A := 110729625) (B := 2103862875) (by omega) (by omega)
    have m7 := prod_bound (a := 2 * f7) (b := 19 * g7) (A := 110729624) (B := 1051931428) (by omega) (by omega)
    have m8 := prod_bound (a := f8) (b := 19 * g6) (A := 110729625) (B := 2103862875) (by omega) (by omega)
    have m9 := prod_bound (a := 2 * f9) (b := 19 * g5) (A := 110729624) (B := 1051931428) (by omega) (by omega)
    omega
  have S5 : -2 ^ 62 ≤ f0 * g5 + f1 * g4 + f2 * g3 + f3 * g2 + f4 * g1 + f5 * g0 + f6 * (19 * g9) + f7 * (19 * g8) + f8 * (19 * g7) + f9 * (19 * g6) ∧ f0 * g5 + f1 * g4 + f2 * g3 + f3 * g2 + f4 * g1 + f5 * g0 + f6 * (19 * g9) + f7 * (19 * g8) + f8 * (19 * g7) + f9 * (19 * g6) ≤ 2 ^ 62 := by
    have m0 := prod_bound (a := f0) (b := g5) (A := 110729625) (B := 55364812) (by omega) (by omega)
    have m1 := prod_bound (a := f1) (b := g4) (A := 55364812) (B := 110729625) (by omega) (by omega)
    have m2 := prod_bound (a := f2) (b := g3) (A := 110729625) (B := 55364812) (by omega) (by omega)
    have m3 := prod_bound (a := f3) (b := g2) (A := 55364812) (B := 110729625) (by omega) (by omega)
    have m4 := prod_bound (a := f4) (b := g1) (A := 110729625) (B := 55364812) (by omega) (by omega)
    have m5 := prod_bound (a := f5) (b := g0) (A := 55364812) (B := 110729625) (by omega) (by omega)
    have m6 := prod_bound (a := f6) (b := 19 * g9) (A := 110729625) (B := 1051931428) (by omega) (by omega)
    have m7 := prod_bound (a := f7) (b := 19 * g8) (A := 55364812) (B := 2103862875) (by omega) (by omega)
    have m8 := prod_bound (a := f8) (b := 19 * g7) (A := 110729625) (B := 1051931428) (by omega) (by omega)
    have m9 := prod_bound (a := f9) (b := 19 * g6) (A := 55364812) (B := 2103862875) (by omega) (by omega)
    omega
  have S6 : -2 ^ 62 ≤ f0 * g6 + 2 * f1 * g5 + f2 * g4 + 2 * f3 * g3 + f4 * g2 + 2 * f5 * g1 + f6 * g0 + 2 * f7 * (19 * g9) + f8 * (19 * g8) + 2 * f9 * (19 * g7) ∧ f0 * g6 + 2 * f1 * g5 + f2 * g4 + 2 * f3 * g3 + f4 * g2 + 2 * f5 * g1 + f6 * g0 + 2 * f7 * (19 * g9) + f8 * (19 * g8) + 2 * f9 * (19 * g7) ≤ 2 ^ 62 := by
    have m0 := prod_bound (a := f0) (b := g6) (A := 110729625) (B := 110729625) (by omega) (by omega)
    have m1 := prod_bound (a := 2 * f1) (b := g5) (A := 110729624) (B := 55364812) (by omega) (by omega)
    have m2 := prod_bound (a := f2) (b := g4) (A := 110729625) (B := 110729625) (by omega) (by omega)
    have m3 := prod_bound (a := 2 * f3) (b := g3) (A := 110729624) (B := 55364812) (by omega) (by omega)
    have m4 := prod_bound (a := f4) (b := g2) (A := 110729625) (B := 110729625) (by omega) (by omega)
    have m5 := prod_bound (a := 2 * f5) (b := g1) (A := 110729624) (B := 55364812) (by omega) (by omega)
    have m6 := prod_bound (a := f6) (b := g0) (A := 110729625) (B := 110729625) (by omega) (by omega)
    have m7 := prod_bound (a := 2 * f7) (b := 19 * g9) (A := 110729624) (B := 1051931428) (by omega) (by omega)
    have m8 := prod_bound (a := f8) (b := 19 * g8) (A := 110729625) (B := 2103862875) (by omega) (by omega)
    have m9 := prod_bound (a := 2 * f9) (b := 19 * g7) (A := 110729624) (B := 1051931428) (by omega) (by omega)
    omega
  have S7 : -2 ^ 62 ≤ f0 * g7 + f1 * g6 + f2 * g5 + f3 * g4 + f4 * g3 + f5 * g2 + f6 * g1 + f7 * g0 + f8 * (19 * g9) + f9 * (19 * g8) ∧ f0 * g7 + f1 * g6 + f2 * g5 + f3 * g4 + f4 * g3 + f5 * g2 + f6 * g1 + f7 * g0 + f8 * (19 * g9) + f9 * (19 * g8) ≤ 2 ^ 62 := by
    have m0 := prod_bound (a := f0) (b := g7) (A := 110729625) (B := 55364812) (by omega) (by omega)
    have m1 := prod_bound (a := f1) (b := g6) (A := 55364812) (B := 110729625) (by omega) (by omega)
    have m2 := prod_bound (a := f2) (b := g5) (A := 110729625) (B := 55364812) (by omega) (by omega)
    have m3 := prod_bound (a := f3) (b := g4) (A := 55364812) (B := 110729625) (by omega) (by omega)
    have m4 := prod_bound (a := f4) (b := g3) (A := 110729625) (B := 55364812) (by omega) (by omega)
    have m5 := prod_bound (a := f5) (b := g2) (A := 55364812) (B := 110729625) (by omega) (by omega)
    have m6 := prod_bound (a := f6) (b := g1) (A := 110729625) (B := 55364812) (by omega) (by omega)
    have m7 := prod_bound (a := f7) (b := g0) (A := 55364812) (B := 110729625) (by omega) (by omega)
    have m8 := prod_bound (a := f8) (b := 19 * g9) (A := 110729625) (B := 1051931428) (by omega) (by omega)
    have m9 := prod_bound (a := f9) (b := 19 * g8) (A := 55364812) (B := 2103862875) (by omega) (by omega)
    omega
  have S8 : -2 ^ 62 ≤ f0 * g8 + 2 * f1 * g7 + f2 * g6 + 2 * f3 * g5 + f4 * g4 + 2 * f5 * g3 + f6 * g2 + 2 * f7 * g1 + f8 * g0 + 2 * f9 * (19 * g9) ∧ f0 * g8 + 2 * f1 * g7 + f2 * g6 + 2 * f3 * g5 + f4 * g4 + 2 * f5 * g3 + f6 * g2 + 2 * f7 * g1 + f8 * g0 + 2 * f9 * (19 * g9) ≤ 2 ^ 62 := by
    have m0 := prod_bound (a := f0) (b := g8) (A := 110729625) (B := 110729625) (by omega) (by omega)
    have m1 := prod_bound (a := 2 * f1) (b := g7) (A := 110729624) (B := 55364812) (by omega) (by omega)
    have m2 := prod_bound (a := f2) (b := g6) (A := 110729625) (B := 110729625) (by omega) (by omega)
    have m3 := prod_bound (a := 2 * f3) (b := g5) (A := 110729624) (B := 55364812) (by omega) (by omega)
    have m4 := prod_bound (a := f4) (b := g4) (A := 110729625) (B := 110729625) (by omega) (by omega)
    have m5 := prod_bound (a := 2 * f5) (b := g3) (A := 110729624) (B := 55364812) (by omega) (by omega)
    have m6 := prod_bound (a := f6) (b := g2) (A := 110729625) (B := 110729625) (by omega) (by omega)
    have m7 := prod_bound (a := 2 * f7) (b := g1) (A := 110729624) (B := 55364812) (by omega) (by omega)
    have m8 := prod_bound (a := f8) (b := g0) (A := 110729625) (B := 110729625) (by omega) (by omega)
    have m9 := prod_bound (a := 2 * f9) (b := 19 * g9) (A := 110729624) (B := 1051931428) (by omega) (by omega)
    omega
  have S9 : -2 ^ 62 ≤ f0 * g9 + f1 * g8 + f2 * g7 + f3 * g6 + f4 * g5 + f5 * g4 + f6 * g3 + f7 * g2 + f8 * g1 + f9 * g0 ∧ f0 * g9 + f1 * g8 + f2 * g7 + f3 * g6 + f4 * g5 + f5 * g4 + f6 * g3 + f7 * g2 + f8 * g1 + f9 * g0 ≤ 2 ^ 62 := by
    have m0 := prod_bound (a := f0) (b := g9) (A := 110729625) (B := 55364812) (by omega) (by omega)
    have m1 := prod_bound (a := f1) (b := g8) (A := 55364812) (B := 110729625) (by omega) (by omega)
    have m2 := prod_bound (a := f2) (b := g7) (A := 110729625) (B := 55364812) (by omega) (by omega)
    have m3 := prod_bound (a := f3) (b := g6) (A := 55364812) (B := 110729625) (by omega) (by omega)
    have m4 := prod_bound (a := f4) (b := g5) (A := 110729625) (B := 55364812) (by omega) (by omega)
    have m5 := prod_bound (a := f5) (b := g4) (A := 55364812) (B := 110729625) (by omega) (by omega)
    have m6 := prod_bound (a := f6) (b := g3) (A := 110729625) (B := 55364812) (by omega) (by omega)
    have m7 := prod_bound (a := f7) (b := g2) (A := 55364812) (B := 110729625) (by omega) (by omega)
    have m8 := prod_bound (a := f8) (b := g1) (A := 110729625) (B := 55364812) (by omega) (by omega)
    have m9 := prod_bound (a := f9) (b := g0) (A := 55364812) (B := 110729625) (by omega) (by omega)
    omega
  rw [show w64 (f0 * g0 + 2 * f1 * (19 * g9) + f2 * (19 * g8) + 2 * f3 * (19 * g7) + f4 * (19 * g6) + 2 * f5 * (19 * g5) + f6 * (19 * g4) + 2 * f7 * (19 * g3) + f8 * (19 * g2) + 2 * f9 * (19 * g1)) = f0 * g0 + 2 * f1 * (19 * g9) + f2 * (19 * g8) + 2 * f3 * (19 * g7) + f4 * (19 * g6) + 2 * f5 * (19 * g5) + f6 * (19 * g4) + 2 * f7 * (19 * g3) + f8 * (19 * g2) + 2 * f9 * (19 * g1) from w64_eq (by omega)]
  rw [show w64 (f0 * g1 + f1 * g0 + f2 * (19 * g9) + f3 * (19 * g8) + f4 * (19 * g7) + f5 * (19 * g6) + f6 * (19 * g5) + f7 * (19 * g4) + f8 * (19 * g3) + f9 * (19 * g2)) = f0 * g1 + f1 * g0 + f2 * (19 * g9) + f3 * (19 * g8) + f4 * (19 * g7) + f5 * (19 * g6) + f6 * (19 * g5) + f7 * (19 * g4) + f8 * (19 * g3) + f9 * (19 * g2) from w64_eq (by omega)]
  rw [show w64 (f0 * g2 + 2 * f1 * g1 + f2 * g0 + 2 * f3 * (19 * g9) + f4 * (19 * g8) + 2 * f5 * (19 * g7) + f6 * (19 * g6) + 2 * f7 * (19 * g5) + f8 * (19 * g4) + 2 * f9 * (19 * g3)) = f0 * g2 + 2 * f1 * g1 + f2 * g0 + 2 * f3 * (19 * g9) + f4 * (19 * g8) + 2 * f5 * (19 * g7) + f6 * (19 * g6) + 2 * f7 * (19 * g5) + f8 * (19 * g4) + 2 * f9 * (19 * g3) from w64_eq (by omega)]
  rw [show w64 (f0 * g3 + f1 * g2 + f2 * g1 + f3 * g0 + f4 * (19 * g9) + f5 * (19 * g8) + f6 * (19 * g7) + f7 * (19 * g6) + f8 * (19 * g5) + f9 * (19 * g4)) = f0 * g3 + f1 * g2 + f2 * g1 + f3 * g0 + f4 * (19 * g9) + f5 * (19 * g8) + f6 * (19 * g7) + f7 * (19 * g6) + f8 * (19 * g5) + f9 * (19 * g4) from w64_eq (by omega)]
  rw [show w64 (f0 * g4 + 2 * f1 * g3 + f2 * g2 + 2 * f3 * g1 + f4 * g0 + 2 * f5 * (19 * g9) + f6 * (19 * g8) + 2 * f7 * (19 * g7) + f8 * (19 * g6) + 2 * f9 * (19 * g5)) = f0 * g4 + 2 * f1 * g3 + f2 * g2 + 2 * f3 * g1 + f4 * g0 + 2 * f5 * (19 * g9) + f6 * (19 * g8) + 2 * f7 * (19 * g7) + f8 * (19 * g6) + 2 * f9 * (19 * g5) from w64_eq (by omega)]
  rw [show w64 (f0 * g5 + f1 * g4 + f2 * g3 + f3 * g2 + f4 * g1 + f5 * g0 + f6 * (19 * g9) + f7 * (19 * g8) + f8 * (19 * g7) + f9 * (19 * g6)) = f0 * g5 + f1 * g4 + f2 * g3 + f3 * g2 + f4 * g1 + f5 * g0 + f6 * (19 * g9) + f7 * (19 * g8) + f8 * (19 * g7) + f9 * (19 * g6) from w64_eq (by omega)]
  rw [show w64 (f0 * g6 + 2 * f1 * g5 + f2 * g4 + 2 * f3 * g3 + f4 * g2 + 2 * f5 * g1 + f6 * g0 + 2 * f7 * (19 * g9) + f8 * (19 * g8) + 2 * f9 * (19 * g7)) = f0 * g6 + 2 * f1 * g5 + f2 * g4 + 2 * f3 * g3 + f4 * g2 + 2 * f5 * g1 + f6 * g0 + 2 * f7 * (19 * g9) + f8 * (19 * g8) + 2 * f9 * (19 * g7) from w64_eq (by omega)]
  rw [show w64 (f0 * g7 + f1 * g6 + f2 * g5 + f3 * g4 + f4 * g3 + f5 * g2 + f6 * g1 + f7 * g0 + f8 * (19 * g9) + f9 * (19 * g8)) = f0 * g7 + f1 * g6 + f2 * g5 + f3 * g4 + f4 * g3 + f5 * g2 + f6 * g1 + f7 * g0 + f8 * (19 * g9) + f9 * (19 * g8) from w64_eq (by omega)]
  rw [show w64 (f0 * g8 + 2 * f1 * g7 + f2 * g6 + 2 * f3 * g5 + f4 * g4 + 2 * f5 * g3 + f6 * g2 + 2 * f7 * g1 + f8 * g0 + 2 * f9 * (19 * g9)) = f0 * g8 + 2 * f1 * g7 + f2 * g6 + 2 * f3 * g5 + f4 * g4 + 2 * f5 * g3 + f6 * g2 + 2 * f7 * g1 + f8 * g0 + 2 * f9 * (19 * g9) from w64_eq (by omega)]
  rw [show w64 (f0 * g9 + f1 * g8 + f2 * g7 + f3 * g6 + f4 * g5 + f5 * g4 + f6 * g3 + f7 * g2 + f8 * g1 + f9 * g0) = f0 * g9 + f1 * g8 + f2 * g7 + f3 * g6 + f4 * g5 + f5 * g4 + f6 * g3 + f7 * g2 + f8 * g1 + f9 * g0 from w64_eq (by omega)]
  obtain ⟨hw, q, hq⟩ := feCombine_spec S0 S1 S2 S3 S4 S5 S6 S7 S8 S9
  refine ⟨hw, q + (2 * 2 ^ 0 * (f1 * g9) + 1 * 2 ^ 0 * (f2 * g8) + 1 * 2 ^ 26 * (f2 * g9) + 2 * 2 ^ 0 * (f3 * g7) + 1 * 2 ^ 26 * (f3 * g8) + 2 * 2 ^ 51 * (f3 * g9) + 1 * 2 ^ 0 * (f4 * g6) + 1 * 2 ^ 26 * (f4 * g7) + 1 * 2 ^ 51 * (f4 * g8) + 1 * 2 ^ 77 * (f4 * g9) + 2 * 2 ^ 0 * (f5 * g5) + 1 * 2 ^ 26 * (f5 * g6) + 2 * 2 ^ 51 * (f5 * g7) + 1 * 2 ^ 77 * (f5 * g8) + 2 * 2 ^ 102 * (f5 * g9) + 1 * 2 ^ 0 * (f6 * g4) + 1 * 2 ^ 26 * (f6 * g5) + 1 * 2 ^ 51 * (f6 * g6) + 1 * 2 ^ 77 * (f6 * g7) + 1 * 2 ^ 102 * (f6 * g8) + 1 * 2 ^ 128 * (f6 * g9) + 2 * 2 ^ 0 * (f7 * g3) + 1 * 2 ^ 26 * (f7 * g4) + 2 * 2 ^ 51 * (f7 * g5) + 1 * 2 ^ 77 * (f7 * g6) + 2 * 2 ^ 102 * (f7 * g7) + 1 * 2 ^ 128 * (f7 * g8) + 2 * 2 ^ 153 * (f7 * g9) + 1 * 2 ^ 0 * (f8 * g2) + 1 * 2 ^ 26 * (f8 * g3) + 1 * 2 ^ 51 * (f8 * g4) + 1 * 2 ^ 77 * (f8 * g5) + 1 * 2 ^ 102 * (f8 * g6) + 1 * 2 ^ 128 * (f8 * g7) + 1 * 2 ^ 153 * (f8 * g8) + 1 * 2 ^ 179 * (f8 * g9) + 2 * 2 ^ 0 * (f9 * g1) + 1 * 2 ^ 26 * (f9 * g2) + 2 * 2 ^ 51 * (f9 * g3) + 1 * 2 ^ 77 * (f9 * g4) + 2 * 2 ^ 102 * (f9 * g5) + 1 * 2 ^ 128 * (f9 * g6) + 2 * 2 ^ 153 * (f9 * g7) + 1 * 2 ^ 179 * (f9 * g8) + 2 * 2 ^ 204 * (f9 * g9)), ?_⟩
  rw [hq]
  simp only [Fe.toInt, limbs]
  rw [show ((p : Nat) : Int) = 2 ^ 255 - 19 by norm_num]
  ring

theorem feSquare_spec {f : Fe} (hf : f.Ok) :
    (feSquare f).Within (2 ^ 25) (2 ^ 24 + 2 ^ 16) ∧ ∃ q, (feSquare f).toInt = f.toInt * f.toInt - q * (p : Nat) := by
  obtain ⟨F0, F1, F2, F3, F4, F5, F6, F7, F8, F9⟩ := hf
  obtain ⟨f0, f1, f2, f3, f4, f5, f6, f7, f8, f9⟩ := f
  dsimp only at F0 F1 F2 F3 F4 F5 F6 F7 F8 F9
  simp only [feSquare, feSquareSums]
  rw [show w32 (2 * f0) = 2 * f0 from w32_eq (by omega)]
  rw [show w32 (2 * f1) = 2 * f1 from w32_eq (by omega)]
  rw [show w32 (2 * f2) = 2 * f2 from w32_eq (by omega)]
  rw [show w32 (2 * f3) = 2 * f3 from w32_eq (by omega)]
  rw [show w32 (2 * f4) = 2 * f4 from w32_eq (by omega)]
  rw [show w32 (2 * f5) = 2 * f5 from w32_eq (by omega)]
  rw [show w32 (2 * f6) = 2 * f6 from w32_eq (by omega)]
  rw [show w32 (2 * f7) = 2 * f7 from w32_eq (by omega)]
  rw [show w64 (38 * f5) = 38 * f5 from w64_eq (by omega)]
  rw [show w64 (19 * f6) = 19 * f6 from w64_eq (by omega)]
  rw [show w64 (38 * f7) = 38 * f7 from w64_eq (by omega)]
  rw [show w64 (19 * f8) = 19 * f8 from w64_eq (by omega)]
  rw [show w64 (38 * f9) = 38 * f9 from w64_eq (by omega)]
  have S0 : -2 ^ 62 ≤ f0 * f0 + 2 * f1 * (38 * f9) + 2 * f2 * (19 * f8) + 2 * f3 * (38 * f7) + 2 * f4 * (19 * f6) + f5 * (38 * f5) ∧ f0 * f0 + 2 * f1 * (38 * f9) + 2 * f2 * (19 * f8) + 2 * f3 * (38 * f7) + 2 * f4 * (19 * f6) + f5 * (38 * f5) ≤ 2 ^ 62 := by
    have m0 := prod_bound (a := f0) (b := f0) (A := 110729625) (B := 110729625) (by omega) (by omega)
    have m1 := prod_bound (a := 2 * f1) (b := 38 * f9) (A := 110729624) (B := 2103862856) (by omega) (by omega)
    have m2 := prod_bound (a := 2 * f2) (b := 19 * f8) (A := 221459250) (B := 2103862875) (by omega) (by omega)
    have m3 := prod_bound (a := 2 * f3) (b := 38 * f7) (A := 110729624) (B := 2103862856) (by omega) (by omega)
    have m4 := prod_bound (a := 2 * f4) (b := 19 * f6) (A := 221459250) (B := 2103862875) (by omega) (by omega)
    have m5 := prod_bound (a := f5) (b := 38 * f5) (A := 55364812) (B := 2103862856) (by omega) (by omega)
    omega
  have S1 : -2 ^ 62 ≤ 2 * f0 * f1 + f2 * (38 * f9) + 2 * f3 * (19 * f8) + f4 * (38 * f7) + 2 * f5 * (19 * f6) ∧ 2 * f0 * f1 + f2 * (38 * f9) + 2 * f3 * (19 * f8) + f4 * (38 * f7) + 2 * f5 * (19 * f6) ≤ 2 ^ 62 := by
    have m0 := prod_bound (a := 2 * f0) (b := f1) (A := 221459250) (B := 55364812) (by omega) (by omega)
    have m1 := prod_bound (a := f2) (b := 38 * f9) (A := 110729625) (B := 2103862856) (by omega) (by omega)
    have m2 := prod_bound (a := 2 * f3) (b := 19 * f8) (A := 110729624) (B := 2103862875) (by omega) (by omega)
    have m3 := prod_bound (a := f4) (b := 38 * f7) (A := 110729625) (B := 2103862856) (by omega) (by omega)
    have m4 := prod_bound (a := 2 * f5) (b := 19 * f6) (A := 110729624) (B := 2103862875) (by omega) (by omega)
    omega
  have S2 : -2 ^ 62 ≤ 2 * f0 * f2 + 2 * f1 * f1 + 2 * f3 * (38 * f9) + 2 * f4 * (19 * f8) + 2 * f5 * (38 * f7) + f6 * (19 * f6) ∧ 2 * f0 * f2 + 2 * f1 * f1 + 2 * f3 * (38 * f9) + 2 * f4 * (19 * f8) + 2 * f5 * (38 * f7) + f6 * (19 * f6) ≤ 2 ^ 62 := by
    have m0 := prod_bound (a := 2 * f0) (b := f2) (A := 221459250) (B := 110729625) (by omega) (by omega)
    have m1 := prod_bound (a := 2 * f1) (b := f1) (A := 110729624) (B := 55364812) (by omega) (by omega)
    have m2 := prod_bound (a := 2 * f3) (b := 38 * f9) (A := 110729624) (B := 2103862856) (by omega) (by omega)
    have m3 := prod_bound (a := 2 * f4) (b := 19 * f8) (A := 221459250) (B := 2103862875) (by omega) (by omega)
    have m4 := prod_bound (a := 2 * f5) (b := 38 * f7) (A := 110729624) (B := 2103862856) (by omega) (by omega)
    have m5 := prod_bound (a := f6) (b := 19 * f6) (A := 110729625) (B := 2103862875) (by omega) (by omega)
    omega
  have S3 : -2 ^ 62 ≤ 2 * f0 * f3 + 2 * f1 * f2 + f4 * (38 * f9) + 2 * f5 * (19 * f8) + f6 * (38 * f7) ∧ 2 * f0 * f3 + 2 * f1 * f2 + f4 * (38 * f9) + 2 * f5 * (19 * f8) + f6 * (38 * f7) ≤ 2 ^ 62 := by
    have m0 := prod_bound (a := 2 * f0) (b := f3) (A := 221459250) (B := 55364812) (by omega) (by omega)
    have m1 := prod_bound (a := 2 * f1) (b := f2) (A := 110729624) (B := 110729625) (by omega) (by omega)
    have m2 := prod_bound (a := f4) (b := 38 * f9) (A := 110729625) (B := 2103862856) (by omega) (by omega)
    have m3 := prod_bound (a := 2 * f5) (b := 19 * f8) (A := 110729624) (B := 2103862875) (by omega) (by omega)
    have m4 := prod_bound (a := f6) (b := 38 * f7) (A := 110729625) (B := 2103862856) (by omega) (by omega)
    omega
  have S4 : -2 ^ 62 ≤ 2 * f0 * f4 + 2 * f1 * (2 * f3) + f2 * f2 + 2 * f5 * (38 * f9) + 2 * f6 * (19 * f8) + f7 * (38 * f7) ∧ 2 * f0 * f4 + 2 * f1 * (2 * f3) + f2 * f2 + 2 * f5 * (38 * f9) + 2 * f6 * (19 * f8) + f7 * (38 * f7) ≤ 2 ^ 62 := by
    have m0 := prod_bound (a := 2 * f0) (b := f4) (A := 221459250) (B := 110729625) (by omega) (by omega)
    have m1 := prod_bound (a := 2 * f1) (b := 2 * f3) (A := 110729624) (B := 110729624) (by omega) (by omega)
    have m2 := prod_bound (a := f2) (b := f2) (A := 110729625) (B := 110729625) (by omega) (by omega)
    have m3 := prod_bound (a := 2 * f5) (b := 38 * f9) (A := 110729624) (B := 2103862856) (by omega) (by omega)
    have m4 := prod_bound (a := 2 * f6) (b := 19 * f8) (A := 221459250) (B := 2103862875) (by omega) (by omega)
    have m5 := prod_bound (a := f7) (b := 38 * f7) (A := 55364812) (B := 2103862856) (by omega) (by omega)
    omega
  have S5 : -2 ^ 62 ≤ 2 * f0 * f5 + 2 * f1 * f4 + 2 * f2 * f3 + f6 * (38 * f9) + 2 * f7 * (19 * f8) ∧ 2 * f0 * f5 + 2 * f1 * f4 + 2 * f2 * f3 + f6 * (38 * f9) + 2 * f7 * (19 * f8) ≤ 2 ^ 62 := by
    have m0 := prod_bound (a := 2 * f0) (b := f5) (A := 221459250) (B := 55364812) (by omega) (by omega)
    have m1 := prod_bound (a := 2 * f1) (b := f4) (A := 110729624) (B := 110729625) (by omega) (by omega)
    have m2 := prod_bound (a := 2 * f2) (b := f3) (A := 221459250) (B := 55364812) (by omega) (by omega)
    have m3 := prod_bound (a := f6) (b := 38 * f9) (A := 110729625) (B := 2103862856) (by omega) (by omega)
    have m4 := prod_bound (a := 2 * f7) (b := 19 * f8) (A := 110729624) (B := 2103862875) (by omega) (by omega)
    omega
  have S6 : -2 ^ 62 ≤ 2 * f0 * f6 + 2 * f1 * (2 * f5) + 2 * f2 * f4 + 2 * f3 * f3 + 2 * f7 * (38 * f9) + f8 * (19 * f8) ∧ 2 * f0 * f6 + 2 * f1 * (2 * f5) + 2 * f2 * f4 + 2 * f3 * f3 + 2 * f7 * (38 * f9) + f8 * (19 * f8) ≤ 2 ^ 62 := by
    have m0 := prod_bound (a := 2 * f0) (b := f6) (A := 221459250) (B := 110729625) (by omega) (by omega)
    have m1 := prod_bound (a := 2 * f1) (b := 2 * f5) (A := 110729624) (B := 110729624) (by omega) (by omega)
    have m2 := prod_bound (a := 2 * f2) (b := f4) (A := 221459250) (B := 110729625) (by omega) (by omega)
    have m3 := prod_bound (a := 2 * f3) (b := f3) (A := 110729624) (B := 55364812) (by omega) (by omega)
    have m4 := prod_bound (a := 2 * f7) (b := 38 * f9) (A := 110729624) (B := 2103862856) (by omega) (by omega)
    have m5 := prod_bound (a := f8) (b := 19 * f8) (A := 110729625) (B := 2103862875) (by omega) (by omega)
    omega
  have S7 : -2 ^ 62 ≤ 2 * f0 * f7 + 2 * f1 * f6 + 2 * f2 * f5 + 2 * f3 * f4 + f8 * (38 * f9) ∧ 2 * f0 * f7 + 2 * f1 * f6 + 2 * f2 * f5 + 2 * f3 * f4 + f8 * (38 * f9) ≤ 2 ^ 62 := by
    have m0 := prod_bound (a := 2 * f0) (b := f7) (A := 221459250) (B := 55364812) (by omega) (by omega)
    have m1 := prod_bound (a := 2 * f1) (b := f6) (A := 110729624) (B := 110729625) (by omega) (by omega)
    have m2 := prod_bound (a := 2 * f2) (b := f5) (A := 221459250) (B := 55364812) (by omega) (by omega)
    have m3 := prod_bound (a := 2 * f3) (b := f4) (A := 110729624) (B := 110729625) (by omega) (by omega)
    have m4 := prod_bound (a := f8) (b := 38 * f9) (A := 110729625) (B := 2103862856) (by omega) (by omega)
    omega
  have S8 : -2 ^ 62 ≤ 2 * f0 * f8 + 2 * f1 * (2 * f7) + 2 * f2 * f6 + 2 * f3 * (2 * f5) + f4 * f4 + f9 * (38 * f9) ∧ 2 * f0 * f8 + 2 * f1 * (2 * f7) + 2 * f2 * f6 + 2 * f3 * (2 * f5) + f4 * f4 + f9 * (38 * f9) ≤ 2 ^ 62 := by
    have m0 := prod_bound (a := 2 * f0) (b := f8) (A := 221459250) (B := 110729625) (by omega) (by omega)
    have m1 := prod_bound (a := 2 * f1) (b := 2 * f7) (A := 110729624) (B := 110729624) (by omega) (by omega)
    have m2 := prod_bound (a := 2 * f2) (b := f6) (A := 221459250) (B := 110729625) (by omega) (by omega)
    have m3 := prod_bound (a := 2 * f3) (b := 2 * f5) (A := 110729624) (B := 110729624) (by omega) (by omega)
    have m4 := prod_bound (a := f4) (b := f4) (A := 110729625) (B := 110729625) (by omega) (by omega)
    have m5 := prod_bound (a := f9) (b := 38 * f9) (A := 55364812) (B := 2103862856) (by omega) (by omega)
    omega
  have S9 : -2 ^ 62 ≤ 2 * f0 * f9 + 2 * f1 * f8 + 2 * f2 * f7 + 2 * f3 * f6 + 2 * f4 * f5 ∧ 2 * f0 * f9 + 2 * f1 * f8 + 2 * f2 * f7 + 2 * f3 * f6 + 2 * f4 * f5 ≤ 2 ^ 62 := by
    have m0 := prod_bound (a := 2 * f0) (b := f9) (A := 221459250) (B := 55364812) (by omega) (by omega)
    have m1 := prod_bound (a := 2 * f1) (b := f8) (A := 110729624) (B := 110729625) (by omega) (by omega)
    have m2 := prod_bound (a := 2 * f2) (b := f7) (A := 221459250) (B := 55364812) (by omega) (by omega)
    have m3 := prod_bound (a := 2 * f3) (b := f6) (A := 110729624) (B := 110729625) (by omega) (by omega)
    have m4 := prod_bound (a := 2 * f4) (b := f5) (A := 221459250) (B := 55364812) (by omega) (by omega)
    omega
  rw [show w64 (f0 * f0 + 2 * f1 * (38 * f9) + 2 * f2 * (19 * f8) + 2 * f3 * (38 * f7) + 2 * f4 * (19 * f6) + f5 * (38 * f5)) = f0 * f0 + 2 * f1 * (38 * f9) + 2 * f2 * (19 * f8) + 2 * f3 * (38 * f7) + 2 * f4 * (19 * f6) + f5 * (38 * f5) from w64_eq (by omega)]
  rw [show w64 (2 * f0 * f1 + f2 * (38 * f9) + 2 * f3 * (19 * f8) + f4 * (38 * f7) + 2 * f5 * (19 * f6)) = 2 * f0 * f1 + f2 * (38 * f9) + 2 * f3 * (19 * f8) + f4 * (38 * f7) + 2 * f5 * (19 * f6) from w64_eq (by omega)]
  rw [show w64 (2 * f0 * f2 + 2 * f1 * f1 + 2 * f3 * (38 * f9) + 2 * f4 * (19 * f8) + 2 * f5 * (38 * f7) + f6 * (19 * f6)) = 2 * f0 * f2 + 2 * f1 * f1 + 2 * f3 * (38 * f9) + 2 * f4 * (19 * f8) + 2 * f5 * (38 * f7) + f6 * (19 * f6) from w64_eq (by omega)]
  rw [show w64 (2 * f0 * f3 + 2 * f1 * f2 + f4 * (38 * f9) + 2 * f5 * (19 * f8) + f6 * (38 * f7)) = 2 * f0 * f3 + 2 * f1 * f2 + f4 * (38 * f9) + 2 * f5 * (19 * f8) + f6 * (38 * f7) from w64_eq (by omega)]
  rw [show w64 (2 * f0 * f4 + 2 * f1 * (2 * f3) + f2 * f2 + 2 * f5 * (38 * f9) + 2 * f6 * (19 * f8) + f7 * (38 * f7)) = 2 * f0 * f4 + 2 * f1 * (2 * f3) + f2 * f2 + 2 * f5 * (38 * f9) + 2 * f6 * (19 * f8) + f7 * (38 * f7) from w64_eq (by omega)]
  rw [show w64 (2 * f0 * f5 + 2 * f1 * f4 + 2 * f2 * f3 + f6 * (38 * f9) + 2 * f7 * (19 * f8)) = 2 * f0 * f5 + 2 * f1 * f4 + 2 * f2 * f3 + f6 * (38 * f9) + 2 * f7 * (19 * f8) from w64_eq (by omega)]
  rw [show w64 (2 * f0 * f6 + 2 * f1 * (2 * f5) + 2 * f2 * f4 + 2 * f3 * f3 + 2 * f7 * (38 * f9) + f8 * (19 * f8)) = 2 * f0 * f6 + 2 * f1 * (2 * f5) + 2 * f2 * f4 + 2 * f3 * f3 + 2 * f7 * (38 * f9) + f8 * (19 * f8) from w64_eq (by omega)]
  rw [show w64 (2 * f0 * f7 + 2 * f1 * f6 + 2 * f2 * f5 + 2 * f3 * f4 + f8 * (38 * f9)) = 2 * f0 * f7 + 2 * f1 * f6 + 2 * f2 * f5 + 2 * f3 * f4 + f8 * (38 * f9) from w64_eq (by omega)]
  rw [show w64 (2 * f0 * f8 + 2 * f1 * (2 * f7) + 2 * f2 * f6 + 2 * f3 * (2 * f5) + f4 * f4 + f9 * (38 * f9)) = 2 * f0 * f8 + 2 * f1 * (2 * f7) + 2 * f2 * f6 + 2 * f3 * (2 * f5) + f4 * f4 + f9 * (38 * f9) from w64_eq (by omega)]
  rw [show w64 (2 * f0 * f9 + 2 * f1 * f8 + 2 * f2 * f7 + 2 * f3 * f6 + 2 * f4 * f5) = 2 * f0 * f9 + 2 * f1 * f8 + 2 * f2 * f7 + 2 * f3 * f6 + 2 * f4 * f5 from w64_eq (by omega)]
  obtain ⟨hw, q, hq⟩ := feCombine_spec S0 S1 S2 S3 S4 S5 S6 S7 S8 S9
  refine ⟨hw, q + 1 * (2 * 2 ^ 0 * (f1 * f9) + 1 * 2 ^ 0 * (f2 * f8) + 1 * 2 ^ 26 * (f2 * f9) + 2 * 2 ^ 0 * (f3 * f7) + 1 * 2 ^ 26 * (f3 * f8) + 2 * 2 ^ 51 * (f3 * f9) + 1 * 2 ^ 0 * (f4 * f6) + 1 * 2 ^ 26 * (f4 * f7) + 1 * 2 ^ 51 * (f4 * f8) + 1 * 2 ^ 77 * (f4 * f9) + 2 * 2 ^ 0 * (f5 * f5) + 1 * 2 ^ 26 * (f5 * f6) + 2 * 2 ^ 51 * (f5 * f7) + 1 * 2 ^ 77 * (f5 * f8) + 2 * 2 ^ 102 * (f5 * f9) + 1 * 2 ^ 0 * (f6 * f4) + 1 * 2 ^ 26 * (f6 * f5) + 1 * 2 ^ 51 * (f6 * f6) + 1 * 2 ^ 77 * (f6 * f7) + 1 * 2 ^ 102 * (f6 * f8) + 1 * 2 ^ 128 * (f6 * f9) + 2 * 2 ^ 0 * (f7 * f3) + 1 * 2 ^ 26 * (f7 * f4) + 2 * 2 ^ 51 * (f7 * f5) + 1 * 2 ^ 77 * (f7 * f6) + 2 * 2 ^ 102 * (f7 * f7) + 1 * 2 ^ 128 * (f7 * f8) + 2 * 2 ^ 153 * (f7 * f9) + 1 * 2 ^ 0 * (f8 * f2) + 1 * 2 ^ 26 * (f8 * f3) + 1 * 2 ^ 51 * (f8 * f4) + 1 * 2 ^ 77 * (f8 * f5) + 1 * 2 ^ 102 * (f8 * f6) + 1 * 2 ^ 128 * (f8 * f7) + 1 * 2 ^ 153 * (f8 * f8) + 1 * 2 ^ 179 * (f8 * f9) + 2 * 2 ^ 0 * (f9 * f1) + 1 * 2 ^ 26 * (f9 * f2) + 2 * 2 ^ 51 * (f9 * f3) + 1 * 2 ^ 77 * (f9 * f4) + 2 * 2 ^ 102 * (f9 * f5) + 1 * 2 ^ 128 * (f9 * f6) + 2 * 2 ^ 153 * (f9 * f7) + 1 * 2 ^ 179 * (f9 * f8) + 2 * 2 ^ 204 * (f9 * f9)), ?_⟩
  rw [hq]
  simp only [Fe.toInt, limbs]
  rw [show ((p : Nat) : Int) = 2 ^ 255 - 19 by norm_num]
  ring

/-- `FeSquare2`, with its wider documented input bounds: 1.65 * 2^26 and 1.65 * 2^25. -/
theorem feSquare2_spec {f : Fe} (hf : f.Within 110729625 55364812) :
    (feSquare2 f).Within (2 ^ 25) (2 ^ 24 + 2 ^ 16) ∧ ∃ q, (feSquare2 f).toInt = 2 * (f.toInt * f.toInt) - q * (p : Nat) := by
  obtain ⟨F0, F1, F2, F3, F4, F5, F6, F7, F8, F9⟩ := hf
  obtain ⟨f0, f1, f2, f3, f4, f5, f6, f7, f8, f9⟩ := f
  dsimp only at F0 F1 F2 F3 F4 F5 F6 F7 F8 F9
  simp only [feSquare2, feSquareSums]
  rw [show w32 (2 * f0) = 2 * f0 from w32_eq (by omega)]
  rw [show w32 (2 * f1) = 2 * f1 from w32_eq (by omega)]
  rw [show w32 (2 * f2) = 2 * f2 from w32_eq (by omega)]
  rw [show w32 (2 * f3) = 2 * f3 from w32_eq (by omega)]
  rw [show w32 (2 * f4) = 2 * f4 from w32_eq (by omega)]
  rw [show w32 (2 * f5) = 2 * f5 from w32_eq (by omega)]
  rw [show w32 (2 * f6) = 2 * f6 from w32_eq (by omega)]
  rw [show w32 (2 * f7) = 2 * f7 from w32_eq (by omega)]
  rw [show w64 (38 * f5) = 38 * f5 from w64_eq (by omega)]
  rw [show w64 (19 * f6) = 19 * f6 from w64_eq (by omega)]
  rw [show w64 (38 * f7) = 38 * f7 from w64_eq (by omega)]
  rw [show w64 (19 * f8) = 19 * f8 from w64_eq (by omega)]
  rw [show w64 (38 * f9) = 38 * f9 from w64_eq (by omega)]
  have S0 : -2 ^ 61 ≤ f0 * f0 + 2 * f1 * (38 * f9) + 2 * f2 * (19 * f8) + 2 * f3 * (38 * f7) + 2 * f4 * (19 * f6) + f5 * (38 * f5) ∧ f0 * f0 + 2 * f1 * (38 * f9) + 2 * f2 * (19 * f8) + 2 * f3 * (38 * f7) + 2 * f4 * (19 * f6) + f5 * (38 * f5) ≤ 2 ^ 61 := by
    have m0 := prod_bound (a := f0) (b := f0) (A := 110729625) (B := 110729625) (by omega) (by omega)
    have m1 := prod_bound (a := 2 * f1) (b := 38 * f9) (A := 110729624) (B := 2103862856) (by omega) (by omega)
    have m2 := prod_bound (a := 2 * f2) (b := 19 * f8) (A := 221459250) (B := 2103862875) (by omega) (by omega)
    have m3 := prod_bound (a := 2 * f3) (b := 38 * f7) (A := 110729624) (B := 2103862856) (by omega) (by omega)
    have m4 := prod_bound (a := 2 * f4) (b := 19 * f6) (A := 221459250) (B := 2103862875) (by omega) (by omega)
    have m5 := prod_bound (a := f5) (b := 38 * f5) (A := 55364812) (B := 2103862856) (by omega) (by omega)
    omega
  have S1 : -2 ^ 61 ≤ 2 * f0 * f1 + f2 * (38 * f9) + 2 * f3 * (19 * f8) + f4 * (38 * f7) + 2 * f5 * (19 * f6) ∧ 2 * f0 * f1 + f2 * (38 * f9) + 2 * f3 * (19 * f8) + f4 * (38 * f7) + 2 * f5 * (19 * f6) ≤ 2 ^ 61 := by
    have m0 := prod_bound (a := 2 * f0) (b := f1) (A := 221459250) (B := 55364812) (by omega) (by omega)
    have m1 := prod_bound (a := f2) (b := 38 * f9) (A := 110729625) (B := 2103862856) (by omega) (by omega)
    have m2 := prod_bound (a := 2 * f3) (b := 19 * f8) (A := 110729624) (B := 2103862875) (by omega) (by omega)
    have m3 := prod_bound (a := f4) (b := 38 * f7) (A := 110729625) (B := 2103862856) (by omega) (by omega)
    have m4 := prod_bound (a := 2 * f5) (b := 19 * f6) (A := 110729624) (B := 2103862875) (by omega) (by omega)
    omega
  have S2 : -2 ^ 61 ≤ 2 * f0 * f2 + 2 * f1 * f1 + 2 * f3 * (38 * f9) + 2 * f4 * (19 * f8) + 2 * f5 * (38 * f7) + f6 * (19 * f6) ∧ 2 * f0 * f2 + 2 * f1 * f1 + 2 * f3 * (38 * f9) + 2 * f4 * (19 * f8) + 2 * f5 * (38 * f7) + f6 * (19 * f6) ≤ 2 ^ 61 := by
    have m0 := prod_bound (a := 2 * f0) (b := f2) (A := 221459250) (B := 110729625) (by omega) (by omega)
    have m1 := prod_bound (a := 2 * f1) (b := f1) (A := 110729624) (B := 55364812) (by omega) (by omega)
    have m2 := prod_bound (a := 2 * f3) (b := 38 * f9) (A := 110729624) (B := 2103862856) (by omega) (by omega)
    have m3 := prod_bound (a := 2 * f4) (b := 19 * f8) (A := 221459250) (B := 2103862875) (by omega) (by omega)
    have m4 := prod_bound (a := 2 * f5) (b := 38 * f7) (A := 110729624) (B := 2103862856) (by omega) (by omega)
    have m5 := prod_bound (a := f6) (b := 19 * f6) (A := 110729625) (B := 2103862875) (by omega) (by omega)
    omega
  have S3 : -2 ^ 61 ≤ 2 * f0 * f3 + 2 * f1 * f2 + f4 * (38 * f9) + 2 * f5 * (19 * f8) + f6 * (38 * f7) ∧ 2 * f0 * f3 + 2 * f1 * f2 + f4 * (38 * f9) + 2 * f5 * (19 * f8) + f6 * (38 * f7) ≤ 2 ^ 61 := by
    have m0 := prod_bound (a := 2 * f0) (b := f3) (A := 221459250) (B := 55364812) (by omega) (by omega)
    have m1 := prod_bound (a := 2 * f1) (b := f2) (A := 110729624) (B := 110729625) (by omega) (by omega)
    have m2 := prod_bound (a := f4) (b := 38 * f9) (A := 110729625) (B := 2103862856) (by omega) (by omega)
    have m3 := prod_bound (a := 2 * f5) (b := 19 * f8) (A := 110729624) (B := 2103862875) (by omega) (by omega)
    have m4 := prod_bound (a := f6) (b := 38 * f7) (A := 110729625) (B := 2103862856) (by omega) (by omega)
    omega
  have S4 : -2 ^ 61 ≤ 2 * f0 * f4 + 2 * f1 * (2 * f3) + f2 * f2 + 2 * f5 * (38 * f9) + 2 * f6 * (19 * f8) + f7 * (38 * f7) ∧ 2 * f0 * f4 + 2 * f1 * (2 * f3) + f2 * f2 + 2 * f5 * (38 * f9) + 2 * f6 * (19 * f8) + f7 * (38 * f7) ≤ 2 ^ 61 := by
    have m0 := prod_bound (a := 2 * f0) (b := f4) (A := 221459250) (B := 110729625) (by omega) (by omega)
    have m1 := prod_bound (a := 2 * f1) (b := 2 * f3) (A := 110729624) (B := 110729624) (by omega) (by omega)
    have m2 := prod_bound (a := f2) (b := f2) (A := 110729625) (B := 110729625) (by omega) (by omega)
    have m3 := prod_bound (a := 2 * f5) (b := 38 * f9) (A := 110729624) (B := 2103862856) (by omega) (by omega)
    have m4 := prod_bound (a := 2 * f6) (b := 19 * f8) (A := 221459250) (B := 2103862875) (by omega) (by omega)
    have m5 := prod_bound (a := f7) (b := 38 * f7) (A := 55364812) (B := 2103862856) (by omega) (by omega)
    omega
  have S5 : -2 ^ 61 ≤ 2 * f0 * f5 + 2 * f1 * f4 + 2 * f2 * f3 + f6 * (38 * f9) + 2 * f7 * (19 * f8) ∧ 2 * f0 * f5 + 2 * f1 * f4 + 2 * f2 * f3 + f6 * (38 * f9) + 2 * f7 * (19 * f8) ≤ 2 ^ 61 := by
    have m0 := prod_bound (a := 2 * f0) (b := f5) (A := 221459250) (B := 55364812) (by omega) (by omega)
    have m1 := prod_bound (a := 2 * f1) (b := f4) (A := 110729624) (B := 110729625) (by omega) (by omega)
    have m2 := prod_bound (a := 2 * f2) (b := f3) (A := 221459250) (B := 55364812) (by omega) (by omega)
    have m3 := prod_bound (a := f6) (b := 38 * f9) (A := 110729625) (B := 2103862856) (by omega) (by omega)
    have m4 := prod_bound (a := 2 * f7) (b := 19 * f8) (A := 110729624) (B := 2103862875) (by omega) (by omega)
    omega
  have S6 : -2 ^ 61 ≤ 2 * f0 * f6 + 2 * f1 * (2 * f5) + 2 * f2 * f4 + 2 * f3 * f3 + 2 * f7 * (38 * f9) + f8 * (19 * f8) ∧ 2 * f0 * f6 + 2 * f1 * (2 * f5) + 2 * f2 * f4 + 2 * f3 * f3 + 2 * f7 * (38 * f9) + f8 * (19 * f8) ≤ 2 ^ 61 := by
    have m0 := prod_bound (a := 2 * f0) (b := f6) (A := 221459250) (B := 110729625) (by omega) (by omega)
    have m1 := prod_bound (a := 2 * f1) (b := 2 * f5) (A := 110729624) (B := 110729624) (by omega) (by omega)
    have m2 := prod_bound (a := 2 * f2) (b := f4) (A := 221459250) (B := 110729625) (by omega) (by omega)
    have m3 := prod_bound (a := 2 * f3) (b := f3) (A := 110729624) (B := 55364812) (by omega) (by omega)
    have m4 := prod_bound (a := 2 * f7) (b := 38 * f9) (A := 110729624) (B := 2103862856) (by omega) (by omega)
    have m5 := prod_bound (a := f8) (b := 19 * f8) (A := 110729625) (B := 2103862875) (by omega) (by omega)
    omega
  have S7 : -2 ^ 61 ≤ 2 * f0 * f7 + 2 * f1 * f6 + 2 * f2 * f5 + 2 * f3 * f4 + f8 * (38 * f9) ∧ 2 * f0 * f7 + 2 * f1 * f6 + 2 * f2 * f5 + 2 * f3 * f4 + f8 * (38 * f9) ≤ 2 ^ 61 := by
    have m0 := prod_bound (a := 2 * f0) (b := f7) (A := 221459250) (B := 55364812) (by omega) (by omega)
    have m1 := prod_bound (a := 2 * f1) (b := f6) (A := 110729624) (B := 110729625) (by omega) (by omega)
    have m2 := prod_bound (a := 2 * f2) (b := f5) (A := 221459250) (B := 55364812) (by omega) (by omega)
    have m3 := prod_bound (a := 2 * f3) (b := f4) (A := 110729624) (B := 110729625) (by omega) (by omega)
    have m4 := prod_bound (a := f8) (b := 38 * f9) (A := 110729625) (B := 2103862856) (by omega) (by omega)
    omega
  have S8 : -2 ^ 61 ≤ 2 * f0 * f8 + 2 * f1 * (2 * f7) + 2 * f2 * f6 + 2 * f3 * (2 * f5) + f4 * f4 + f9 * (38 * f9) ∧ 2 * f0 * f8 + 2 * f1 * (2 * f7) + 2 * f2 * f6 + 2 * f3 * (2 * f5) + f4 * f4 + f9 * (38 * f9) ≤ 2 ^ 61 := by
    have m0 := prod_bound (a := 2 * f0) (b := f8) (A := 221459250) (B := 110729625) (by omega) (by omega)
    have m1 := prod_bound (a := 2 * f1) (b := 2 * f7) (A := 110729624) (B := 110729624) (by omega) (by omega)
    have m2 := prod_bound (a := 2 * f2) (b := f6) (A := 221459250) (B := 110729625) (by omega) (by omega)
    have m3 := prod_bound (a := 2 * f3) (b := 2 * f5) (A := 110729624) (B := 110729624) (by omega) (by omega)
    have m4 := prod_bound (a := f4) (b := f4) (A := 110729625) (B := 110729625) (by omega) (by omega)
    have m5 := prod_bound (a := f9) (b := 38 * f9) (A := 55364812) (B := 2103862856) (by omega) (by omega)
    omega
  have S9 : -2 ^ 61 ≤ 2 * f0 * f9 + 2 * f1 * f8 + 2 * f2 * f7 + 2 * f3 * f6 + 2 * f4 * f5 ∧ 2 * f0 * f9 + 2 * f1 * f8 + 2 * f2 * f7 + 2 * f3 * f6 + 2 * f4 * f5 ≤ 2 ^ 61 := by
    have m0 := prod_bound (a := 2 * f0) (b := f9) (A := 221459250) (B := 55364812) (by omega) (by omega)
    have m1 := prod_bound (a := 2 * f1) (b := f8) (A := 110729624) (B := 110729625) (by omega) (by omega)
    have m2 := prod_bound (a := 2 * f2) (b := f7) (A := 221459250) (B := 55364812) (by omega) (by omega)
    have m3 := prod_bound (a := 2 * f3) (b := f6) (A := 110729624) (B := 110729625) (by omega) (by omega)
    have m4 := prod_bound (a := 2 * f4) (b := f5) (A := 221459250) (B := 55364812) (by omega) (by omega)
    omega
  rw [show w64 (f0 * f0 + 2 * f1 * (38 * f9) + 2 * f2 * (19 * f8) + 2 * f3 * (38 * f7) + 2 * f4 * (19 * f6) + f5 * (38 * f5)) = f0 * f0 + 2 * f1 * (38 * f9) + 2 * f2 * (19 * f8) + 2 * f3 * (38 * f7) + 2 * f4 * (19 * f6) + f5 * (38 * f5) from w64_eq (by omega)]
  rw [show w64 (2 * f0 * f1 + f2 * (38 * f9) + 2 * f3 * (19 * f8) + f4 * (38 * f7) + 2 * f5 * (19 * f6)) = 2 * f0 * f1 + f2 * (38 * f9) + 2 * f3 * (19 * f8) + f4 * (38 * f7) + 2 * f5 * (19 * f6) from w64_eq (by omega)]
  rw [show w64 (2 * f0 * f2 + 2 * f1 * f1 + 2 * f3 * (38 * f9) + 2 * f4 * (19 * f8) + 2 * f5 * (38 * f7) + f6 * (19 * f6)) = 2 * f0 * f2 + 2 * f1 * f1 + 2 * f3 * (38 * f9) + 2 * f4 * (19 * f8) + 2 * f5 * (38 * f7) + f6 * (19 * f6) from w64_eq (by omega)]
  rw [show w64 (2 * f0 * f3 + 2 * f1 * f2 + f4 * (38 * f9) + 2 * f5 * (19 * f8) + f6 * (38 * f7)) = 2 * f0 * f3 + 2 * f1 * f2 + f4 * (38 * f9) + 2 * f5 * (19 * f8) + f6 * (38 * f7) from w64_eq (by omega)]
  rw [show w64 (2 * f0 * f4 + 2 * f1 * (2 * f3) + f2 * f2 + 2 * f5 * (38 * f9) + 2 * f6 * (19 * f8) + f7 * (38 * f7)) = 2 * f0 * f4 + 2 * f1 * (2 * f3) + f2 * f2 + 2 * f5 * (38 * f9) + 2 * f6 * (19 * f8) + f7 * (38 * f7) from w64_eq (by omega)]
  rw [show w64 (2 * f0 * f5 + 2 * f1 * f4 + 2 * f2 * f3 + f6 * (38 * f9) + 2 * f7 * (19 * f8)) = 2 * f0 * f5 + 2 * f1 * f4 + 2 * f2 * f3 + f6 * (38 * f9) + 2 * f7 * (19 * f8) from w64_eq (by omega)]
  rw [show w64 (2 * f0 * f6 + 2 * f1 * (2 * f5) + 2 * f2 * f4 + 2 * f3 * f3 + 2 * f7 * (38 * f9) + f8 * (19 * f8)) = 2 * f0 * f6 + 2 * f1 * (2 * f5) + 2 * f2 * f4 + 2 * f3 * f3 + 2 * f7 * (38 * f9) + f8 * (19 * f8) from w64_eq (by omega)]
  rw [show w64 (2 * f0 * f7 + 2 * f1 * f6 + 2 * f2 * f5 + 2 * f3 * f4 + f8 * (38 * f9)) = 2 * f0 * f7 + 2 * f1 * f6 + 2 * f2 * f5 + 2 * f3 * f4 + f8 * (38 * f9) from w64_eq (by omega)]
  rw [show w64 (2 * f0 * f8 + 2 * f1 * (2 * f7) + 2 * f2 * f6 + 2 * f3 * (2 * f5) + f4 * f4 + f9 * (38 * f9)) = 2 * f0 * f8 + 2 * f1 * (2 * f7) + 2 * f2 * f6 + 2 * f3 * (2 * f5) + f4 * f4 + f9 * (38 * f9) from w64_eq (by omega)]
  rw [show w64 (2 * f0 * f9 + 2 * f1 * f8 + 2 * f2 * f7 + 2 * f3 * f6 + 2 * f4 * f5) = 2 * f0 * f9 + 2 * f1 * f8 + 2 * f2 * f7 + 2 * f3 * f6 + 2 * f4 * f5 from w64_eq (by omega)]
  rw [show w64 (f0 * f0 + 2 * f1 * (38 * f9) + 2 * f2 * (19 * f8) + 2 * f3 * (38 * f7) + 2 * f4 * (19 * f6) + f5 * (38 * f5) + (f0 * f0 + 2 * f1 * (38 * f9) + 2 * f2 * (19 * f8) + 2 * f3 * (38 * f7) + 2 * f4 * (19 * f6) + f5 * (38 * f5))) = f0 * f0 + 2 * f1 * (38 * f9) + 2 * f2 * (19 * f8) + 2 * f3 * (38 * f7) + 2 * f4 * (19 * f6) + f5 * (38 * f5) + (f0 * f0 + 2 * f1 * (38 * f9) + 2 * f2 * (19 * f8) + 2 * f3 * (38 * f7) + 2 * f4 * (19 * f6) + f5 * (38 * f5)) from w64_eq (by omega)]
  rw [show w64 (2 * f0 * f1 + f2 * (38 * f9) + 2 * f3 * (19 * f8) + f4 * (38 * f7) + 2 * f5 * (19 * f6) + (2 * f0 * f1 + f2 * (38 * f9) + 2 * f3 * (19 * f8) + f4 * (38 * f7) + 2 * f5 * (19 * f6))) = 2 * f0 * f1 + f2 * (38 * f9) + 2 * f3 * (19 * f8) + f4 * (38 * f7) + 2 * f5 * (19 * f6) + (2 * f0 * f1 + f2 * (38 * f9) + 2 * f3 * (19 * f8) + f4 * (38 * f7) + 2 * f5 * (19 * f6)) from w64_eq (by omega)]
  rw [show w64 (2 * f0 * f2 + 2 * f1 * f1 + 2 * f3 * (38 * f9) + 2 * f4 * (19 * f8) + 2 * f5 * (38 * f7) + f6 * (19 * f6) + (2 * f0 * f2 + 2 * f1 * f1 + 2 * f3 * (38 * f9) + 2 * f4 * (19 * f8) + 2 * f5 * (38 * f7) + f6 * (19 * f6))) = 2 * f0 * f2 + 2 * f1 * f1 + 2 * f3 * (38 * f9) + 2 * f4 * (19 * f8) + 2 * f5 * (38 * f7) + f6 * (19 * f6) + (2 * f0 * f2 + 2 * f1 * f1 + 2 * f3 * (38 * f9) + 2 * f4 * (19 * f8) + 2 * f5 * (38 * f7) + f6 * (19 * f6)) from w64_eq (by omega)]
  rw [show w64 (2 * f0 * f3 + 2 * f1 * f2 + f4 * (38 * f9) + 2 * f5 * (19 * f8) + f6 * (38 * f7) + (2 * f0 * f3 + 2 * f1 * f2 + f4 * (38 * f9) + 2 * f5 * (19 * f8) + f6 * (38 * f7))) = 2 * f0 * f3 + 2 * f1 * f2 + f4 * (38 * f9) + 2 * f5 * (19 * f8) + f6 * (38 * f7) + (2 * f0 * f3 + 2 * f1 * f2 + f4 * (38 * f9) + 2 * f5 * (19 * f8) + f6 * (38 * f7)) from w64_eq (by omega)]
  rw [show w64 (2 * f0 * f4 + 2 * f1 * (2 * f3) + f2 * f2 + 2 * f5 * (38 * f9) + 2 * f6 * (19 * f8) + f7 * (38 * f7) + (2 * f0 * f4 + 2 * f1 * (2 * f3) + f2 * f2 + 2 * f5 * (38 * f9) + 2 * f6 * (19 * f8) + f7 * (38 * f7))) = 2 * f0 * f4 + 2 * f1 * (2 * f3) + f2 * f2 + 2 * f5 * (38 * f9) + 2 * f6 * (19 * f8) + f7 * (38 * f7) + (2 * f0 * f4 + 2 * f1 * (2 * f3) + f2 * f2 + 2 * f5 * (38 * f9) + 2 * f6 * (19 * f8) + f7 * (38 * f7)) from w64_eq (by omega)]
  rw [show w64 (2 * f0 * f5 + 2 * f1 * f4 + 2 * f2 * f3 + f6 * (38 * f9) + 2 * f7 * (19 * f8) + (2 * f0 * f5 + 2 * f1 * f4 + 2 * f2 * f3 + f6 * (38 * f9) + 2 * f7 * (19 * f8))) = 2 * f0 * f5 + 2 * f1 * f4 + 2 * f2 * f3 + f6 * (38 * f9) + 2 * f7 * (19 * f8) + (2 * f0 * f5 + 2 * f1 * f4 + 2 * f2 * f3 + f6 * (38 * f9) + 2 * f7 * (19 * f8)) from w64_eq (by omega)]
  rw [show w64 (2 * f0 * f6 + 2 * f1 * (2 * f5) + 2 * f2 * f4 + 2 * f3 * f3 + 2 * f7 * (38 * f9) + f8 * (19 * f8) + (2 * f0 * f6 + 2 * f1 * (2 * f5) + 2 * f2 * f4 + 2 * f3 * f3 + 2 * f7 * (38 * f9) + f8 * (19 * f8))) = 2 * f0 * f6 + 2 * f1 * (2 * f5) + 2 * f2 * f4 + 2 * f3 * f3 + 2 * f7 * (38 * f9) + f8 * (19 * f8) + (2 * f0 * f6 + 2 * f1 * (2 * f5) + 2 * f2 * f4 + 2 * f3 * f3 + 2 * f7 * (38 * f9) + f8 * (19 * f8)) from w64_eq (by omega)]
  rw [show w64 (2 * f0 * f7 + 2 * f1 * f6 + 2 * f2 * f5 + 2 * f3 * f4 + f8 * (38 * f9) + (2 * f0 * f7 + 2 * f1 * f6 + 2 * f2 * f5 + 2 * f3 * f4 + f8 * (38 * f9))) = 2 * f0 * f7 + 2 * f1 * f6 + 2 * f2 * f5 + 2 * f3 * f4 + f8 * (38 * f9) + (2 * f0 * f7 + 2 * f1 * f6 + 2 * f2 * f5 + 2 * f3 * f4 + f8 * (38 * f9)) from w64_eq (by omega)]
  rw [show w64 (2 * f0 * f8 + 2 * f1 * (2 * f7) + 2 * f2 * f6 + 2 * f3 * (2 * f5) + f4 * f4 + f9 * (38 * f9) + (2 * f0 * f8 + 2 * f1 * (2 * f7) + 2 * f2 * f6 + 2 * f3 * (2 * f5) + f4 * f4 + f9 * (38 * f9))) = 2 * f0 * f8 + 2 * f1 * (2 * f7) + 2 * f2 * f6 + 2 * f3 * (2 * f5) + f4 * f4 + f9 * (38 * f9) + (2 * f0 * f8 + 2 * f1 * (2 * f7) + 2 * f2 * f6 + 2 * f3 * (2 * f5) + f4 * f4 + f9 * (38 * f9)) from w64_eq (by omega)]
  rw [show w64 (2 * f0 * f9 + 2 * f1 * f8 + 2 * f2 * f7 + 2 * f3 * f6 + 2 * f4 * f5 + (2 * f0 * f9 + 2 * f1 * f8 + 2 * f2 * f7 + 2 * f3 * f6 + 2 * f4 * f5)) = 2 * f0 * f9 + 2 * f1 * f8 + 2 * f2 * f7 + 2 * f3 * f6 + 2 * f4 * f5 + (2 * f0 * f9 + 2 * f1 * f8 + 2 * f2 * f7 + 2 * f3 * f6 + 2 * f4 * f5) from w64_eq (by omega)]
  have D0 : -2 ^ 62 ≤ f0 * f0 + 2 * f1 * (38 * f9) + 2 * f2 * (19 * f8) + 2 * f3 * (38 * f7) + 2 * f4 * (19 * f6) + f5 * (38 * f5) + (f0 * f0 + 2 * f1 * (38 * f9) + 2 * f2 * (19 * f8) + 2 * f3 * (38 * f7) + 2 * f4 * (19 * f6) + f5 * (38 * f5)) ∧ f0 * f0 + 2 * f1 * (38 * f9) + 2 * f2 * (19 * f8) + 2 * f3 * (38 * f7) + 2 * f4 * (19 * f6) + f5 * (38 * f5) + (f0 * f0 + 2 * f1 * (38 * f9) + 2 * f2 * (19 * f8) + 2 * f3 * (38 * f7) + 2 * f4 * (19 * f6) + f5 * (38 * f5)) ≤ 2 ^ 62 := by omega
  have D1 : -2 ^ 62 ≤ 2 * f0 * f1 + f2 * (38 * f9) + 2 * f3 * (19 * f8) + f4 * (38 * f7) + 2 * f5 * (19 * f6) + (2 * f0 * f1 + f2 * (38 * f9) + 2 * f3 * (19 * f8) + f4 * (38 * f7) + 2 * f5 * (19 * f6)) ∧ 2 * f0 * f1 + f2 * (38 * f9) + 2 * f3 * (19 * f8) + f4 * (38 * f7) + 2 * f5 * (19 * f6) + (2 * f0 * f1 + f2 * (38 * f9) + 2 * f3 * (19 * f8) + f4 * (38 * f7) + 2 * f5 * (19 * f6)) ≤ 2 ^ 62 := by omega
  have D2 : -2 ^ 62 ≤ 2 * f0 * f2 + 2 * f1 * f1 + 2 * f3 * (38 * f9) + 2 * f4 * (19 * f8) + 2 * f5 * (38 * f7) + f6 * (19 * f6) + (2 * f0 * f2 + 2 * f1 * f1 + 2 * f3 * (38 * f9) + 2 * f4 * (19 * f8) + 2 * f5 * (38 * f7) + f6 * (19 * f6)) ∧ 2 * f0 * f2 + 2 * f1 * f1 + 2 * f3 * (38 * f9) + 2 * f4 * (19 * f8) + 2 * f5 * (38 * f7) + f6 * (19 * f6) + (2 * f0 * f2 + 2 * f1 * f1 + 2 * f3 * (38 * f9) + 2 * f4 * (19 * f8) + 2 * f5 * (38 * f7) + f6 * (19 * f6)) ≤ 2 ^ 62 := by omega
  have D3 : -2 ^ 62 ≤ 2 * f0 * f3 + 2 * f1 * f2 + f4 * (38 * f9) + 2 * f5 * (19 * f8) + f6 * (38 * f7) + (2 * f0 * f3 + 2 * f1 * f2 + f4 * (38 * f9) + 2 * f5 * (19 * f8) + f6 * (38 * f7)) ∧ 2 * f0 * f3 + 2 * f1 * f2 + f4 * (38 * f9) + 2 * f5 * (19 * f8) + f6 * (38 * f7) + (2 * f0 * f3 + 2 * f1 * f2 + f4 * (38 * f9) + 2 * f5 * (19 * f8) + f6 * (38 * f7)) ≤ 2 ^ 62 := by omega
  have D4 : -2 ^ 62 ≤ 2 * f0 * f4 + 2 * f1 * (2 * f3) + f2 * f2 + 2 * f5 * (38 * f9) + 2 * f6 * (19 * f8) + f7 * (38 * f7) + (2 * f0 * f4 + 2 * f1 * (2 * f3) + f2 * f2 + 2 * f5 * (38 * f9) + 2 * f6 * (19 * f8) + f7 * (38 * f7)) ∧ 2 * f0 * f4 + 2 * f1 * (2 * f3) + f2 * f2 + 2 * f5 * (38 * f9) + 2 * f6 * (19 * f8) + f7 * (38 * f7) + (2 * f0 * f4 + 2 * f1 * (2 * f3) + f2 * f2 + 2 * f5 * (38 * f9) + 2 * f6 * (19 * f8) + f7 * (38 * f7)) ≤ 2 ^ 62 := by omega
  have D5 : -2 ^ 62 ≤ 2 * f0 * f5 + 2 * f1 * f4 + 2 * f2 * f3 + f6 * (38 * f9) + 2 * f7 * (19 * f8) + (2 * f0 * f5 + 2 * f1 * f4 + 2 * f2 * f3 + f6 * (38 * f9) + 2 * f7 * (19 * f8)) ∧ 2 * f0 * f5 + 2 * f1 * f4 + 2 * f2 * f3 + f6 * (38 * f9) + 2 * f7 * (19 * f8) + (2 * f0 * f5 + 2 * f1 * f4 + 2 * f2 * f3 + f6 * (38 * f9) + 2 * f7 * (19 * f8)) ≤ 2 ^ 62 := by omega
  have D6 : -2 ^ 62 ≤ 2 * f0 * f6 + 2 * f1 * (2 * f5) + 2 * f2 * f4 + 2 * f3 * f3 + 2 * f7 * (38 * f9) + f8 * (19 * f8) + (2 * f0 * f6 + 2 * f1 * (2 * f5) + 2 * f2 * f4 + 2 * f3 * f3 + 2 * f7 * (38 * f9) + f8 * (19 * f8)) ∧ 2 * f0 * f6 + 2 * f1 * (2 * f5) + 2 * f2 * f4 + 2 * f3 * f3 + 2 * f7 * (38 * f9) + f8 * (19 * f8) + (2 * f0 * f6 + 2 * f1 * (2 * f5) + 2 * f2 * f4 + 2 * f3 * f3 + 2 * f7 * (38 * f9) + f8 * (19 * f8)) ≤ 2 ^ 62 := by omega
  have D7 : -2 ^ 62 ≤ 2 * f0 * f7 + 2 * f1 * f6 + 2 * f2 * f5 + 2 * f3 * f4 + f8 * (38 * f9) + (2 * f0 * f7 + 2 * f1 * f6 + 2 * f2 * f5 + 2 * f3 * f4 + f8 * (38 * f9)) ∧ 2 * f0 * f7 + 2 * f1 * f6 + 2 * f2 * f5 + 2 * f3 * f4 + f8 * (38 * f9) + (2 * f0 * f7 + 2 * f1 * f6 + 2 * f2 * f5 + 2 * f3 * f4 + f8 * (38 * f9)) ≤ 2 ^ 62 := by omega
  have D8 : -2 ^ 62 ≤ 2 * f0 * f8 + 2 * f1 * (2 * f7) + 2 * f2 * f6 + 2 * f3 * (2 * f5) + f4 * f4 + f9 * (38 * f9) + (2 * f0 * f8 + 2 * f1 * (2 * f7) + 2 * f2 * f6 + 2 * f3 * (2 * f5) + f4 * f4 + f9 * (38 * f9)) ∧ 2 * f0 * f8 + 2 * f1 * (2 * f7) + 2 * f2 * f6 + 2 * f3 * (2 * f5) + f4 * f4 + f9 * (38 * f9) + (2 * f0 * f8 + 2 * f1 * (2 * f7) + 2 * f2 * f6 + 2 * f3 * (2 * f5) + f4 * f4 + f9 * (38 * f9)) ≤ 2 ^ 62 := by omega
  have D9 : -2 ^ 62 ≤ 2 * f0 * f9 + 2 * f1 * f8 + 2 * f2 * f7 + 2 * f3 * f6 + 2 * f4 * f5 + (2 * f0 * f9 + 2 * f1 * f8 + 2 * f2 * f7 + 2 * f3 * f6 + 2 * f4 * f5) ∧ 2 * f0 * f9 + 2 * f1 * f8 + 2 * f2 * f7 + 2 * f3 * f6 + 2 * f4 * f5 + (2 * f0 * f9 + 2 * f1 * f8 + 2 * f2 * f7 + 2 * f3 * f6 + 2 * f4 * f5) ≤ 2 ^ 62 := by omega
  obtain ⟨hw, q, hq⟩ := feCombine_spec D0 D1 D2 D3 D4 D5 D6 D7 D8 D9
  refine ⟨hw, q + 2 * (2 * 2 ^ 0 * (f1 * f9) + 1 * 2 ^ 0 * (f2 * f8) + 1 * 2 ^ 26 * (f2 * f9) + 2 * 2 ^ 0 * (f3 * f7) + 1 * 2 ^ 26 * (f3 * f8) + 2 * 2 ^ 51 * (f3 * f9) + 1 * 2 ^ 0 * (f4 * f6) + 1 * 2 ^ 26 * (f4 * f7) + 1 * 2 ^ 51 * (f4 * f8) + 1 * 2 ^ 77 * (f4 * f9) + 2 * 2 ^ 0 * (f5 * f5) + 1 * 2 ^ 26 * (f5 * f6) + 2 * 2 ^ 51 * (f5 * f7) + 1 * 2 ^ 77 * (f5 * f8) + 2 * 2 ^ 102 * (f5 * f9) + 1 * 2 ^ 0 * (f6 * f4) + 1 * 2 ^ 26 * (f6 * f5) + 1 * 2 ^ 51 * (f6 * f6) + 1 * 2 ^ 77 * (f6 * f7) + 1 * 2 ^ 102 * (f6 * f8) + 1 * 2 ^ 128 * (f6 * f9) + 2 * 2 ^ 0 * (f7 * f3) + 1 * 2 ^ 26 * (f7 * f4) + 2 * 2 ^ 51 * (f7 * f5) + 1 * 2 ^ 77 * (f7 * f6) + 2 * 2 ^ 102 * (f7 * f7) + 1 * 2 ^ 128 * (f7 * f8) + 2 * 2 ^ 153 * (f7 * f9) + 1 * 2 ^ 0 * (f8 * f2) + 1 * 2 ^ 26 * (f8 * f3) + 1 * 2 ^ 51 * (f8 * f4) + 1 * 2 ^ 77 * (f8 * f5) + 1 * 2 ^ 102 * (f8 * f6) + 1 * 2 ^ 128 * (f8 * f7) + 1 * 2 ^ 153 * (f8 * f8) + 1 * 2 ^ 179 * (f8 * f9) + 2 * 2 ^ 0 * (f9 * f1) + 1 * 2 ^ 26 * (f9 * f2) + 2 * 2 ^ 51 * (f9 * f3) + 1 * 2 ^ 77 * (f9 * f4) + 2 * 2 ^ 102 * (f9 * f5) + 1 * 2 ^ 128 * (f9 * f6) + 2 * 2 ^ 153 * (f9 * f7) + 1 * 2 ^ 179 * (f9 * f8) + 2 * 2 ^ 204 * (f9 * f9)), ?_⟩
  rw [hq]
  simp only [Fe.toInt, limbs]
  rw [show ((p : Nat) : Int) = 2 ^ 255 - 19 by norm_num]
  ring

end Verif.Ed
