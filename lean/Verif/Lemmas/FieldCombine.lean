/-
`FeCombine`: no overflow, the bounds of the result, and its value.
-/
import Verif.Spec.Field
import Mathlib.Tactic.Ring
import Mathlib.Tactic.LinearCombination

namespace Verif.Ed

theorem Fe.Within.mono {f : Fe} {e o e' o' : Int} (h : f.Within e o) (he : e ≤ e') (ho : o ≤ o') : f.Within e' o' := by
  obtain ⟨h0, h1, h2, h3, h4, h5, h6, h7, h8, h9⟩ := h
  constructor <;> constructor <;> omega

theorem w64_eq {x : Int} (h : -2 ^ 63 ≤ x ∧ x < 2 ^ 63) : w64 x = x := by
  unfold w64; apply Int.bmod_eq_of_le <;> omega

theorem w32_eq {x : Int} (h : -2 ^ 31 ≤ x ∧ x < 2 ^ 31) : w32 x = x := by
  unfold w32; apply Int.bmod_eq_of_le <;> omega

theorem carry26 {h : Int} (hb : -2 ^ 62 - 2 ^ 40 ≤ h ∧ h ≤ 2 ^ 62 + 2 ^ 40) :
    sar (w64 (h + 2 ^ 25)) 26 * 2 ^ 26 ≤ h + 2 ^ 25 ∧ h + 2 ^ 25 < sar (w64 (h + 2 ^ 25)) 26 * 2 ^ 26 + 2 ^ 26 := by
  rw [w64_eq (by omega)]; unfold sar; omega

theorem carry25 {h : Int} (hb : -2 ^ 62 - 2 ^ 40 ≤ h ∧ h ≤ 2 ^ 62 + 2 ^ 40) :
    sar (w64 (h + 2 ^ 24)) 25 * 2 ^ 25 ≤ h + 2 ^ 24 ∧ h + 2 ^ 24 < sar (w64 (h + 2 ^ 24)) 25 * 2 ^ 25 + 2 ^ 25 := by
  rw [w64_eq (by omega)]; unfold sar; omega

/-- `FeCombine` of ten sums below 2^62: nothing overflows, the limbs are small, and the value changes by a multiple of `p`. -/
theorem feCombine_spec {h0 h1 h2 h3 h4 h5 h6 h7 h8 h9 : Int}
    (b0 : -2 ^ 62 ≤ h0 ∧ h0 ≤ 2 ^ 62)
    (b1 : -2 ^ 62 ≤ h1 ∧ h1 ≤ 2 ^ 62)
    (b2 : -2 ^ 62 ≤ h2 ∧ h2 ≤ 2 ^ 62)
    (b3 : -2 ^ 62 ≤ h3 ∧ h3 ≤ 2 ^ 62)
    (b4 : -2 ^ 62 ≤ h4 ∧ h4 ≤ 2 ^ 62)
    (b5 : -2 ^ 62 ≤ h5 ∧ h5 ≤ 2 ^ 62)
    (b6 : -2 ^ 62 ≤ h6 ∧ h6 ≤ 2 ^ 62)
    (b7 : -2 ^ 62 ≤ h7 ∧ h7 ≤ 2 ^ 62)
    (b8 : -2 ^ 62 ≤ h8 ∧ h8 ≤ 2 ^ 62)
    (b9 : -2 ^ 62 ≤ h9 ∧ h9 ≤ 2 ^ 62)
    : (feCombine h0 h1 h2 h3 h4 h5 h6 h7 h8 h9).Within (2 ^ 25) (2 ^ 24 + 2 ^ 16) ∧
      ∃ q, (feCombine h0 h1 h2 h3 h4 h5 h6 h7 h8 h9).toInt = limbs h0 h1 h2 h3 h4 h5 h6 h7 h8 h9 - q * (p : Nat) := by
  unfold feCombine
  extract_lets c0v0 h1v1 h0v1 c4v0 h5v1 h4v1 c1v0 h2v1 h1v2 c5v0 h6v1 h5v2 c2v0 h3v1 h2v2 c6v0 h7v1 h6v2 c3v0 h4v2 h3v2 c7v0 h8v1 h7v2 c4v1 h5v3 h4v3 c8v0 h9v1 h8v2 c9v0 h0v2 h9v2 c0v1 h1v3 h0v3
  have kc0v0 : c0v0 * 2 ^ 26 ≤ h0 + 2 ^ 25 ∧ h0 + 2 ^ 25 < c0v0 * 2 ^ 26 + 2 ^ 26 := carry26 (by omega)
  have eh1v1 : h1v1 = h1 + c0v0 := w64_eq (by omega)
  have eh0v1 : h0v1 = h0 - c0v0 * 2 ^ 26 := w64_eq (by omega)
  clear_value c0v0 h1v1 h0v1
  have kc4v0 : c4v0 * 2 ^ 26 ≤ h4 + 2 ^ 25 ∧ h4 + 2 ^ 25 < c4v0 * 2 ^ 26 + 2 ^ 26 := carry26 (by omega)
  have eh5v1 : h5v1 = h5 + c4v0 := w64_eq (by omega)
  have eh4v1 : h4v1 = h4 - c4v0 * 2 ^ 26 := w64_eq (by omega)
  clear_value c4v0 h5v1 h4v1
  have kc1v0 : c1v0 * 2 ^ 25 ≤ h1v1 + 2 ^ 24 ∧ h1v1 + 2 ^ 24 < c1v0 * 2 ^ 25 + 2 ^ 25 := carry25 (by omega)
  have eh2v1 : h2v1 = h2 + c1v0 := w64_eq (by omega)
  have eh1v2 : h1v2 = h1v1 - c1v0 * 2 ^ 25 := w64_eq (by omega)
  clear_value c1v0 h2v1 h1v2
  have kc5v0 : c5v0 * 2 ^ 25 ≤ h5v1 + 2 ^ 24 ∧ h5v1 + 2 ^ 24 < c5v0 * 2 ^ 25 + 2 ^ 25 := carry25 (by omega)
  have eh6v1 : h6v1 = h6 + c5v0 := w64_eq (by omega)
  have eh5v2 : h5v2 = h5v1 - c5v0 * 2 ^ 25 := w64_eq (by omega)
  clear_value c5v0 h6v1 h5v2
  have kc2v0 : c2v0 * 2 ^ 26 ≤ h2v1 + 2 ^ 25 ∧ h2v1 + 2 ^ 25 < c2v0 * 2 ^ 26 + 2 ^ 26 := carry26 (by omega)
  have eh3v1 : h3v1 = h3 + c2v0 := w64_eq (by omega)
  have eh2v2 : h2v2 = h2v1 - c2v0 * 2 ^ 26 := w64_eq (by omega)
  clear_value c2v0 h3v1 h2v2
  have kc6v0 : c6v0 * 2 ^ 26 ≤ h6v1 + 2 ^ 25 ∧ h6v1 + 2 ^ 25 < c6v0 * 2 ^ 26 + 2 ^ 26 := carry26 (by omega)
  have eh7v1 : h7v1 = h7 + c6v0 := w64_eq (by omega)
  have eh6v2 : h6v2 = h6v1 - c6v0 * 2 ^ 26 := w64_eq (by omega)
  clear_value c6v0 h7v1 h6v2
  have kc3v0 : c3v0 * 2 ^ 25 ≤ h3v1 + 2 ^ 24 ∧ h3v1 + 2 ^ 24 < c3v0 * 2 ^ 25 + 2 ^ 25 := carry25 (by omega)
  have eh4v2 : h4v2 = h4v1 + c3v0 := w64_eq (by omega)
  have eh3v2 : h3v2 = h3v1 - c3v0 * 2 ^ 25 := w64_eq (by omega)
  clear_value c3v0 h4v2 h3v2
  have kc7v0 : c7v0 * 2 ^ 25 ≤ h7v1 + 2 ^ 24 ∧ h7v1 + 2 ^ 24 < c7v0 * 2 ^ 25 + 2 ^ 25 := carry25 (by omega)
  have eh8v1 : h8v1 = h8 + c7v0 := w64_eq (by omega)
  have eh7v2 : h7v2 = h7v1 - c7v0 * 2 ^ 25 := w64_eq (by omega)
  clear_value c7v0 h8v1 h7v2
  have kc4v1 : c4v1 * 2 ^ 26 ≤ h4v2 + 2 ^ 25 ∧ h4v2 + 2 ^ 25 < c4v1 * 2 ^ 26 + 2 ^ 26 := carry26 (by omega)
  have eh5v3 : h5v3 = h5v2 + c4v1 := w64_eq (by omega)
  have eh4v3 : h4v3 = h4v2 - c4v1 * 2 ^ 26 := w64_eq (by omega)
  clear_value c4v1 h5v3 h4v3
  have kc8v0 : c8v0 * 2 ^ 26 ≤ h8v1 + 2 ^ 25 ∧ h8v1 + 2 ^ 25 < c8v0 * 2 ^ 26 + 2 ^ 26 := carry26 (by omega)
  have eh9v1 : h9v1 = h9 + c8v0 := w64_eq (by omega)
  have eh8v2 : h8v2 = h8v1 - c8v0 * 2 ^ 26 := w64_eq (by omega)
  clear_value c8v0 h9v1 h8v2
  have kc9v0 : c9v0 * 2 ^ 25 ≤ h9v1 + 2 ^ 24 ∧ h9v1 + 2 ^ 24 < c9v0 * 2 ^ 25 + 2 ^ 25 := carry25 (by omega)
  have eh0v2 : h0v2 = h0v1 + c9v0 * 19 := w64_eq (by omega)
  have eh9v2 : h9v2 = h9v1 - c9v0 * 2 ^ 25 := w64_eq (by omega)
  clear_value c9v0 h0v2 h9v2
  have kc0v1 : c0v1 * 2 ^ 26 ≤ h0v2 + 2 ^ 25 ∧ h0v2 + 2 ^ 25 < c0v1 * 2 ^ 26 + 2 ^ 26 := carry26 (by omega)
  have eh1v3 : h1v3 = h1v2 + c0v1 := w64_eq (by omega)
  have eh0v3 : h0v3 = h0v2 - c0v1 * 2 ^ 26 := w64_eq (by omega)
  clear_value c0v1 h1v3 h0v3
  have r0 : w32 h0v3 = h0v3 := w32_eq (by omega)
  have r1 : w32 h1v3 = h1v3 := w32_eq (by omega)
  have r2 : w32 h2v2 = h2v2 := w32_eq (by omega)
  have r3 : w32 h3v2 = h3v2 := w32_eq (by omega)
  have r4 : w32 h4v3 = h4v3 := w32_eq (by omega)
  have r5 : w32 h5v3 = h5v3 := w32_eq (by omega)
  have r6 : w32 h6v2 = h6v2 := w32_eq (by omega)
  have r7 : w32 h7v2 = h7v2 := w32_eq (by omega)
  have r8 : w32 h8v2 = h8v2 := w32_eq (by omega)
  have r9 : w32 h9v2 = h9v2 := w32_eq (by omega)
  rw [r0, r1, r2, r3, r4, r5, r6, r7, r8, r9]
  refine ⟨?_, c9v0, ?_⟩
  · constructor <;> dsimp only <;> omega
  · simp only [Fe.toInt, limbs]
    rw [show ((p : Nat) : Int) = 2 ^ 255 - 19 by norm_num]
    subst eh0v3 eh1v3 eh9v2 eh0v2 eh8v2 eh9v1 eh4v3 eh5v3 eh7v2 eh8v1 eh3v2 eh4v2 eh6v2 eh7v1 eh2v2 eh3v1 eh5v2 eh6v1 eh1v2 eh2v1 eh4v1 eh5v1 eh0v1 eh1v1
    ring

end Verif.Ed
