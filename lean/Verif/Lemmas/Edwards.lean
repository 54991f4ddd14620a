/-
The points of the curve form a commutative group under the addition law of RFC 8032. The law is complete because `d` is
not a square; associativity is a polynomial identity modulo the curve equations.
-/
import Verif.Spec.Edwards
import Verif.Lemmas.FieldCanon

namespace Verif.Ed

theorem two_ne : (2 : F) ≠ 0 := by
  have h : ((2 : Nat) : F) ≠ 0 := by rw [Ne, ZMod.natCast_eq_zero_iff]; decide +kernel
  exact_mod_cast h

theorem onCurve_eq {x y : F} (h : OnCurve x y) : -x ^ 2 + y ^ 2 - 1 - d * x ^ 2 * y ^ 2 = 0 := by
  unfold OnCurve at h; linear_combination h

/-- The product in the denominators is never 1 or -1. -/
theorem complete {x1 y1 x2 y2 e : F} (h1 : OnCurve x1 y1) (h2 : OnCurve x2 y2) (he : e ^ 2 = 1) :
    d * x1 * x2 * y1 * y2 ≠ e := by
  intro ht
  have k1 := onCurve_eq h1
  have k2 := onCurve_eq h2
  have hi := feSqrtM1_spec.2
  generalize feSqrtM1.val = i at hi
  have he0 : e ≠ 0 := by rintro rfl; simp at he
  have hx1 : x1 ≠ 0 := by rintro rfl; apply he0; rw [← ht]; ring
  have hy1 : y1 ≠ 0 := by rintro rfl; apply he0; rw [← ht]; ring
  have hy2 : y2 ≠ 0 := by rintro rfl; apply he0; rw [← ht]; ring
  have plus : (i * x1 + e * y1) ^ 2 = d * (x1 * y1) ^ 2 * (i * x2 + y2) ^ 2 := by
    linear_combination (x1 ^ 2 - d * x1 ^ 2 * y1 ^ 2 * x2 ^ 2) * hi + y1 ^ 2 * he + k1 - d * x1 ^ 2 * y1 ^ 2 * k2 -
      (d * x1 * x2 * y1 * y2 + e) * ht - he - 2 * i * x1 * y1 * ht
  have minus : (i * x1 - e * y1) ^ 2 = d * (x1 * y1) ^ 2 * (i * x2 - y2) ^ 2 := by
    linear_combination (x1 ^ 2 - d * x1 ^ 2 * y1 ^ 2 * x2 ^ 2) * hi + y1 ^ 2 * he + k1 - d * x1 ^ 2 * y1 ^ 2 * k2 -
      (d * x1 * x2 * y1 * y2 + e) * ht - he + 2 * i * x1 * y1 * ht
  have hsq : ∀ a b : F, a ^ 2 = d * (x1 * y1) ^ 2 * b ^ 2 → b = 0 := by
    intro a b hab
    by_contra hb
    refine d_nonsquare ⟨a / (x1 * y1 * b), ?_⟩
    field_simp
    linear_combination -hab
  have z1 := hsq _ _ plus
  have z2 := hsq _ _ minus
  have : 2 * y2 = 0 := by linear_combination z1 - z2
  exact (mul_ne_zero two_ne hy2) this

theorem denomX {x1 y1 x2 y2 : F} (h1 : OnCurve x1 y1) (h2 : OnCurve x2 y2) : 1 + d * x1 * x2 * y1 * y2 ≠ 0 := by
  intro h; exact complete h1 h2 (e := -1) (by ring) (by linear_combination h)

theorem denomY {x1 y1 x2 y2 : F} (h1 : OnCurve x1 y1) (h2 : OnCurve x2 y2) : 1 - d * x1 * x2 * y1 * y2 ≠ 0 := by
  intro h; exact complete h1 h2 (e := 1) (by ring) (by linear_combination -h)

theorem sum_onCurve {x1 y1 x2 y2 : F} (h1 : OnCurve x1 y1) (h2 : OnCurve x2 y2) :
    OnCurve (sumX x1 y1 x2 y2) (sumY x1 y1 x2 y2) := by
  have kX := denomX h1 h2
  have kY := denomY h1 h2
  have k1 := onCurve_eq h1
  have k2 := onCurve_eq h2
  unfold OnCurve sumX sumY
  rw [← sub_eq_zero]
  generalize hX : 1 + d * x1 * x2 * y1 * y2 = X at kX
  generalize hY : 1 - d * x1 * x2 * y1 * y2 = Y at kY
  field_simp
  rw [← hX, ← hY]
  clear hX hY kX kY h1 h2
  linear_combination (d ^ 3 * x1 ^ 2 * x2 ^ 4 * y1 ^ 2 * y2 ^ 4 - d ^ 2 * x1 ^ 2 * x2 ^ 4 * y2 ^ 4 + d ^ 2 * x2 ^ 4 * y1 ^ 2 * y2 ^ 4 -
      d ^ 2 * x2 ^ 4 * y2 ^ 4 - d * x1 ^ 2 * x2 ^ 4 * y2 ^ 2 + d * x1 ^ 2 * x2 ^ 2 * y2 ^ 4 + d * x2 ^ 4 * y1 ^ 2 * y2 ^ 2 -
      2 * d * x2 ^ 4 * y2 ^ 4 - d * x2 ^ 2 * y1 ^ 2 * y2 ^ 4 - 2 * d * x2 ^ 2 * y2 ^ 2 - 2 * x2 ^ 4 * y2 ^ 2 +
      x2 ^ 4 + 2 * x2 ^ 2 * y2 ^ 4 - 4 * x2 ^ 2 * y2 ^ 2 + y2 ^ 4) * k1
    + (d * x1 ^ 4 * x2 ^ 2 * y2 ^ 2 + 2 * d * x1 ^ 2 * x2 ^ 2 * y2 ^ 2 + d * x2 ^ 2 * y1 ^ 4 * y2 ^ 2 - 2 * d * x2 ^ 2 * y1 ^ 2 * y2 ^ 2 +
      d * x2 ^ 2 * y2 ^ 2 + 2 * x1 ^ 2 * x2 ^ 2 * y2 ^ 2 - x1 ^ 2 * x2 ^ 2 + x1 ^ 2 * y2 ^ 2 - 2 * x2 ^ 2 * y1 ^ 2 * y2 ^ 2 +
      x2 ^ 2 * y1 ^ 2 + 2 * x2 ^ 2 * y2 ^ 2 - x2 ^ 2 - y1 ^ 2 * y2 ^ 2 + y2 ^ 2 + 1) * k2

theorem sum_assocX {x1 y1 x2 y2 x3 y3 : F} (h1 : OnCurve x1 y1) (h2 : OnCurve x2 y2) (h3 : OnCurve x3 y3) :
    sumX (sumX x1 y1 x2 y2) (sumY x1 y1 x2 y2) x3 y3 = sumX x1 y1 (sumX x2 y2 x3 y3) (sumY x2 y2 x3 y3) := by
  have kL := denomX (sum_onCurve h1 h2) h3
  have kR := denomX h1 (sum_onCurve h2 h3)
  have aX := denomX h1 h2
  have aY := denomY h1 h2
  have bX := denomX h2 h3
  have bY := denomY h2 h3
  have k1 := onCurve_eq h1
  have k2 := onCurve_eq h2
  have k3 := onCurve_eq h3
  unfold sumX at *
  unfold sumY at *
  rw [div_eq_div_iff kL kR]
  clear kL kR
  generalize hAX : 1 + d * x1 * x2 * y1 * y2 = AX at *
  generalize hAY : 1 - d * x1 * x2 * y1 * y2 = AY at *
  generalize hBX : 1 + d * x2 * x3 * y2 * y3 = BX at *
  generalize hBY : 1 - d * x2 * x3 * y2 * y3 = BY at *
  field_simp
  rw [← hAX, ← hAY, ← hBX, ← hBY]
  clear hAX hAY hBX hBY aX aY bX bY h1 h2 h3
  linear_combination (-d ^ 2 * x1 * x2 ^ 4 * x3 ^ 2 * y2 ^ 3 * y3 - d ^ 2 * x1 * x2 ^ 3 * x3 * y2 ^ 4 * y3 ^ 2 + d ^ 2 * x2 ^ 4 * x3 * y1 * y2 ^ 3 * y3 ^ 2 +
      d ^ 2 * x2 ^ 3 * x3 ^ 2 * y1 * y2 ^ 4 * y3 - d * x1 * x2 ^ 4 * x3 ^ 2 * y2 * y3 - d * x1 * x2 ^ 3 * x3 ^ 3 * y2 ^ 2 -
      d * x1 * x2 ^ 3 * x3 * y2 ^ 2 + d * x1 * x2 ^ 2 * y2 ^ 3 * y3 ^ 3 - d * x1 * x2 ^ 2 * y2 ^ 3 * y3 + d * x1 * x2 * x3 * y2 ^ 4 * y3 ^ 2 +
      d * x2 ^ 4 * x3 * y1 * y2 * y3 ^ 2 + d * x2 ^ 3 * y1 * y2 ^ 2 * y3 ^ 3 - d * x2 ^ 3 * y1 * y2 ^ 2 * y3 -
      d * x2 ^ 2 * x3 ^ 3 * y1 * y2 ^ 3 - d * x2 ^ 2 * x3 * y1 * y2 ^ 3 - d * x2 * x3 ^ 2 * y1 * y2 ^ 4 * y3) * k1
    + (d ^ 2 * x1 ^ 2 * x2 ^ 2 * x3 ^ 3 * y1 * y2 * y3 ^ 2 - d ^ 2 * x1 ^ 2 * x2 * x3 ^ 2 * y1 * y2 ^ 2 * y3 ^ 3 - d ^ 2 * x1 * x2 ^ 2 * x3 ^ 2 * y1 ^ 2 * y2 * y3 ^ 3 +
      d ^ 2 * x1 * x2 * x3 ^ 3 * y1 ^ 2 * y2 ^ 2 * y3 ^ 2 + d * x1 ^ 3 * x2 ^ 2 * x3 ^ 2 * y2 * y3 + d * x1 ^ 3 * x2 * x3 ^ 3 * y3 ^ 2 +
      d * x1 ^ 3 * x2 * x3 * y2 ^ 2 * y3 ^ 2 + d * x1 ^ 3 * x3 ^ 2 * y2 * y3 ^ 3 - d * x1 ^ 2 * x2 ^ 2 * x3 * y1 * y2 * y3 ^ 2 -
      d * x1 ^ 2 * x2 * x3 ^ 2 * y1 * y2 ^ 2 * y3 + d * x1 ^ 2 * x2 * x3 ^ 2 * y1 * y3 ^ 3 + d * x1 ^ 2 * x3 ^ 3 * y1 * y2 * y3 ^ 2 -
      d * x1 * x2 ^ 2 * x3 ^ 2 * y1 ^ 2 * y2 * y3 + d * x1 * x2 ^ 2 * x3 ^ 2 * y2 * y3 - d * x1 * x2 * x3 ^ 3 * y1 ^ 2 * y3 ^ 2 +
      d * x1 * x2 * x3 ^ 3 * y3 ^ 2 - d * x1 * x2 * x3 * y1 ^ 2 * y2 ^ 2 * y3 ^ 2 + d * x1 * x2 * x3 * y2 ^ 2 * y3 ^ 2 -
      d * x1 * x3 ^ 2 * y1 ^ 2 * y2 * y3 ^ 3 + d * x1 * x3 ^ 2 * y2 * y3 ^ 3 + d * x2 ^ 2 * x3 * y1 ^ 3 * y2 * y3 ^ 2 -
      d * x2 ^ 2 * x3 * y1 * y2 * y3 ^ 2 + d * x2 * x3 ^ 2 * y1 ^ 3 * y2 ^ 2 * y3 - d * x2 * x3 ^ 2 * y1 ^ 3 * y3 ^ 3 -
      d * x2 * x3 ^ 2 * y1 * y2 ^ 2 * y3 + d * x2 * x3 ^ 2 * y1 * y3 ^ 3 - d * x3 ^ 3 * y1 ^ 3 * y2 * y3 ^ 2 +
      d * x3 ^ 3 * y1 * y2 * y3 ^ 2 + x1 ^ 3 * x2 * x3 ^ 3 - x1 ^ 3 * x2 * x3 * y3 ^ 2 + x1 ^ 3 * x2 * x3 + x1 ^ 3 * x3 ^ 2 * y2 * y3 -
      x1 ^ 3 * y2 * y3 ^ 3 + x1 ^ 3 * y2 * y3 + x1 ^ 2 * x2 * x3 ^ 2 * y1 * y3 - x1 ^ 2 * x2 * y1 * y3 ^ 3 + x1 ^ 2 * x2 * y1 * y3 +
      x1 ^ 2 * x3 ^ 3 * y1 * y2 - x1 ^ 2 * x3 * y1 * y2 * y3 ^ 2 + x1 ^ 2 * x3 * y1 * y2 - x1 * x2 * x3 ^ 3 * y1 ^ 2 +
      x1 * x2 * x3 ^ 3 + x1 * x2 * x3 * y1 ^ 2 * y3 ^ 2 - x1 * x2 * x3 * y1 ^ 2 - x1 * x2 * x3 * y3 ^ 2 + x1 * x2 * x3 -
      x1 * x3 ^ 2 * y1 ^ 2 * y2 * y3 + x1 * x3 ^ 2 * y2 * y3 + x1 * y1 ^ 2 * y2 * y3 ^ 3 - x1 * y1 ^ 2 * y2 * y3 -
      x1 * y2 * y3 ^ 3 + x1 * y2 * y3 - x2 * x3 ^ 2 * y1 ^ 3 * y3 + x2 * x3 ^ 2 * y1 * y3 + x2 * y1 ^ 3 * y3 ^ 3 -
      x2 * y1 ^ 3 * y3 - x2 * y1 * y3 ^ 3 + x2 * y1 * y3 - x3 ^ 3 * y1 ^ 3 * y2 + x3 ^ 3 * y1 * y2 + x3 * y1 ^ 3 * y2 * y3 ^ 2 -
      x3 * y1 ^ 3 * y2 - x3 * y1 * y2 * y3 ^ 2 + x3 * y1 * y2) * k2
    + (-d * x1 ^ 2 * x2 ^ 2 * x3 * y1 * y2 + d * x1 ^ 2 * x2 * y1 * y2 ^ 2 * y3 + d * x1 * x2 ^ 2 * y1 ^ 2 * y2 * y3 -
      d * x1 * x2 * x3 * y1 ^ 2 * y2 ^ 2 - x1 ^ 3 * x2 ^ 3 * x3 - x1 ^ 3 * x2 ^ 2 * y2 * y3 + x1 ^ 3 * x2 * x3 * y2 ^ 2 -
      x1 ^ 3 * x2 * x3 + x1 ^ 3 * y2 ^ 3 * y3 - x1 ^ 3 * y2 * y3 - x1 ^ 2 * x2 ^ 3 * y1 * y3 - x1 ^ 2 * x2 ^ 2 * x3 * y1 * y2 +
      x1 ^ 2 * x2 * y1 * y2 ^ 2 * y3 - x1 ^ 2 * x2 * y1 * y3 + x1 ^ 2 * x3 * y1 * y2 ^ 3 - x1 ^ 2 * x3 * y1 * y2 +
      x1 * x2 ^ 3 * x3 * y1 ^ 2 - x1 * x2 ^ 3 * x3 + x1 * x2 ^ 2 * y1 ^ 2 * y2 * y3 - x1 * x2 ^ 2 * y2 * y3 - x1 * x2 * x3 * y1 ^ 2 * y2 ^ 2 +
      x1 * x2 * x3 * y1 ^ 2 + x1 * x2 * x3 * y2 ^ 2 - x1 * x2 * x3 - x1 * y1 ^ 2 * y2 ^ 3 * y3 + x1 * y1 ^ 2 * y2 * y3 +
      x1 * y2 ^ 3 * y3 - x1 * y2 * y3 + x2 ^ 3 * y1 ^ 3 * y3 - x2 ^ 3 * y1 * y3 + x2 ^ 2 * x3 * y1 ^ 3 * y2 - x2 ^ 2 * x3 * y1 * y2 -
      x2 * y1 ^ 3 * y2 ^ 2 * y3 + x2 * y1 ^ 3 * y3 + x2 * y1 * y2 ^ 2 * y3 - x2 * y1 * y3 - x3 * y1 ^ 3 * y2 ^ 3 +
      x3 * y1 ^ 3 * y2 + x3 * y1 * y2 ^ 3 - x3 * y1 * y2) * k3

theorem sum_assocY {x1 y1 x2 y2 x3 y3 : F} (h1 : OnCurve x1 y1) (h2 : OnCurve x2 y2) (h3 : OnCurve x3 y3) :
    sumY (sumX x1 y1 x2 y2) (sumY x1 y1 x2 y2) x3 y3 = sumY x1 y1 (sumX x2 y2 x3 y3) (sumY x2 y2 x3 y3) := by
  have kL := denomY (sum_onCurve h1 h2) h3
  have kR := denomY h1 (sum_onCurve h2 h3)
  have aX := denomX h1 h2
  have aY := denomY h1 h2
  have bX := denomX h2 h3
  have bY := denomY h2 h3
  have k1 := onCurve_eq h1
  have k2 := onCurve_eq h2
  have k3 := onCurve_eq h3
  unfold sumX at *
  unfold sumY at *
  rw [div_eq_div_iff kL kR]
  clear kL kR
  generalize hAX : 1 + d * x1 * x2 * y1 * y2 = AX at *
  generalize hAY : 1 - d * x1 * x2 * y1 * y2 = AY at *
  generalize hBX : 1 + d * x2 * x3 * y2 * y3 = BX at *
  generalize hBY : 1 - d * x2 * x3 * y2 * y3 = BY at *
  field_simp
  rw [← hAX, ← hAY, ← hBX, ← hBY]
  clear hAX hAY hBX hBY aX aY bX bY h1 h2 h3
  linear_combination (d ^ 2 * x1 * x2 ^ 4 * x3 * y2 ^ 3 * y3 ^ 2 + d ^ 2 * x1 * x2 ^ 3 * x3 ^ 2 * y2 ^ 4 * y3 - d ^ 2 * x2 ^ 4 * x3 ^ 2 * y1 * y2 ^ 3 * y3 -
      d ^ 2 * x2 ^ 3 * x3 * y1 * y2 ^ 4 * y3 ^ 2 + d * x1 * x2 ^ 4 * x3 * y2 * y3 ^ 2 + d * x1 * x2 ^ 3 * y2 ^ 2 * y3 ^ 3 -
      d * x1 * x2 ^ 3 * y2 ^ 2 * y3 - d * x1 * x2 ^ 2 * x3 ^ 3 * y2 ^ 3 - d * x1 * x2 ^ 2 * x3 * y2 ^ 3 - d * x1 * x2 * x3 ^ 2 * y2 ^ 4 * y3 -
      d * x2 ^ 4 * x3 ^ 2 * y1 * y2 * y3 - d * x2 ^ 3 * x3 ^ 3 * y1 * y2 ^ 2 - d * x2 ^ 3 * x3 * y1 * y2 ^ 2 +
      d * x2 ^ 2 * y1 * y2 ^ 3 * y3 ^ 3 - d * x2 ^ 2 * y1 * y2 ^ 3 * y3 + d * x2 * x3 * y1 * y2 ^ 4 * y3 ^ 2) * k1
    + (d ^ 2 * x1 ^ 2 * x2 ^ 2 * x3 ^ 2 * y1 * y2 * y3 ^ 3 - d ^ 2 * x1 ^ 2 * x2 * x3 ^ 3 * y1 * y2 ^ 2 * y3 ^ 2 - d ^ 2 * x1 * x2 ^ 2 * x3 ^ 3 * y1 ^ 2 * y2 * y3 ^ 2 +
      d ^ 2 * x1 * x2 * x3 ^ 2 * y1 ^ 2 * y2 ^ 2 * y3 ^ 3 - d * x1 ^ 3 * x2 ^ 2 * x3 * y2 * y3 ^ 2 - d * x1 ^ 3 * x2 * x3 ^ 2 * y2 ^ 2 * y3 +
      d * x1 ^ 3 * x2 * x3 ^ 2 * y3 ^ 3 + d * x1 ^ 3 * x3 ^ 3 * y2 * y3 ^ 2 + d * x1 ^ 2 * x2 ^ 2 * x3 ^ 2 * y1 * y2 * y3 +
      d * x1 ^ 2 * x2 * x3 ^ 3 * y1 * y3 ^ 2 + d * x1 ^ 2 * x2 * x3 * y1 * y2 ^ 2 * y3 ^ 2 + d * x1 ^ 2 * x3 ^ 2 * y1 * y2 * y3 ^ 3 +
      d * x1 * x2 ^ 2 * x3 * y1 ^ 2 * y2 * y3 ^ 2 - d * x1 * x2 ^ 2 * x3 * y2 * y3 ^ 2 + d * x1 * x2 * x3 ^ 2 * y1 ^ 2 * y2 ^ 2 * y3 -
      d * x1 * x2 * x3 ^ 2 * y1 ^ 2 * y3 ^ 3 - d * x1 * x2 * x3 ^ 2 * y2 ^ 2 * y3 + d * x1 * x2 * x3 ^ 2 * y3 ^ 3 -
      d * x1 * x3 ^ 3 * y1 ^ 2 * y2 * y3 ^ 2 + d * x1 * x3 ^ 3 * y2 * y3 ^ 2 - d * x2 ^ 2 * x3 ^ 2 * y1 ^ 3 * y2 * y3 +
      d * x2 ^ 2 * x3 ^ 2 * y1 * y2 * y3 - d * x2 * x3 ^ 3 * y1 ^ 3 * y3 ^ 2 + d * x2 * x3 ^ 3 * y1 * y3 ^ 2 -
      d * x2 * x3 * y1 ^ 3 * y2 ^ 2 * y3 ^ 2 + d * x2 * x3 * y1 * y2 ^ 2 * y3 ^ 2 - d * x3 ^ 2 * y1 ^ 3 * y2 * y3 ^ 3 +
      d * x3 ^ 2 * y1 * y2 * y3 ^ 3 + x1 ^ 3 * x2 * x3 ^ 2 * y3 - x1 ^ 3 * x2 * y3 ^ 3 + x1 ^ 3 * x2 * y3 + x1 ^ 3 * x3 ^ 3 * y2 -
      x1 ^ 3 * x3 * y2 * y3 ^ 2 + x1 ^ 3 * x3 * y2 + x1 ^ 2 * x2 * x3 ^ 3 * y1 - x1 ^ 2 * x2 * x3 * y1 * y3 ^ 2 +
      x1 ^ 2 * x2 * x3 * y1 + x1 ^ 2 * x3 ^ 2 * y1 * y2 * y3 - x1 ^ 2 * y1 * y2 * y3 ^ 3 + x1 ^ 2 * y1 * y2 * y3 -
      x1 * x2 * x3 ^ 2 * y1 ^ 2 * y3 + x1 * x2 * x3 ^ 2 * y3 + x1 * x2 * y1 ^ 2 * y3 ^ 3 - x1 * x2 * y1 ^ 2 * y3 -
      x1 * x2 * y3 ^ 3 + x1 * x2 * y3 - x1 * x3 ^ 3 * y1 ^ 2 * y2 + x1 * x3 ^ 3 * y2 + x1 * x3 * y1 ^ 2 * y2 * y3 ^ 2 -
      x1 * x3 * y1 ^ 2 * y2 - x1 * x3 * y2 * y3 ^ 2 + x1 * x3 * y2 - x2 * x3 ^ 3 * y1 ^ 3 + x2 * x3 ^ 3 * y1 +
      x2 * x3 * y1 ^ 3 * y3 ^ 2 - x2 * x3 * y1 ^ 3 - x2 * x3 * y1 * y3 ^ 2 + x2 * x3 * y1 - x3 ^ 2 * y1 ^ 3 * y2 * y3 +
      x3 ^ 2 * y1 * y2 * y3 + y1 ^ 3 * y2 * y3 ^ 3 - y1 ^ 3 * y2 * y3 - y1 * y2 * y3 ^ 3 + y1 * y2 * y3) * k2
    + (-d * x1 ^ 2 * x2 ^ 2 * y1 * y2 * y3 + d * x1 ^ 2 * x2 * x3 * y1 * y2 ^ 2 + d * x1 * x2 ^ 2 * x3 * y1 ^ 2 * y2 -
      d * x1 * x2 * y1 ^ 2 * y2 ^ 2 * y3 - x1 ^ 3 * x2 ^ 3 * y3 - x1 ^ 3 * x2 ^ 2 * x3 * y2 + x1 ^ 3 * x2 * y2 ^ 2 * y3 -
      x1 ^ 3 * x2 * y3 + x1 ^ 3 * x3 * y2 ^ 3 - x1 ^ 3 * x3 * y2 - x1 ^ 2 * x2 ^ 3 * x3 * y1 - x1 ^ 2 * x2 ^ 2 * y1 * y2 * y3 +
      x1 ^ 2 * x2 * x3 * y1 * y2 ^ 2 - x1 ^ 2 * x2 * x3 * y1 + x1 ^ 2 * y1 * y2 ^ 3 * y3 - x1 ^ 2 * y1 * y2 * y3 +
      x1 * x2 ^ 3 * y1 ^ 2 * y3 - x1 * x2 ^ 3 * y3 + x1 * x2 ^ 2 * x3 * y1 ^ 2 * y2 - x1 * x2 ^ 2 * x3 * y2 - x1 * x2 * y1 ^ 2 * y2 ^ 2 * y3 +
      x1 * x2 * y1 ^ 2 * y3 + x1 * x2 * y2 ^ 2 * y3 - x1 * x2 * y3 - x1 * x3 * y1 ^ 2 * y2 ^ 3 + x1 * x3 * y1 ^ 2 * y2 +
      x1 * x3 * y2 ^ 3 - x1 * x3 * y2 + x2 ^ 3 * x3 * y1 ^ 3 - x2 ^ 3 * x3 * y1 + x2 ^ 2 * y1 ^ 3 * y2 * y3 - x2 ^ 2 * y1 * y2 * y3 -
      x2 * x3 * y1 ^ 3 * y2 ^ 2 + x2 * x3 * y1 ^ 3 + x2 * x3 * y1 * y2 ^ 2 - x2 * x3 * y1 - y1 ^ 3 * y2 ^ 3 * y3 +
      y1 ^ 3 * y2 * y3 + y1 * y2 ^ 3 * y3 - y1 * y2 * y3) * k3

namespace Point

instance : Zero Point := ⟨⟨0, 1, by unfold OnCurve; ring⟩⟩
instance : Neg Point := ⟨fun P => ⟨-P.x, P.y, by have := P.on; unfold OnCurve at *; rw [neg_sq]; exact this⟩⟩
instance : Add Point := ⟨fun P Q => ⟨sumX P.x P.y Q.x Q.y, sumY P.x P.y Q.x Q.y, sum_onCurve P.on Q.on⟩⟩

theorem zero_x : (0 : Point).x = 0 := rfl
theorem zero_y : (0 : Point).y = 1 := rfl
theorem neg_x (P : Point) : (-P).x = -P.x := rfl
theorem neg_y (P : Point) : (-P).y = P.y := rfl
theorem add_x (P Q : Point) : (P + Q).x = sumX P.x P.y Q.x Q.y := rfl
theorem add_y (P Q : Point) : (P + Q).y = sumY P.x P.y Q.x Q.y := rfl

/-- The group of the curve; `n • P` is repeated addition. -/
instance : AddCommGroup Point where
  add_assoc P Q R := Point.ext (sum_assocX P.on Q.on R.on) (sum_assocY P.on Q.on R.on)
  zero_add P := Point.ext (by rw [add_x, sumX, zero_x, zero_y]; simp) (by rw [add_y, sumY, zero_x, zero_y]; simp)
  add_zero P := Point.ext (by rw [add_x, sumX, zero_x, zero_y]; simp) (by rw [add_y, sumY, zero_x, zero_y]; simp)
  add_comm P Q := Point.ext
    (by rw [add_x, add_x, sumX, sumX]; congr 1 <;> ring) (by rw [add_y, add_y, sumY, sumY]; congr 1 <;> ring)
  neg_add_cancel P := by
    have hY := denomY (-P).on P.on
    have k := onCurve_eq P.on
    refine Point.ext ?_ ?_
    · rw [add_x, sumX, neg_x, neg_y, zero_x]
      rw [show -P.x * P.y + P.x * P.y = 0 by ring, zero_div]
    · rw [add_y, sumY, zero_y, div_eq_one_iff_eq hY, neg_x, neg_y]
      linear_combination k
  nsmul := nsmulRec
  zsmul := zsmulRec

end Point

end Verif.Ed
