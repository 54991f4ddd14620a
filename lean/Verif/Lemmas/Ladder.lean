/-
The ladder of RFC 7748 computes u-coordinates of multiples of a point.
-/
import Verif.Spec.X25519

namespace Verif.Ed

/-- The Montgomery u-coordinate of a point, with 0 for y = 1. -/
def Point.u (P : Point) : F := (1 + P.y) / (1 - P.y)

/-- (a : b) is the u-coordinate of `Q`, in projective form. -/
def Rep (a b : F) (Q : Point) : Prop := ∃ c : F, c ≠ 0 ∧ a = c * (1 + Q.y) ∧ b = c * (1 - Q.y)

theorem Rep.of_prop {a b : F} {Q : Point} (h : a * (1 - Q.y) = b * (1 + Q.y)) (h0 : ¬ (a = 0 ∧ b = 0)) : Rep a b Q := by
  have ha : a = (a + b) / 2 * (1 + Q.y) := by
    have := two_ne; field_simp; linear_combination h
  have hb : b = (a + b) / 2 * (1 - Q.y) := by
    have := two_ne; field_simp; linear_combination -h
  refine ⟨(a + b) / 2, fun hc => h0 ?_, ha, hb⟩
  rw [hc] at ha hb
  exact ⟨by rw [ha, zero_mul], by rw [hb, zero_mul]⟩

theorem d_eq : d * 121666 = -121665 := by rw [d, div_mul_cancel₀ _ n121666]

theorem double_y (Q : Point) : ∃ D : F, D ≠ 0 ∧ (1 + (Q + Q).y) * D = 2 * Q.y ^ 2 * (1 + d) ∧
    (1 - (Q + Q).y) * D = 2 * (1 - Q.y ^ 2) * (1 + d * Q.y ^ 2) := by
  have hD := denomY Q.on Q.on
  have hv := denom_ne Q.y
  have k := onCurve_eq Q.on
  refine ⟨(1 - d * Q.x * Q.x * Q.y * Q.y) * (d * Q.y ^ 2 + 1), mul_ne_zero hD hv, ?_, ?_⟩
  · rw [Point.add_y, sumY, ← mul_assoc, add_mul, div_mul_cancel₀ _ hD]
    linear_combination -(1 - d * Q.y ^ 2) * k
  · rw [Point.add_y, sumY, ← mul_assoc, sub_mul, div_mul_cancel₀ _ hD]
    linear_combination (1 + d * Q.y ^ 2) * k

theorem Rep.double {a b : F} {Q : Point} (h : Rep a b Q) :
    Rep ((a + b) ^ 2 * (a - b) ^ 2) (((a + b) ^ 2 - (a - b) ^ 2) * ((a + b) ^ 2 + 121665 * ((a + b) ^ 2 - (a - b) ^ 2))) (Q + Q) := by
  obtain ⟨c, hc, ha, hb⟩ := h
  obtain ⟨D, hD, h1, h2⟩ := double_y Q
  have hd := d_eq
  refine ⟨8 * 121666 * c ^ 4 * D, ?_, ?_, ?_⟩
  · have h8 : (8 : F) ≠ 0 := by rw [show (8 : F) = 2 ^ 3 by norm_num]; exact pow_ne_zero _ two_ne
    exact mul_ne_zero (mul_ne_zero (mul_ne_zero h8 n121666) (pow_ne_zero _ hc)) hD
  · rw [ha, hb]
    linear_combination -(8 * 121666 * c ^ 4) * h1 - 16 * c ^ 4 * Q.y ^ 2 * hd
  · rw [ha, hb]
    linear_combination -(8 * 121666 * c ^ 4) * h2 - 16 * c ^ 4 * (1 - Q.y ^ 2) * Q.y ^ 2 * hd

theorem diff_y (P Q : Point) :
    (1 + (P + Q).y) * (1 + (P - Q).y) * (P.y - Q.y) ^ 2 = (1 - (P + Q).y) * (1 - (P - Q).y) * (P.y + Q.y) ^ 2 := by
  have k1 := onCurve_eq P.on
  have k2 := onCurve_eq Q.on
  have hS := denomY P.on Q.on
  have hD := denomY P.on (-Q).on
  rw [sub_eq_add_neg, Point.add_y, Point.add_y, sumY, sumY]
  rw [Point.neg_x, Point.neg_y] at *
  rw [show 1 - d * P.x * -Q.x * P.y * Q.y = 1 + d * P.x * Q.x * P.y * Q.y by ring] at *
  generalize hs : 1 - d * P.x * Q.x * P.y * Q.y = S at *
  generalize hd : 1 + d * P.x * Q.x * P.y * Q.y = D at *
  field_simp
  rw [← hs, ← hd, ← sub_eq_zero]
  linear_combination (-4 * d * Q.x ^ 2 * P.y * Q.y ^ 3 - 4 * Q.x ^ 2 * P.y * Q.y) * k1 + (-4 * P.y ^ 3 * Q.y + 4 * P.y * Q.y) * k2

theorem Rep.diff {a b a' b' : F} {P Q : Point} (hQ : Rep a b Q) (hP : Rep a' b' P) (h1 : (P - Q).y ≠ 1) (h2 : (P - Q).y ≠ -1) :
    Rep (((a' - b') * (a + b) + (a' + b') * (a - b)) ^ 2) ((P - Q).u * ((a' - b') * (a + b) - (a' + b') * (a - b)) ^ 2) (P + Q) := by
  obtain ⟨c, hc, ha, hb⟩ := hQ
  obtain ⟨c', hc', ha', hb'⟩ := hP
  have hk := diff_y P Q
  have hn : 1 - (P - Q).y ≠ 0 := fun h => h1 (by linear_combination -h)
  have hn' : 1 + (P - Q).y ≠ 0 := fun h => h2 (by linear_combination h)
  have e1 : (a' - b') * (a + b) + (a' + b') * (a - b) = 4 * (c * c') * (P.y + Q.y) := by rw [ha, hb, ha', hb']; ring
  have e2 : (a' - b') * (a + b) - (a' + b') * (a - b) = 4 * (c * c') * (P.y - Q.y) := by rw [ha, hb, ha', hb']; ring
  rw [e1, e2]
  have h4 : 4 * (c * c') ≠ 0 := by
    have : (4 : F) ≠ 0 := by rw [show (4 : F) = 2 ^ 2 by norm_num]; exact pow_ne_zero _ two_ne
    exact mul_ne_zero this (mul_ne_zero hc hc')
  apply Rep.of_prop
  · rw [Point.u]
    field_simp
    linear_combination -16 * hk
  · rintro ⟨z1, z2⟩
    have z1 : P.y + Q.y = 0 := by
      rcases mul_eq_zero.1 (pow_eq_zero_iff (two_ne_zero) |>.1 z1) with h | h
      · exact absurd h h4
      · exact h
    have z2 : P.y - Q.y = 0 := by
      rcases mul_eq_zero.1 z2 with h | h
      · exact absurd h (div_ne_zero hn' hn)
      · rcases mul_eq_zero.1 (pow_eq_zero_iff (two_ne_zero) |>.1 h) with h | h
        · exact absurd h h4
        · exact h
    have y1 : P.y = 0 := by
      have : 2 * P.y = 0 := by linear_combination z1 + z2
      exact (mul_eq_zero.1 this).resolve_left two_ne
    have y2 : Q.y = 0 := by rw [y1] at z1; simpa using z1
    have k1 := onCurve_eq P.on
    have k2 := onCurve_eq Q.on
    rw [y1] at k1
    rw [y2] at k2
    have hy : (P - Q).y = -(P.x * Q.x) := by
      rw [sub_eq_add_neg, Point.add_y, sumY, Point.neg_x, Point.neg_y, y1, y2]; simp
    have hsq : ((P - Q).y) ^ 2 = 1 ^ 2 := by
      rw [hy]; linear_combination -k1 * Q.x ^ 2 + k2
    rcases sq_eq_sq_iff_eq_or_eq_neg.1 hsq with h | h
    · exact h1 h
    · exact h2 h

/-- The two pairs, with the pending swap undone, are the u-coordinates of `m • P` and `(m + 1) • P`. -/
def LInv (P : Point) (m : Nat) (s : LState) : Prop :=
  Rep (s.cswap s.swap).x2 (s.cswap s.swap).z2 (m • P) ∧ Rep (s.cswap s.swap).x3 (s.cswap s.swap).z3 ((m + 1) • P)

theorem ladderStep_spec {P : Point} (h1 : P.y ≠ 1) (h2 : P.y ≠ -1) {m : Nat} {s : LState} (hs : LInv P m s) (kt : Bool) :
    LInv P (2 * m + kt.toNat) (ladderStep P.u kt s) := by
  obtain ⟨x2, z2, x3, z3, sw⟩ := s
  have hd : (m + 1) • P - m • P = P := by rw [succ_nsmul]; abel
  have hd' : m • P - (m + 1) • P = -P := by rw [succ_nsmul]; abel
  have hsum : (m + 1) • P + m • P = (2 * m + 1) • P := by rw [← add_nsmul]; congr 1; omega
  have hdbl : m • P + m • P = (2 * m) • P := by rw [← add_nsmul]; congr 1; omega
  have hdbl' : (m + 1) • P + (m + 1) • P = (2 * m + 1 + 1) • P := by rw [← add_nsmul]; congr 1; omega
  have key : ∀ {a b a' b' : F}, Rep a b (m • P) → Rep a' b' ((m + 1) • P) →
      Rep (((a' - b') * (a + b) + (a' + b') * (a - b)) ^ 2) (P.u * ((a' - b') * (a + b) - (a' + b') * (a - b)) ^ 2) ((2 * m + 1) • P) ∧
      Rep (((a - b) * (a' + b') + (a + b) * (a' - b')) ^ 2) (P.u * ((a - b) * (a' + b') - (a + b) * (a' - b')) ^ 2) ((2 * m + 1) • P) := by
    intro a b a' b' hR0 hR1
    have e1 := hR0.diff hR1 (by rw [hd]; exact h1) (by rw [hd]; exact h2)
    rw [hd, hsum] at e1
    refine ⟨e1, ?_⟩
    have a1 : (a - b) * (a' + b') + (a + b) * (a' - b') = (a' - b') * (a + b) + (a' + b') * (a - b) := by ring
    have a2 : ((a - b) * (a' + b') - (a + b) * (a' - b')) ^ 2 = ((a' - b') * (a + b) - (a' + b') * (a - b)) ^ 2 := by ring
    rw [a1, a2]; exact e1
  cases sw <;> cases kt
  · obtain ⟨hR0, hR1⟩ : Rep x2 z2 (m • P) ∧ Rep x3 z3 ((m + 1) • P) := hs
    exact ⟨hdbl ▸ hR0.double, (key hR0 hR1).1⟩
  · obtain ⟨hR0, hR1⟩ : Rep x2 z2 (m • P) ∧ Rep x3 z3 ((m + 1) • P) := hs
    exact ⟨(key hR0 hR1).2, hdbl' ▸ hR1.double⟩
  · obtain ⟨hR0, hR1⟩ : Rep x3 z3 (m • P) ∧ Rep x2 z2 ((m + 1) • P) := hs
    exact ⟨hdbl ▸ hR0.double, (key hR0 hR1).1⟩
  · obtain ⟨hR0, hR1⟩ : Rep x3 z3 (m • P) ∧ Rep x2 z2 ((m + 1) • P) := hs
    exact ⟨(key hR0 hR1).2, hdbl' ▸ hR1.double⟩

theorem shift_bit (k t : Nat) : 2 * (k >>> (t + 1)) + (k.testBit t).toNat = k >>> t := by
  rw [Nat.shiftRight_succ, Nat.testBit_eq_decide_div_mod_eq, Nat.shiftRight_eq_div_pow]
  by_cases h : k / 2 ^ t % 2 = 1
  · simp only [h, decide_true, Bool.toNat_true]; omega
  · simp only [h, decide_false, Bool.toNat_false]; omega

theorem ladderLoop_spec {P : Point} (h1 : P.y ≠ 1) (h2 : P.y ≠ -1) (k t : Nat) {s : LState} (hs : LInv P (k >>> t) s) :
    LInv P k (ladderLoop k P.u t s) := by
  induction t generalizing s with
  | zero => simpa [ladderLoop] using hs
  | succ t ih =>
    rw [ladderLoop]
    apply ih
    rw [← shift_bit]
    exact ladderStep_spec h1 h2 hs _

theorem x_ne {P : Point} (h : P.x ≠ 0) : P.y ≠ 1 ∧ P.y ≠ -1 := by
  have hk := onCurve_eq P.on
  have hv := denom_ne P.y
  constructor <;> intro hy <;> apply h <;> rw [hy] at hk hv
  · have : P.x ^ 2 * (d * 1 ^ 2 + 1) = 0 := by linear_combination -hk
    exact pow_eq_zero_iff two_ne_zero |>.1 ((mul_eq_zero.1 this).resolve_right hv)
  · have : P.x ^ 2 * (d * (-1) ^ 2 + 1) = 0 := by linear_combination -hk
    exact pow_eq_zero_iff two_ne_zero |>.1 ((mul_eq_zero.1 this).resolve_right hv)

theorem y_of_x {P : Point} (h : P.x = 0) : P.y = 1 ∨ P.y = -1 := by
  have hk := onCurve_eq P.on
  rw [h] at hk
  have : P.y ^ 2 = 1 ^ 2 := by linear_combination hk
  exact sq_eq_sq_iff_eq_or_eq_neg.1 this

theorem pow_inv (z : F) : z ^ (p - 2) = z⁻¹ := by
  by_cases h0 : z = 0
  · rw [h0, inv_zero]; exact zero_pow (by norm_num)
  · have h3 : z ^ (p - 1) = 1 := ZMod.pow_card_sub_one_eq_one h0
    rw [← mul_left_inj' h0, inv_mul_cancel₀ h0, ← pow_succ, ← h3]
    exact congrArg _ (by norm_num)

theorem Rep.value {a b : F} {Q : Point} (h : Rep a b Q) : a * b ^ (p - 2) = Q.u := by
  obtain ⟨c, hc, ha, hb⟩ := h
  rw [pow_inv, ← div_eq_mul_inv, ha, hb, Point.u, mul_div_mul_left _ _ hc]

theorem ladder_of_x_ne {P : Point} (h : P.x ≠ 0) {k : Nat} (hk : k < 2 ^ 255) : ladder k P.u = (k • P).u := by
  obtain ⟨h1, h2⟩ := x_ne h
  have hn : 1 - P.y ≠ 0 := fun h => h1 (by linear_combination -h)
  have h0 : LInv P (k >>> 255) ⟨1, 0, P.u, 1, false⟩ := by
    have : k >>> 255 = 0 := by rw [Nat.shiftRight_eq_div_pow]; exact Nat.div_eq_of_lt hk
    rw [this]
    refine ⟨⟨1 / 2, by simp [two_ne], ?_, ?_⟩, ⟨1 / (1 - P.y), by simp [hn], ?_, ?_⟩⟩
    · show (1 : F) = 1 / 2 * (1 + (0 • P).y)
      rw [zero_nsmul, Point.zero_y]; have := two_ne; field_simp; norm_num
    · show (0 : F) = 1 / 2 * (1 - (0 • P).y)
      rw [zero_nsmul, Point.zero_y]; ring
    · show P.u = 1 / (1 - P.y) * (1 + ((0 + 1) • P).y)
      rw [zero_add, one_nsmul, Point.u]; ring
    · show (1 : F) = 1 / (1 - P.y) * (1 - ((0 + 1) • P).y)
      rw [zero_add, one_nsmul]; field_simp
  exact (ladderLoop_spec h1 h2 k 255 h0).1.value

theorem ladder_zero (k : Nat) : ladder k 0 = 0 := by
  have step : ∀ (kt : Bool) (s : LState), s.x2 * s.z2 = 0 → s.x3 * s.z3 = 0 →
      (ladderStep 0 kt s).x2 * (ladderStep 0 kt s).z2 = 0 ∧ (ladderStep 0 kt s).x3 * (ladderStep 0 kt s).z3 = 0 := by
    intro kt s hs2 hs3
    have hs : ∀ b, (s.cswap b).x2 * (s.cswap b).z2 = 0 := by
      intro b; cases b
      · exact hs2
      · exact hs3
    have h := hs (Bool.xor s.swap kt)
    constructor
    · unfold ladderStep
      dsimp only
      generalize s.cswap (Bool.xor s.swap kt) = s' at h
      linear_combination (4 * (s'.x2 + s'.z2) ^ 2 * (s'.x2 - s'.z2) ^ 2 * ((s'.x2 + s'.z2) ^ 2 + 121665 * ((s'.x2 + s'.z2) ^ 2 - (s'.x2 - s'.z2) ^ 2))) * h
    · show _ * (0 * _) = (0 : F)
      ring
  have loop : ∀ t (s : LState), s.x2 * s.z2 = 0 → s.x3 * s.z3 = 0 →
      (ladderLoop k 0 t s).x2 * (ladderLoop k 0 t s).z2 = 0 ∧ (ladderLoop k 0 t s).x3 * (ladderLoop k 0 t s).z3 = 0 := by
    intro t
    induction t with
    | zero => intro s h2 h3; exact ⟨h2, h3⟩
    | succ t ih =>
      intro s h2 h3
      obtain ⟨g2, g3⟩ := step (k.testBit t) s h2 h3
      exact ih _ g2 g3
  obtain ⟨h2, h3⟩ := loop 255 ⟨1, 0, 0, 1, false⟩ (by simp) (by simp)
  unfold ladder
  dsimp only
  generalize ladderLoop k 0 255 ⟨1, 0, 0, 1, false⟩ = s at h2 h3
  have hs : (s.cswap s.swap).x2 * (s.cswap s.swap).z2 = 0 := by
    cases s.swap
    · exact h2
    · exact h3
  rcases mul_eq_zero.1 hs with h | h
  · rw [h, zero_mul]
  · rw [h, zero_pow (by norm_num), mul_zero]

/-- The ladder computes u-coordinates of even multiples of every point. -/
theorem ladder_spec (P : Point) {k : Nat} (hk : k < 2 ^ 255) (h2 : 2 ∣ k) : ladder k P.u = (k • P).u := by
  by_cases h : P.x = 0
  · have hu : P.u = 0 := by
      rcases y_of_x h with hy | hy <;> rw [Point.u, hy] <;> simp
    have h0 : P + P = 0 := by
      refine Point.ext ?_ ?_
      · rw [Point.add_x, sumX, h]; simp [Point.zero_x]
      · rw [Point.add_y, sumY, h]
        rcases y_of_x h with hy | hy <;> rw [hy] <;> simp [Point.zero_y]
    obtain ⟨j, rfl⟩ := h2
    rw [hu, ladder_zero, mul_nsmul, two_nsmul, h0, smul_zero, Point.u, Point.zero_y]
    simp
  · exact ladder_of_x_ne h hk

end Verif.Ed
