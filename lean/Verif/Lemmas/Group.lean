/-
The group operations of edwards25519.go compute the group law and keep the limbs within bounds.
-/
import Verif.Spec.Group

namespace Verif.Ed

theorem addX_mul (P Q : Point) : (P + Q).x * (1 + d * P.x * Q.x * P.y * Q.y) = P.x * Q.y + Q.x * P.y := by
  rw [Point.add_x, sumX, div_mul_cancel₀ _ (denomX P.on Q.on)]

theorem addY_mul (P Q : Point) : (P + Q).y * (1 - d * P.x * Q.x * P.y * Q.y) = P.y * Q.y + P.x * Q.x := by
  rw [Point.add_y, sumY, div_mul_cancel₀ _ (denomY P.on Q.on)]

theorem sub_mulX (P Q : Point) : (P - Q).x * (1 - d * P.x * Q.x * P.y * Q.y) = P.x * Q.y - Q.x * P.y := by
  have h := addX_mul P (-Q)
  rw [← sub_eq_add_neg, Point.neg_x, Point.neg_y] at h
  linear_combination h

theorem sub_mulY (P Q : Point) : (P - Q).y * (1 + d * P.x * Q.x * P.y * Q.y) = P.y * Q.y - P.x * Q.x := by
  have h := addY_mul P (-Q)
  rw [← sub_eq_add_neg, Point.neg_x, Point.neg_y] at h
  linear_combination h

theorem feD2_spec : feD2.Small ∧ feD2.val = 2 * d := by
  refine ⟨by constructor <;> norm_num [feD2], ?_⟩
  rw [← feD_spec.2, ← sub_eq_zero]
  have h : ((feD2.toInt - 2 * feD.toInt : Int) : F) = 0 := int_zero (by decide +kernel)
  rw [Fe.val, Fe.val]; push_cast at h; exact h

abbrev Fe.Triple (f : Fe) : Prop := f.Within (3 * 2 ^ 25) (3 * (2 ^ 24 + 2 ^ 16))

theorem Fe.Within.ok {f : Fe} {e o : Int} (h : f.Within e o) (he : e ≤ 110729625 := by norm_num)
    (ho : o ≤ 55364812 := by norm_num) : f.Ok := h.mono he ho

theorem Fe.Triple.ok {f : Fe} (h : f.Triple) : f.Ok := h.mono (by norm_num) (by norm_num)

/-- Bounds of X. -/
abbrev Fe.Bit26 (f : Fe) : Prop := f.Within (2 ^ 26) (2 ^ 25)

theorem Fe.Bit26.ok {f : Fe} (h : f.Bit26) : f.Ok := h.mono (by norm_num) (by norm_num)
theorem Fe.Small.bit26 {f : Fe} (h : f.Small) : f.Bit26 := h.mono (by norm_num) (by norm_num)

theorem add26 {f g : Fe} (hf : f.Small) (hg : g.Bit26) : (feAdd f g).Triple ∧ (feAdd f g).val = f.val + g.val := by
  obtain ⟨h1, h2⟩ := feAdd_spec hf hg (by norm_num) (by norm_num)
  exact ⟨h1.mono (by norm_num) (by norm_num), h2⟩

theorem sub26 {f g : Fe} (hf : f.Small) (hg : g.Bit26) : (feSub f g).Triple ∧ (feSub f g).val = f.val - g.val := by
  obtain ⟨h1, h2⟩ := feSub_spec hf hg (by norm_num) (by norm_num)
  exact ⟨h1.mono (by norm_num) (by norm_num), h2⟩

/-! ### Representations, cleared of denominators -/

theorem Proj.Is.mul {p : Proj} {P : Point} (h : p.Is P) : p.X.val = P.x * p.Z.val ∧ p.Y.val = P.y * p.Z.val :=
  ⟨by rw [← h.x, div_mul_cancel₀ _ h.nz], by rw [← h.y, div_mul_cancel₀ _ h.nz]⟩

theorem Ext.Is.mul {p : Ext} {P : Point} (h : p.Is P) :
    p.X.val = P.x * p.Z.val ∧ p.Y.val = P.y * p.Z.val ∧ p.T.val = P.x * P.y * p.Z.val := by
  have hx : p.X.val = P.x * p.Z.val := by rw [← h.x, div_mul_cancel₀ _ h.nz]
  have hy : p.Y.val = P.y * p.Z.val := by rw [← h.y, div_mul_cancel₀ _ h.nz]
  refine ⟨hx, hy, mul_left_cancel₀ h.nz ?_⟩
  rw [← h.t, hx, hy]; ring

theorem Comp.Is.mul {p : Comp} {P : Point} (h : p.Is P) : p.X.val = P.x * p.Z.val ∧ p.Y.val = P.y * p.T.val :=
  ⟨by rw [← h.x, div_mul_cancel₀ _ h.nz], by rw [← h.y, div_mul_cancel₀ _ h.nt]⟩

theorem Comp.is_of {p : Comp} {P : Point} (hz : p.Z.val ≠ 0) (ht : p.T.val ≠ 0) (hx : p.X.val = P.x * p.Z.val)
    (hy : p.Y.val = P.y * p.T.val) : p.Is P :=
  ⟨hz, ht, by rw [hx, mul_div_cancel_right₀ _ hz], by rw [hy, mul_div_cancel_right₀ _ ht]⟩

theorem Cached.Is.mul {p : Cached} {P : Point} (h : p.Is P) :
    p.yPlusX.val = (P.y + P.x) * p.Z.val ∧ p.yMinusX.val = (P.y - P.x) * p.Z.val ∧
    p.T2d.val = 2 * d * P.x * P.y * p.Z.val :=
  ⟨by rw [← h.plus, div_mul_cancel₀ _ h.nz], by rw [← h.minus, div_mul_cancel₀ _ h.nz],
    by rw [← h.xy, div_mul_cancel₀ _ h.nz]⟩

/-! ### Identity -/

theorem Proj.zero_spec : Proj.zero.Bounded ∧ Proj.zero.Is 0 := by
  have h1 := feOne_spec
  have h0 := feZero_spec
  refine ⟨⟨h0.1.mono (by norm_num) (by norm_num), h1.1.mono (by norm_num) (by norm_num),
    h1.1.mono (by norm_num) (by norm_num)⟩, ?_, ?_, ?_⟩
  · show feOne.val ≠ 0; rw [h1.2]; exact one_ne_zero
  · show feZero.val / feOne.val = 0; rw [h0.2, zero_div]
  · show feOne.val / feOne.val = 1; rw [h1.2, div_one]

theorem Ext.zero_spec : Ext.zero.Bounded ∧ Ext.zero.Is 0 := by
  have h1 := feOne_spec
  have h0 := feZero_spec
  refine ⟨⟨h0.1.mono (by norm_num) (by norm_num), h1.1.mono (by norm_num) (by norm_num),
    h1.1.mono (by norm_num) (by norm_num), h0.1.mono (by norm_num) (by norm_num)⟩, ?_, ?_, ?_, ?_⟩
  · show feOne.val ≠ 0; rw [h1.2]; exact one_ne_zero
  · show feZero.val / feOne.val = 0; rw [h0.2, zero_div]
  · show feOne.val / feOne.val = 1; rw [h1.2, div_one]
  · show feZero.val * feOne.val = feOne.val * feZero.val; rw [mul_comm]

theorem Pre.zero_spec : Pre.zero.Bounded ∧ Pre.zero.Is 0 := by
  have h1 := feOne_spec
  have h0 := feZero_spec
  refine ⟨⟨h1.1.mono (by norm_num) (by norm_num), h1.1.mono (by norm_num) (by norm_num),
    h0.1.mono (by norm_num) (by norm_num)⟩, ?_, ?_, ?_⟩
  · show feOne.val = 1 + 0; rw [h1.2, add_zero]
  · show feOne.val = 1 - 0; rw [h1.2, sub_zero]
  · show feZero.val = 2 * d * 0 * 1; rw [h0.2]; ring

/-! ### Conversions -/

theorem Ext.toProj_spec {p : Ext} {P : Point} (hb : p.Bounded) (h : p.Is P) : p.toProj.Bounded ∧ p.toProj.Is P :=
  ⟨⟨hb.X, hb.Y, hb.Z⟩, ⟨h.nz, h.x, h.y⟩⟩

theorem Ext.toCached_spec {p : Ext} {P : Point} (hb : p.Bounded) (h : p.Is P) : p.toCached.Bounded ∧ p.toCached.Is P := by
  obtain ⟨b1, v1⟩ := add26 hb.Y hb.X
  obtain ⟨b2, v2⟩ := sub26 hb.Y hb.X
  obtain ⟨b3, v3⟩ := feMul_val hb.T.ok feD2_spec.1.ok
  rw [feD2_spec.2] at v3
  obtain ⟨hx, hy, ht⟩ := h.mul
  refine ⟨⟨b1, b2, hb.Z, b3⟩, h.nz, ?_, ?_, ?_⟩
  · show (feAdd p.Y p.X).val / p.Z.val = _
    rw [v1, div_eq_iff h.nz, hx, hy]; ring
  · show (feSub p.Y p.X).val / p.Z.val = _
    rw [v2, div_eq_iff h.nz, hx, hy]; ring
  · show (feMul p.T feD2).val / p.Z.val = _
    rw [v3, div_eq_iff h.nz, ht]; ring

theorem Comp.toProj_spec {p : Comp} {P : Point} (hb : p.Bounded) (h : p.Is P) : p.toProj.Bounded ∧ p.toProj.Is P := by
  obtain ⟨b1, v1⟩ := feMul_val hb.X.ok hb.T.ok
  obtain ⟨b2, v2⟩ := feMul_val hb.Y.ok hb.Z.ok
  obtain ⟨b3, v3⟩ := feMul_val hb.Z.ok hb.T.ok
  obtain ⟨hx, hy⟩ := h.mul
  have nz : (feMul p.Z p.T).val ≠ 0 := by rw [v3]; exact mul_ne_zero h.nz h.nt
  refine ⟨⟨b1.bit26, b2, b3⟩, nz, ?_, ?_⟩
  · show (feMul p.X p.T).val / (feMul p.Z p.T).val = _
    rw [div_eq_iff nz, v1, v3, hx]; ring
  · show (feMul p.Y p.Z).val / (feMul p.Z p.T).val = _
    rw [div_eq_iff nz, v2, v3, hy]; ring

theorem Comp.toExt_spec {p : Comp} {P : Point} (hb : p.Bounded) (h : p.Is P) : p.toExt.Bounded ∧ p.toExt.Is P := by
  obtain ⟨b1, v1⟩ := feMul_val hb.X.ok hb.T.ok
  obtain ⟨b2, v2⟩ := feMul_val hb.Y.ok hb.Z.ok
  obtain ⟨b3, v3⟩ := feMul_val hb.Z.ok hb.T.ok
  obtain ⟨b4, v4⟩ := feMul_val hb.X.ok hb.Y.ok
  obtain ⟨hp, hi⟩ := Comp.toProj_spec hb h
  refine ⟨⟨b1.bit26, b2, b3, b4⟩, hi.nz, hi.x, hi.y, ?_⟩
  show (feMul p.X p.T).val * (feMul p.Y p.Z).val = (feMul p.Z p.T).val * (feMul p.X p.Y).val
  rw [v1, v2, v3, v4]; ring

/-! ### Doubling -/

theorem Proj.double_spec {p : Proj} {P : Point} (hb : p.Bounded) (h : p.Is P) : p.double.Bounded ∧ p.double.Is (P + P) := by
  obtain ⟨bX, vX⟩ := feSquare_val hb.X.ok
  obtain ⟨bZ, vZ⟩ := feSquare_val hb.Y.ok
  obtain ⟨bT, vT⟩ := feSquare2_val hb.Z.ok
  obtain ⟨bs, vs⟩ := feAdd_spec hb.X hb.Y (by norm_num) (by norm_num)
  obtain ⟨bt, vt⟩ := feSquare_val (bs.mono (by norm_num) (by norm_num) : (feAdd p.X p.Y).Ok)
  obtain ⟨bY', vY'⟩ := feAdd_spec bZ bX (by norm_num) (by norm_num)
  obtain ⟨bZ', vZ'⟩ := feSub_spec bZ bX (by norm_num) (by norm_num)
  obtain ⟨bX', vX'⟩ := feSub_spec bt bY' (by norm_num) (by norm_num)
  obtain ⟨bT', vT'⟩ := feSub_spec bT bZ' (by norm_num) (by norm_num)
  obtain ⟨hx, hy⟩ := h.mul
  have hon := onCurve_eq P.on
  have ax := addX_mul P P
  have ay := addY_mul P P
  have eZ : (feSub (feSquare p.Y) (feSquare p.X)).val = (1 + d * P.x * P.x * P.y * P.y) * p.Z.val ^ 2 := by
    rw [vZ', vZ, vX, hx, hy]; linear_combination p.Z.val ^ 2 * hon
  have eT : (feSub (feSquare2 p.Z) (feSub (feSquare p.Y) (feSquare p.X))).val =
      (1 - d * P.x * P.x * P.y * P.y) * p.Z.val ^ 2 := by
    rw [vT', eZ, vT]; ring
  refine ⟨⟨bX'.mono (by norm_num) (by norm_num), bY'.mono (by norm_num) (by norm_num), bZ'.mono (by norm_num) (by norm_num),
    bT'.mono (by norm_num) (by norm_num)⟩, Comp.is_of ?_ ?_ ?_ ?_⟩
  · show (feSub (feSquare p.Y) (feSquare p.X)).val ≠ 0
    rw [eZ]; exact mul_ne_zero (denomX P.on P.on) (pow_ne_zero 2 h.nz)
  · show (feSub (feSquare2 p.Z) (feSub (feSquare p.Y) (feSquare p.X))).val ≠ 0
    rw [eT]; exact mul_ne_zero (denomY P.on P.on) (pow_ne_zero 2 h.nz)
  · show (feSub (feSquare (feAdd p.X p.Y)) (feAdd (feSquare p.Y) (feSquare p.X))).val =
      (P + P).x * (feSub (feSquare p.Y) (feSquare p.X)).val
    rw [eZ, vX', vt, vs, vY', vX, vZ, hx, hy]; linear_combination -p.Z.val ^ 2 * ax
  · show (feAdd (feSquare p.Y) (feSquare p.X)).val =
      (P + P).y * (feSub (feSquare2 p.Z) (feSub (feSquare p.Y) (feSquare p.X))).val
    rw [eT, vY', vX, vZ, hx, hy]; linear_combination -p.Z.val ^ 2 * ay

theorem Ext.double_spec {p : Ext} {P : Point} (hb : p.Bounded) (h : p.Is P) : p.double.Bounded ∧ p.double.Is (P + P) :=
  have ⟨h1, h2⟩ := Ext.toProj_spec hb h
  Proj.double_spec h1 h2

/-! ### Addition and subtraction -/

theorem geAdd_spec {p : Ext} {q : Cached} {P Q : Point} (hb : p.Bounded) (hp : p.Is P) (hb' : q.Bounded) (hq : q.Is Q) :
    (geAdd p q).Bounded ∧ (geAdd p q).Is (P + Q) := by
  obtain ⟨b1, v1⟩ := add26 hb.Y hb.X
  obtain ⟨b2, v2⟩ := sub26 hb.Y hb.X
  obtain ⟨bZ, vZ⟩ := feMul_val b1.ok hb'.plus.ok
  obtain ⟨bY, vY⟩ := feMul_val b2.ok hb'.minus.ok
  obtain ⟨bT, vT⟩ := feMul_val hb'.xy.ok hb.T.ok
  obtain ⟨bX, vX⟩ := feMul_val hb.Z.ok hb'.Z.ok
  obtain ⟨bt, vt⟩ := feAdd_spec bX bX (by norm_num) (by norm_num)
  obtain ⟨bX', vX'⟩ := feSub_spec bZ bY (by norm_num) (by norm_num)
  obtain ⟨bY', vY'⟩ := feAdd_spec bZ bY (by norm_num) (by norm_num)
  obtain ⟨bZ', vZ'⟩ := feAdd_spec bt bT (by norm_num) (by norm_num)
  obtain ⟨bT', vT'⟩ := feSub_spec bt bT (by norm_num) (by norm_num)
  obtain ⟨hx, hy, ht⟩ := hp.mul
  obtain ⟨gp, gm, gt⟩ := hq.mul
  have ax := addX_mul P Q
  have ay := addY_mul P Q
  rw [vZ, vY, v1, v2, gp, gm, hx, hy] at vX' vY'
  rw [vt, vX, vT, gt, ht] at vZ' vT'
  have eZ : (geAdd p q).Z.val = 2 * (p.Z.val * q.Z.val) * (1 + d * P.x * Q.x * P.y * Q.y) := by
    show (feAdd _ _).val = _; rw [vZ']; ring
  have eT : (geAdd p q).T.val = 2 * (p.Z.val * q.Z.val) * (1 - d * P.x * Q.x * P.y * Q.y) := by
    show (feSub _ _).val = _; rw [vT']; ring
  have nz : 2 * (p.Z.val * q.Z.val) ≠ 0 := mul_ne_zero two_ne (mul_ne_zero hp.nz hq.nz)
  refine ⟨⟨bX'.mono (by norm_num) (by norm_num), bY'.mono (by norm_num) (by norm_num), bZ'.mono (by norm_num) (by norm_num),
    bT'.mono (by norm_num) (by norm_num)⟩, Comp.is_of ?_ ?_ ?_ ?_⟩
  · rw [eZ]; exact mul_ne_zero nz (denomX P.on Q.on)
  · rw [eT]; exact mul_ne_zero nz (denomY P.on Q.on)
  · rw [eZ]; show (feSub _ _).val = _; rw [vX']; linear_combination -2 * (p.Z.val * q.Z.val) * ax
  · rw [eT]; show (feAdd _ _).val = _; rw [vY']; linear_combination -2 * (p.Z.val * q.Z.val) * ay

theorem geSub_spec {p : Ext} {q : Cached} {P Q : Point} (hb : p.Bounded) (hp : p.Is P) (hb' : q.Bounded) (hq : q.Is Q) :
    (geSub p q).Bounded ∧ (geSub p q).Is (P - Q) := by
  obtain ⟨b1, v1⟩ := add26 hb.Y hb.X
  obtain ⟨b2, v2⟩ := sub26 hb.Y hb.X
  obtain ⟨bZ, vZ⟩ := feMul_val b1.ok hb'.minus.ok
  obtain ⟨bY, vY⟩ := feMul_val b2.ok hb'.plus.ok
  obtain ⟨bT, vT⟩ := feMul_val hb'.xy.ok hb.T.ok
  obtain ⟨bX, vX⟩ := feMul_val hb.Z.ok hb'.Z.ok
  obtain ⟨bt, vt⟩ := feAdd_spec bX bX (by norm_num) (by norm_num)
  obtain ⟨bX', vX'⟩ := feSub_spec bZ bY (by norm_num) (by norm_num)
  obtain ⟨bY', vY'⟩ := feAdd_spec bZ bY (by norm_num) (by norm_num)
  obtain ⟨bZ', vZ'⟩ := feSub_spec bt bT (by norm_num) (by norm_num)
  obtain ⟨bT', vT'⟩ := feAdd_spec bt bT (by norm_num) (by norm_num)
  obtain ⟨hx, hy, ht⟩ := hp.mul
  obtain ⟨gp, gm, gt⟩ := hq.mul
  have ax := sub_mulX P Q
  have ay := sub_mulY P Q
  rw [vZ, vY, v1, v2, gp, gm, hx, hy] at vX' vY'
  rw [vt, vX, vT, gt, ht] at vZ' vT'
  have eZ : (geSub p q).Z.val = 2 * (p.Z.val * q.Z.val) * (1 - d * P.x * Q.x * P.y * Q.y) := by
    show (feSub _ _).val = _; rw [vZ']; ring
  have eT : (geSub p q).T.val = 2 * (p.Z.val * q.Z.val) * (1 + d * P.x * Q.x * P.y * Q.y) := by
    show (feAdd _ _).val = _; rw [vT']; ring
  have nz : 2 * (p.Z.val * q.Z.val) ≠ 0 := mul_ne_zero two_ne (mul_ne_zero hp.nz hq.nz)
  refine ⟨⟨bX'.mono (by norm_num) (by norm_num), bY'.mono (by norm_num) (by norm_num), bZ'.mono (by norm_num) (by norm_num),
    bT'.mono (by norm_num) (by norm_num)⟩, Comp.is_of ?_ ?_ ?_ ?_⟩
  · rw [eZ]; exact mul_ne_zero nz (denomY P.on Q.on)
  · rw [eT]; exact mul_ne_zero nz (denomX P.on Q.on)
  · rw [eZ]; show (feSub _ _).val = _; rw [vX']; linear_combination -2 * (p.Z.val * q.Z.val) * ax
  · rw [eT]; show (feAdd _ _).val = _; rw [vY']; linear_combination -2 * (p.Z.val * q.Z.val) * ay

theorem geMixedAdd_spec {p : Ext} {q : Pre} {P Q : Point} (hb : p.Bounded) (hp : p.Is P) (hb' : q.Bounded) (hq : q.Is Q) :
    (geMixedAdd p q).Bounded ∧ (geMixedAdd p q).Is (P + Q) := by
  obtain ⟨b1, v1⟩ := add26 hb.Y hb.X
  obtain ⟨b2, v2⟩ := sub26 hb.Y hb.X
  obtain ⟨bZ, vZ⟩ := feMul_val b1.ok hb'.plus.ok
  obtain ⟨bY, vY⟩ := feMul_val b2.ok hb'.minus.ok
  obtain ⟨bT, vT⟩ := feMul_val hb'.xy.ok hb.T.ok
  obtain ⟨bt, vt⟩ := feAdd_spec hb.Z hb.Z (by norm_num) (by norm_num)
  obtain ⟨bX', vX'⟩ := feSub_spec bZ bY (by norm_num) (by norm_num)
  obtain ⟨bY', vY'⟩ := feAdd_spec bZ bY (by norm_num) (by norm_num)
  obtain ⟨bZ', vZ'⟩ := feAdd_spec bt bT (by norm_num) (by norm_num)
  obtain ⟨bT', vT'⟩ := feSub_spec bt bT (by norm_num) (by norm_num)
  obtain ⟨hx, hy, ht⟩ := hp.mul
  have ax := addX_mul P Q
  have ay := addY_mul P Q
  rw [vZ, vY, v1, v2, hq.plus, hq.minus, hx, hy] at vX' vY'
  rw [vt, vT, hq.xy, ht] at vZ' vT'
  have eZ : (geMixedAdd p q).Z.val = 2 * p.Z.val * (1 + d * P.x * Q.x * P.y * Q.y) := by
    show (feAdd _ _).val = _; rw [vZ']; ring
  have eT : (geMixedAdd p q).T.val = 2 * p.Z.val * (1 - d * P.x * Q.x * P.y * Q.y) := by
    show (feSub _ _).val = _; rw [vT']; ring
  have nz : 2 * p.Z.val ≠ 0 := mul_ne_zero two_ne hp.nz
  refine ⟨⟨bX'.mono (by norm_num) (by norm_num), bY'.mono (by norm_num) (by norm_num), bZ'.mono (by norm_num) (by norm_num),
    bT'.mono (by norm_num) (by norm_num)⟩, Comp.is_of ?_ ?_ ?_ ?_⟩
  · rw [eZ]; exact mul_ne_zero nz (denomX P.on Q.on)
  · rw [eT]; exact mul_ne_zero nz (denomY P.on Q.on)
  · rw [eZ]; show (feSub _ _).val = _; rw [vX']; linear_combination -2 * p.Z.val * ax
  · rw [eT]; show (feAdd _ _).val = _; rw [vY']; linear_combination -2 * p.Z.val * ay

theorem geMixedSub_spec {p : Ext} {q : Pre} {P Q : Point} (hb : p.Bounded) (hp : p.Is P) (hb' : q.Bounded) (hq : q.Is Q) :
    (geMixedSub p q).Bounded ∧ (geMixedSub p q).Is (P - Q) := by
  obtain ⟨b1, v1⟩ := add26 hb.Y hb.X
  obtain ⟨b2, v2⟩ := sub26 hb.Y hb.X
  obtain ⟨bZ, vZ⟩ := feMul_val b1.ok hb'.minus.ok
  obtain ⟨bY, vY⟩ := feMul_val b2.ok hb'.plus.ok
  obtain ⟨bT, vT⟩ := feMul_val hb'.xy.ok hb.T.ok
  obtain ⟨bt, vt⟩ := feAdd_spec hb.Z hb.Z (by norm_num) (by norm_num)
  obtain ⟨bX', vX'⟩ := feSub_spec bZ bY (by norm_num) (by norm_num)
  obtain ⟨bY', vY'⟩ := feAdd_spec bZ bY (by norm_num) (by norm_num)
  obtain ⟨bZ', vZ'⟩ := feSub_spec bt bT (by norm_num) (by norm_num)
  obtain ⟨bT', vT'⟩ := feAdd_spec bt bT (by norm_num) (by norm_num)
  obtain ⟨hx, hy, ht⟩ := hp.mul
  have ax := sub_mulX P Q
  have ay := sub_mulY P Q
  rw [vZ, vY, v1, v2, hq.plus, hq.minus, hx, hy] at vX' vY'
  rw [vt, vT, hq.xy, ht] at vZ' vT'
  have eZ : (geMixedSub p q).Z.val = 2 * p.Z.val * (1 - d * P.x * Q.x * P.y * Q.y) := by
    show (feSub _ _).val = _; rw [vZ']; ring
  have eT : (geMixedSub p q).T.val = 2 * p.Z.val * (1 + d * P.x * Q.x * P.y * Q.y) := by
    show (feAdd _ _).val = _; rw [vT']; ring
  have nz : 2 * p.Z.val ≠ 0 := mul_ne_zero two_ne hp.nz
  refine ⟨⟨bX'.mono (by norm_num) (by norm_num), bY'.mono (by norm_num) (by norm_num), bZ'.mono (by norm_num) (by norm_num),
    bT'.mono (by norm_num) (by norm_num)⟩, Comp.is_of ?_ ?_ ?_ ?_⟩
  · rw [eZ]; exact mul_ne_zero nz (denomY P.on Q.on)
  · rw [eT]; exact mul_ne_zero nz (denomX P.on Q.on)
  · rw [eZ]; show (feSub _ _).val = _; rw [vX']; linear_combination -2 * p.Z.val * ax
  · rw [eT]; show (feAdd _ _).val = _; rw [vY']; linear_combination -2 * p.Z.val * ay

end Verif.Ed
