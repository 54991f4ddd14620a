/-
`ExtendedGroupElement.FromBytes` and `Public.ToBox`: decompression of a point.
-/
import Verif.Lemmas.FieldCanon
import Verif.Model.Group
import Verif.Model.Keys

namespace Verif.Ed

theorem onCurve_iff {x y : F} : OnCurve x y ↔ x ^ 2 * (d * y ^ 2 + 1) = y ^ 2 - 1 := by
  unfold OnCurve
  constructor <;> intro h <;> linear_combination -h

theorem exists_onCurve_iff {y : F} : (∃ x, OnCurve x y) ↔ IsSquare ((y ^ 2 - 1) / (d * y ^ 2 + 1)) := by
  have hv := denom_ne y
  constructor
  · rintro ⟨x, hx⟩
    exact ⟨x, by rw [← onCurve_iff.1 hx]; field_simp⟩
  · rintro ⟨x, hx⟩
    refine ⟨x, onCurve_iff.2 ?_⟩
    rw [div_eq_iff hv] at hx
    rw [hx]; ring

theorem shr7 : ∀ b : UInt8, (b >>> 7).toNat = b.toNat / 128 := forall_byte (by decide +kernel)

theorem leNat_sign (l : Bytes) (h : l.length = 32) : leNat l / 2 ^ 255 = (l[31]'(by omega)).toNat / 128 := by
  have hsplit : leNat l = leNat (l.take 31 ++ [l[31]'(by omega)]) := by
    rw [List.take_append_getElem (by omega), List.take_of_length_le (by omega)]
  have hl : (l.take 31).length = 31 := by rw [List.length_take]; omega
  have hlt := leNat_lt (l.take 31)
  rw [hsplit, leNat_append, hl]
  rw [hl] at hlt
  have e : leNat [l[31]'(by omega)] = (l[31]'(by omega)).toNat := by simp [leNat]
  rw [e]
  generalize leNat (l.take 31) = y at *
  generalize (l[31]'(by omega)).toNat = z at *
  omega

/-- Parity flips under negation of a non-zero element. -/
theorem neg_parity {x : F} (hx : x ≠ 0) : (-x).val % 2 = 1 - x.val % 2 := by
  have : NeZero x := ⟨hx⟩
  rw [ZMod.val_neg_of_ne_zero]
  have h1 := ZMod.val_lt x
  have h2 : (p : Nat) % 2 = 1 := by norm_num
  omega

/-- What a successfully decoded element looks like. -/
structure Decoded (s : Arr 32) (A : Ext) : Prop where
  hX : A.X.Within (2 ^ 26) (2 ^ 25)
  hY : A.Y.Small
  hZ : A.Z.Within 1 0
  hT : A.T.Small
  y : A.Y.val = yOf s
  z : A.Z.val = 1
  t : A.T.val = A.X.val * A.Y.val
  curve : OnCurve A.X.val A.Y.val
  sign : A.X.val ≠ 0 → A.X.val.val % 2 = leNat s.toList / 2 ^ 255

theorem extFromBytes_spec (s : Arr 32) :
    (∀ A, extFromBytes s = some A → Decoded s A) ∧
    (extFromBytes s = none ↔ ¬ IsSquare ((yOf s ^ 2 - 1) / (d * yOf s ^ 2 + 1))) := by
  unfold extFromBytes
  extract_lets Y Z u0 v0 u v v3a v3 X1 X2 X3 X4 X5 X vxx0 vxx check finish check2 Xi0 Xi
  obtain ⟨bY, vY⟩ : Y.Small ∧ Y.val = yOf s := feFromBytes_spec s
  have hsgn := leNat_sign s.toList (by simp)
  rw [Vector.getElem_toList] at hsgn
  rw [← vY]
  clear_value Y
  obtain ⟨bZ, vZ⟩ : Z.Within 1 0 ∧ Z.val = 1 := feOne_spec
  clear_value Z
  obtain ⟨bu0, vu0⟩ := feSquare_val bY.ok
  obtain ⟨bv0, vv0⟩ := feMul_val bu0.ok feD_spec.1.ok
  obtain ⟨bu, vu⟩ := feSub_spec bu0 bZ (by norm_num) (by norm_num)
  obtain ⟨bv, vv⟩ := feAdd_spec bv0 bZ (by norm_num) (by norm_num)
  change u.Within _ _ at bu
  change v.Within _ _ at bv
  have bu' : u.Ok := bu.mono (by norm_num) (by norm_num)
  have bv' : v.Ok := bv.mono (by norm_num) (by norm_num)
  obtain ⟨bv3a, vv3a⟩ := feSquare_val bv'
  obtain ⟨bv3, vv3⟩ := feMul_val bv3a.ok bv'
  obtain ⟨bX1, vX1⟩ := feSquare_val bv3.ok
  obtain ⟨bX2, vX2⟩ := feMul_val bX1.ok bv'
  obtain ⟨bX3, vX3⟩ := feMul_val bX2.ok bu'
  obtain ⟨bX4, vX4⟩ := fePow22523_pow bX3.ok
  obtain ⟨bX5, vX5⟩ := feMul_val bX4.ok bv3.ok
  obtain ⟨bX, vX⟩ := feMul_val bX5.ok bu'
  obtain ⟨bxx0, vxx0'⟩ := feSquare_val bX.ok
  obtain ⟨bxx, vxx'⟩ := feMul_val bxx0.ok bv'
  obtain ⟨bc, vc⟩ := feSub_spec bxx bu (by norm_num) (by norm_num)
  obtain ⟨bc2, vc2⟩ := feAdd_spec bxx bu (by norm_num) (by norm_num)
  obtain ⟨bi0, vi0⟩ := feMul_val bX.ok feSqrtM1_spec.1.ok
  obtain ⟨bi, vi⟩ := feToBytes_val bi0.wide
  change u0.val = _ at vu0
  change v0.val = _ at vv0
  change u.val = u0.val - _ at vu
  change v.val = v0.val + _ at vv
  change v3a.val = _ at vv3a
  change v3.val = v3a.val * _ at vv3
  change X1.val = v3.val ^ 2 at vX1
  change X2.val = X1.val * _ at vX2
  change X3.val = X2.val * _ at vX3
  change X4.val = X3.val ^ _ at vX4
  change X5.val = X4.val * v3.val at vX5
  change X.val = X5.val * _ at vX
  change vxx0.val = X.val ^ 2 at vxx0'
  change vxx.val = vxx0.val * _ at vxx'
  change check.val = vxx.val - _ at vc
  change check2.val = vxx.val + _ at vc2
  change Xi0.val = X.val * _ at vi0
  change Xi.val = Xi0.val at vi
  change X.Small at bX
  change Xi.Digits at bi
  have hu : u.val = Y.val ^ 2 - 1 := by rw [vu, vu0, vZ]
  have hv : v.val = d * Y.val ^ 2 + 1 := by rw [vv, vv0, feD_spec.2, vZ]; change u0.val * d + 1 = _; rw [vu0]; ring
  have hv0 : v.val ≠ 0 := by rw [hv]; exact denom_ne _
  have hx : X.val = (u.val * v.val ^ 7) ^ (2 ^ 252 - 3) * v.val ^ 3 * u.val := by
    rw [vX, vX5, vX4, vX3, vX2, vX1, vv3, vv3a]
    rw [show ((v.val ^ 2 * v.val) ^ 2 * v.val * u.val) = u.val * v.val ^ 7 by ring, show v.val ^ 2 * v.val = v.val ^ 3 by ring]
  have hsq := sqrt_cases hv0 hx
  have hc : check.val = X.val ^ 2 * v.val - u.val := by rw [vc, vxx', vxx0']
  have hc2 : check2.val = X.val ^ 2 * v.val + u.val := by rw [vc2, vxx', vxx0']
  have n1 := feIsNonZero_eq (f := check) (bc.mono (by norm_num) (by norm_num))
  have n2 := feIsNonZero_eq (f := check2) (bc2.mono (by norm_num) (by norm_num))
  have hfin : ∀ r : Fe, r.Ok → r.val ^ 2 * v.val = u.val → Decoded s (finish r) := by
    intro r hr hroot
    show Decoded s ⟨(if (feIsNegative r).1 ≠ s[31] >>> 7 then feNeg (feIsNegative r).2 else (feIsNegative r).2), Y, Z, _⟩
    obtain ⟨br, vr⟩ : (feIsNegative r).2.Digits ∧ (feIsNegative r).2.val = r.val := feToBytes_val hr.wide
    have hpar := feIsNegative_num hr.wide
    generalize (feIsNegative r).2 = r' at br vr ⊢
    generalize (feIsNegative r).1 = b at hpar ⊢
    obtain ⟨bn, vn⟩ := feNeg_spec br.within (by norm_num) (by norm_num)
    have key : ∃ x : Fe, (if b ≠ s[31] >>> 7 then feNeg r' else r') = x ∧ x.Within (2 ^ 26) (2 ^ 25) ∧
        x.val ^ 2 = r.val ^ 2 ∧ (x.val ≠ 0 → x.val.val % 2 = leNat s.toList / 2 ^ 255) := by
      refine ⟨_, rfl, ?_⟩
      have h128 : (s[31]).toNat / 128 ≤ 1 := by have := (s[31]).toNat_lt; omega
      have hbit := shr7 s[31]
      split
      · rename_i hne
        refine ⟨bn, by rw [vn, vr]; ring, ?_⟩
        rw [vn, vr, hsgn]
        intro h0
        rw [neg_parity (fun h => h0 (by rw [h, neg_zero])), ← hpar]
        have hne' : b.toNat ≠ (s[31] >>> 7).toNat := fun h => hne (UInt8.toNat_inj.1 h)
        rw [hbit] at hne'
        have hb : b.toNat ≤ 1 := by rw [hpar]; omega
        omega
      · rename_i heq
        refine ⟨br.within, by rw [vr], fun _ => ?_⟩
        have heq : b = s[31] >>> 7 := by simpa using heq
        rw [vr, ← hpar, heq, hbit, hsgn]
    obtain ⟨x, hxe, hxb, hxs, hxp⟩ := key
    rw [hxe]
    obtain ⟨bT, vT⟩ := feMul_val (f := x) (g := Y) (hxb.mono (by norm_num) (by norm_num)) bY.ok
    exact ⟨hxb, bY, bZ, bT, vY, vZ, vT, onCurve_iff.2 (by rw [hxs, ← hv, ← hu, hroot]), hxp⟩
  have hone : (1 : UInt8) ≠ 0 := by decide
  rw [← hu, ← hv, hsq, n1, n2]
  by_cases h1 : check.val = 0
  · have h1' : X.val ^ 2 * v.val = u.val := by rw [hc, sub_eq_zero] at h1; exact h1
    simp only [h1, if_true, hone.symm, if_false]
    exact ⟨fun A hA => by cases hA; exact hfin X bX.ok h1', by simp [h1']⟩
  · by_cases h2 : check2.val = 0
    · have h2' : X.val ^ 2 * v.val = -u.val := by rw [hc2] at h2; exact eq_neg_of_add_eq_zero_left h2
      simp only [h1, h2, if_true, if_false, hone.symm]
      refine ⟨fun A hA => ?_, by simp [h2']⟩
      cases hA
      refine hfin Xi bi.ok ?_
      rw [vi, vi0, mul_pow, feSqrtM1_spec.2]
      linear_combination -h2'
    · rw [if_neg h1, if_neg h2, if_pos rfl, if_pos rfl]
      refine ⟨fun A hA => (nomatch hA), ?_⟩
      simp only [true_iff]
      rintro (h | h)
      · exact h1 (by rw [hc, h, sub_self])
      · exact h2 (by rw [hc2, h, neg_add_cancel])

end Verif.Ed
