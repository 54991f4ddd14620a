/-
C63-C69: points of the curve in internal/edwards25519: formulas, serialisation, tables, scalar multiplication.

`p.Is P` says which point a representation stands for, `p.Bounded` that its limbs are in the range that the operations keep
(`Spec/Group.lean`).
-/
import Verif.Lemmas.Encode
import Verif.Lemmas.DoubleScalar
import Verif.Lemmas.Order

namespace Verif.Props
open Ed

/-! ### C63: formulas -/

/-- C63: `ExtendedGroupElement.Zero`, `ProjectiveGroupElement.Zero` and `PreComputedGroupElement.Zero` are the neutral element. -/
theorem C63_zero : (Ext.zero.Bounded ∧ Ext.zero.Is 0) ∧ (Proj.zero.Bounded ∧ Proj.zero.Is 0) ∧ (Pre.zero.Bounded ∧ Pre.zero.Is 0) :=
  ⟨Ext.zero_spec, Proj.zero_spec, Pre.zero_spec⟩

/-- C63: the neutral element is (0, 1). -/
theorem C63_neutral : (0 : Point).x = 0 ∧ (0 : Point).y = 1 := ⟨rfl, rfl⟩

/-- C63: the sum of two points is given by the addition law of RFC 8032, 5.1.4. -/
theorem C63_law (P Q : Point) : (P + Q).x = sumX P.x P.y Q.x Q.y ∧ (P + Q).y = sumY P.x P.y Q.x Q.y := ⟨rfl, rfl⟩

/-- C63: both `Double` methods double. -/
theorem C63_double (p : Proj) (q : Ext) (P Q : Point) (hp : p.Bounded) (hP : p.Is P) (hq : q.Bounded) (hQ : q.Is Q) :
    (p.double.Bounded ∧ p.double.Is (P + P)) ∧ (q.double.Bounded ∧ q.double.Is (Q + Q)) :=
  ⟨Proj.double_spec hp hP, Ext.double_spec hq hQ⟩

/-- C63: `geAdd` adds and `geSub` subtracts, also for equal points, opposite points and the neutral element. -/
theorem C63_add (p : Ext) (q : Cached) (P Q : Point) (hp : p.Bounded) (hP : p.Is P) (hq : q.Bounded) (hQ : q.Is Q) :
    ((geAdd p q).Bounded ∧ (geAdd p q).Is (P + Q)) ∧ ((geSub p q).Bounded ∧ (geSub p q).Is (P - Q)) :=
  ⟨geAdd_spec hp hP hq hQ, geSub_spec hp hP hq hQ⟩

/-- C63: `geMixedAdd` adds and `geMixedSub` subtracts. -/
theorem C63_mixed (p : Ext) (q : Pre) (P Q : Point) (hp : p.Bounded) (hP : p.Is P) (hq : q.Bounded) (hQ : q.Is Q) :
    ((geMixedAdd p q).Bounded ∧ (geMixedAdd p q).Is (P + Q)) ∧ ((geMixedSub p q).Bounded ∧ (geMixedSub p q).Is (P - Q)) :=
  ⟨geMixedAdd_spec hp hP hq hQ, geMixedSub_spec hp hP hq hQ⟩

/-- C63: the conversions keep the point. -/
theorem C63_convert (p : Ext) (q : Comp) (P Q : Point) (hp : p.Bounded) (hP : p.Is P) (hq : q.Bounded) (hQ : q.Is Q) :
    (p.toProj.Bounded ∧ p.toProj.Is P) ∧ (p.toCached.Bounded ∧ p.toCached.Is P) ∧
    (q.toProj.Bounded ∧ q.toProj.Is Q) ∧ (q.toExt.Bounded ∧ q.toExt.Is Q) :=
  ⟨Ext.toProj_spec hp hP, Ext.toCached_spec hp hP, Comp.toProj_spec hq hQ, Comp.toExt_spec hq hQ⟩

/-- Every point has a bounded representation of each kind. -/
theorem represented (P : Point) : (∃ p : Ext, p.Bounded ∧ p.Is P) ∧ (∃ p : Proj, p.Bounded ∧ p.Is P) ∧
    (∃ p : Cached, p.Bounded ∧ p.Is P) ∧ (∃ p : Comp, p.Bounded ∧ p.Is P) := by
  obtain ⟨A, -, hb, hi⟩ := extFromBytes_encode P
  refine ⟨⟨A, hb, hi⟩, ⟨_, Ext.toProj_spec hb hi⟩, ⟨_, Ext.toCached_spec hb hi⟩, ⟨geAdd A Ext.zero.toCached, ?_⟩⟩
  have h := geAdd_spec hb hi (Ext.toCached_spec Ext.zero_spec.1 Ext.zero_spec.2).1
    (Ext.toCached_spec Ext.zero_spec.1 Ext.zero_spec.2).2
  rwa [add_zero] at h

/-- The hypotheses of C63 are met by the base point and its table entry, which differ from the neutral element. -/
example : (∃ p : Ext, p.Bounded ∧ p.Is base) ∧ (∃ q : Pre, q.Bounded ∧ q.Is (3 • base)) ∧ base ≠ 0 :=
  ⟨(represented base).1, ⟨_, biTable_spec 1 (by decide)⟩, base_ne_zero⟩

/-! ### C64: serialisation of points -/

/-- C64: `ToBytes` writes the encoding of RFC 8032, 5.1.2, for both types. -/
theorem C64_toBytes (p : Ext) (q : Proj) (P Q : Point) (hp : p.Bounded) (hP : p.Is P) (hq : q.Bounded) (hQ : q.Is Q) :
    p.toBytes = encodePoint P ∧ q.toBytes = encodePoint Q :=
  ⟨Ext.toBytes_spec hp hP, Proj.toBytes_spec hq hQ⟩

/-- C64: `FromBytes` restores the point that `ToBytes` wrote. -/
theorem C64_roundtrip (p : Ext) (P : Point) (hp : p.Bounded) (hP : p.Is P) :
    ∃ A, extFromBytes p.toBytes = some A ∧ A.Bounded ∧ A.Is P := by
  rw [Ext.toBytes_spec hp hP]; exact extFromBytes_encode P

theorem Ext.Is.unique {A : Ext} {P Q : Point} (h : A.Is P) (h' : A.Is Q) : P = Q :=
  Point.ext (h.x.symm.trans h'.x) (h.y.symm.trans h'.y)

/-- C64: two elements have the same encoding exactly if they are the same point. -/
theorem C64_injective (p q : Ext) (P Q : Point) (hp : p.Bounded) (hP : p.Is P) (hq : q.Bounded) (hQ : q.Is Q) :
    p.toBytes = q.toBytes ↔ P = Q := by
  constructor
  · intro h
    obtain ⟨A, e1, -, i1⟩ := C64_roundtrip p P hp hP
    obtain ⟨B, e2, -, i2⟩ := C64_roundtrip q Q hq hQ
    rw [h, e2] at e1
    obtain rfl : B = A := Option.some.inj e1
    exact Ext.Is.unique i1 i2
  · intro h; rw [Ext.toBytes_spec hp hP, Ext.toBytes_spec hq hQ, h]

/-- C64: encodings by `ToBytes` carry a reduced y and no sign for x = 0, so `ToBytes` after `FromBytes` restores exactly the
strings of that form. -/
theorem C64_canonical (s : Arr 32) : (∃ A, extFromBytes s = some A ∧ A.toBytes = s) ↔ ∃ P : Point, s = encodePoint P := by
  constructor
  · rintro ⟨A, hA, h⟩
    obtain ⟨hb, hi⟩ := ((extFromBytes_spec s).1 A hA).point
    exact ⟨_, by rw [← h]; exact Ext.toBytes_spec hb hi⟩
  · rintro ⟨P, rfl⟩
    obtain ⟨A, hA, hb, hi⟩ := extFromBytes_encode P
    exact ⟨A, hA, Ext.toBytes_spec hb hi⟩

/-! ### C65: tables -/

/-- C65: entry (i, j) of `base` is (j+1)·256^i times the base point. -/
theorem C65_base (i : Fin 32) (j : Fin 8) :
    (baseEntry i j).Bounded ∧ (baseEntry i j).Is (((j.val + 1) * 256 ^ i.val) • base) :=
  baseTable_spec i.val j.val i.isLt j.isLt

/-- C65: entry j of `bi` is 2j+1 times the base point. -/
theorem C65_bi : biTable.length = 8 ∧
    ∀ j : Nat, (hj : j < biTable.length) → biTable[j].Bounded ∧ biTable[j].Is ((2 * j + 1) • base) :=
  ⟨rfl, biTable_spec⟩

/-- C65: `A` and the constants `d`, `d2`, `SqrtM1` have their values. -/
theorem C65_constants : feD.val = d ∧ feD2.val = 2 * d ∧ feSqrtM1.val ^ 2 = -1 := by
  refine ⟨feD_spec.2, feD2_spec.2, ?_⟩
  rw [← sub_eq_zero]
  have h : ((feSqrtM1.toInt ^ 2 - -1 : Int) : F) = 0 := int_zero (by decide +kernel)
  rw [Fe.val]; push_cast at h ⊢; exact h

/-- C65: the base point is the point of RFC 8032, 5.1: y = 4/5 and x is even. -/
theorem C65_basePoint : 5 * base.y = 4 ∧ base.x.val % 2 = 0 := by
  constructor
  · show 5 * baseY = 4
    rw [← sub_eq_zero]
    have h : ((5 * 46316835694926478169428394003475163141307993866256225615783033603165251855960 - 4 : Int) : F) = 0 :=
      int_zero (by decide +kernel)
    unfold baseY; push_cast at h ⊢; exact h
  · show baseX.val % 2 = 0
    unfold baseX
    decide +kernel

/-! ### C66: table lookup -/

/-- C66: `selectPoint` returns b·256^pos times the base point for -8 ≤ b ≤ 8 and the neutral element for every other int32
except the least one. -/
theorem C66_selectPoint (pos : Fin 32) (b : Int) (hb : -2 ^ 31 < b ∧ b < 2 ^ 31) :
    (selectPoint pos b).Bounded ∧ (selectPoint pos b).Is ((if |b| ≤ 8 then b else 0) • 256 ^ pos.val • base) :=
  selectPoint_spec pos b hb

/-! ### C67: `GeScalarMultBase` -/

/-- C67: `GeScalarMultBase` multiplies the base point by the scalar if `a[31] <= 127`. -/
theorem C67_scalarMultBase (a : Arr 32) (ha : a[31].toNat ≤ 127) :
    (geScalarMultBase a).Bounded ∧ (geScalarMultBase a).Is (leNat a.toList • base) :=
  geScalarMultBase_spec a ha

/-- C67: in bytes. -/
theorem C67_bytes (a : Arr 32) (ha : a[31].toNat ≤ 127) : (geScalarMultBase a).toBytes = encodePoint (leNat a.toList • base) :=
  have ⟨h1, h2⟩ := geScalarMultBase_spec a ha
  Ext.toBytes_spec h1 h2

example : ((Vector.replicate 32 (100 : UInt8))[31]).toNat ≤ 127 := by decide

/-- C67: the results for two scalars agree exactly if the scalars are congruent modulo the group order. -/
theorem C67_congruent (a b : Arr 32) (ha : a[31].toNat ≤ 127) (hb : b[31].toNat ≤ 127) :
    (geScalarMultBase a).toBytes = (geScalarMultBase b).toBytes ↔ leNat a.toList % groupOrder = leNat b.toList % groupOrder := by
  obtain ⟨a1, a2⟩ := geScalarMultBase_spec a ha
  obtain ⟨b1, b2⟩ := geScalarMultBase_spec b hb
  rw [C64_injective _ _ _ _ a1 a2 b1 b2, ← sub_eq_zero]
  have e : leNat a.toList • base - leNat b.toList • base = ((leNat a.toList : Int) - leNat b.toList) • base := by
    rw [sub_zsmul, natCast_zsmul, natCast_zsmul, sub_eq_add_neg]
  rw [e, smul_base_eq_zero]
  constructor
  · intro h
    have := (Int.emod_emod_of_dvd · (dvd_refl (groupOrder : Int)))
    have h2 : (leNat a.toList : Int) ≡ leNat b.toList [ZMOD groupOrder] := (Int.modEq_iff_dvd.2 (by
      have := (dvd_neg (α := Int)).2 h; rwa [neg_sub] at this))
    exact_mod_cast h2
  · intro h
    have h2 : (leNat a.toList : Int) ≡ leNat b.toList [ZMOD groupOrder] := by
      show (leNat a.toList : Int) % groupOrder = leNat b.toList % groupOrder
      exact_mod_cast h
    have := (dvd_neg (α := Int)).2 (Int.modEq_iff_dvd.1 h2)
    rwa [neg_sub] at this

/-- C67: the base point has prime order. -/
theorem C67_order : Nat.Prime groupOrder ∧ ∀ n : Int, n • base = 0 ↔ (groupOrder : Int) ∣ n :=
  ⟨groupOrder_prime, smul_base_eq_zero⟩

/-! ### C68: `slide` -/

/-- The number that signed binary digits stand for. -/
def digitsValue (r : Digits) (n : Nat) : Int := ∑ i ∈ Finset.range n, r i * 2 ^ i

theorem num_eq (r : Digits) : ∀ n k, num r k n = ∑ i ∈ Finset.range n, r (k + i) * 2 ^ i
  | 0, _ => by simp [num]
  | n + 1, k => by
    rw [num, num_eq r n (k + 1), Finset.sum_range_succ', Finset.mul_sum]
    simp only [pow_succ, Nat.add_zero, pow_zero, mul_one]
    rw [add_comm]
    congr 1
    apply Finset.sum_congr rfl
    intro i _
    rw [show k + 1 + i = k + (i + 1) by ring]; ring

theorem num_digits (r : Digits) : num r 0 256 = digitsValue r 256 := by
  rw [num_eq, digitsValue]; simp only [Nat.zero_add]

/-- C68: the digits are zero or odd between -15 and 15, so that the table accesses by `x/2` stay in range. -/
theorem C68_digits (a : Arr 32) (i : Nat) (hi : i < 256) :
    slide a i = 0 ∨ (slide a i % 2 = 1 ∧ -15 ≤ slide a i ∧ slide a i ≤ 15) :=
  (slide_spec a).1 i hi

/-- C68, the part that holds: the digits stand for the scalar if it is at most 2^255 (every reduced scalar is).
Missing: larger scalars, for which the claim fails (`C68_negation`). -/
theorem C68_value_partial (a : Arr 32) (ha : leNat a.toList ≤ 2 ^ 255) : digitsValue (slide a) 256 = leNat a.toList := by
  rw [← num_digits]; exact (slide_spec a).2.2 ha

/-- C68: for all scalars the digits are right modulo 2^256. -/
theorem C68_mod (a : Arr 32) : digitsValue (slide a) 256 ≡ leNat a.toList [ZMOD 2 ^ 256] := by
  obtain ⟨c, hc⟩ := (slide_spec a).2.1
  rw [← num_digits, hc]
  exact Int.modEq_iff_dvd.2 ⟨c, by ring⟩

example : leNat (Vector.replicate 32 (100 : UInt8)).toList ≤ 2 ^ 255 := by decide +kernel

/-- The scalar 2^256 - 1. -/
def allOnes : Arr 32 := Vector.replicate 32 255

theorem slideCarry_ones : ∀ (n k : Nat) (r : Digits), (∀ j, k ≤ j → j < k + n → r j = 1) →
    slideCarry n k r = fun j => if k ≤ j ∧ j < k + n then 0 else r j
  | 0, k, r, _ => by funext j; rw [slideCarry, if_neg (by omega)]
  | n + 1, k, r, h => by
    rw [slideCarry, if_neg (by rw [h k (by omega) (by omega)]; decide), slideCarry_ones n (k + 1)]
    · funext j
      by_cases hj : j = k
      · subst hj; rw [if_neg (by omega), if_pos (by omega), Digits.set, if_pos rfl]
      · rw [Digits.set, if_neg hj]
        exact if_congr (by omega) rfl rfl
    · intro j h1 h2
      rw [Digits.set, if_neg (by omega)]; exact h j (by omega) (by omega)

theorem slideOuter_zeros : ∀ (n i : Nat) (r : Digits), (∀ j, i ≤ j → r j = 0) → slideOuter n i r = r
  | 0, _, _, _ => rfl
  | n + 1, i, r, h => by
    rw [slideOuter, if_neg (by rw [h i (le_refl _)]; simp)]
    exact slideOuter_zeros n (i + 1) r fun j hj => h j (by omega)

theorem bits_ones : ∀ i, i < 256 → bitOf allOnes i = 1 := by decide +kernel

theorem slide_allOnes : slide allOnes = fun j => if j = 0 then -1 else 0 := by
  have h0 : (fun i => if i < 256 then bitOf allOnes i else 0) = fun i => if i < 256 then (1 : Int) else 0 := by
    funext i; split
    · rename_i h; rw [bits_ones i h]
    · rfl
  unfold slide
  rw [h0, slideOuter]
  have step : slideInner 0 6 1 (fun i => if i < 256 then (1 : Int) else 0) = fun j => if j = 0 then -1 else 0 := by
    rw [slideInner, if_pos (by decide), if_pos (by decide), if_pos (by decide),
      slideInner, if_pos (by decide), if_pos (by decide), if_pos (by decide),
      slideInner, if_pos (by decide), if_pos (by decide), if_pos (by decide),
      slideInner, if_pos (by decide), if_pos (by decide), if_neg (by decide), if_pos (by decide), slideCarry_ones]
    · refine Eq.trans (congrArg (slideInner 0 2 (1 + 1 + 1 + 1 + 1)) (?_ : _ = fun j => if j = 0 then (-1 : Int) else 0)) ?_
      · funext j
        simp only [Digits.set]
        rcases (by omega : j = 0 ∨ j = 1 ∨ j = 2 ∨ j = 3 ∨ 4 ≤ j ∧ j < 256 ∨ 256 ≤ j) with rfl | rfl | rfl | rfl | h | h
        · decide
        · decide
        · decide
        · decide
        · rw [if_pos (by omega), if_neg (by omega)]
        · rw [if_neg (by omega), if_neg (by omega), if_neg (by omega), if_neg (by omega), if_neg (by omega), if_neg (by omega),
            if_neg (by omega), if_neg (by omega)]
          rw [if_neg (by omega), if_neg (by omega)]
      · rw [slideInner, if_pos (by decide), if_neg (by decide), slideInner, if_pos (by decide), if_neg (by decide), slideInner]
    · intro j h1 h2
      simp only [Digits.set]
      rw [if_neg (by omega), if_neg (by omega), if_neg (by omega), if_neg (by omega), if_neg (by omega), if_neg (by omega),
        if_neg (by omega), if_pos (by omega)]
  rw [if_pos (by decide), step]
  exact slideOuter_zeros 255 1 _ fun j hj => by rw [if_neg (by omega)]

/-- C68 fails for large scalars: the digits of 2^256 - 1 stand for -1, because the carry out of the top digit is lost. -/
theorem C68_negation : leNat allOnes.toList = 2 ^ 256 - 1 ∧ digitsValue (slide allOnes) 256 = -1 := by
  refine ⟨by decide +kernel, ?_⟩
  rw [slide_allOnes, digitsValue, Finset.sum_eq_single 0]
  · rfl
  · intro i _ h; rw [if_neg h, zero_mul]
  · intro h; exact absurd (Finset.mem_range.2 (by norm_num)) h

/-! ### C69: `GeDoubleScalarMultVartime` -/

/-- C69, the part that holds: the result is a·A + b·B for scalars up to 2^255, and no table access is out of range.
Missing: larger scalars, for which the claim fails (`C69_negation`). -/
theorem C69_doubleScalarMult_partial (a b : Arr 32) (A : Ext) (P : Point) (hA : A.Bounded) (hP : A.Is P)
    (ha : leNat a.toList ≤ 2 ^ 255) (hb : leNat b.toList ≤ 2 ^ 255) :
    ∃ r, geDoubleScalarMultVartime a A b = .ok r ∧ r.Bounded ∧ r.Is (leNat a.toList • P + leNat b.toList • base) := by
  obtain ⟨r, h1, h2, h3⟩ := geDoubleScalarMult_digits a b hA hP
  refine ⟨r, h1, h2, ?_⟩
  rwa [(slide_spec a).2.2 ha, (slide_spec b).2.2 hb, natCast_zsmul, natCast_zsmul] at h3

example : (∃ A : Ext, A.Bounded ∧ A.Is (7 • base)) ∧ leNat (Vector.replicate 32 (100 : UInt8)).toList ≤ 2 ^ 255 :=
  ⟨(represented _).1, by decide +kernel⟩

/-- C69: for all scalars whatever the call returns without a panic, and the result is the combination that the digits of
`slide` stand for. -/
theorem C69_total (a b : Arr 32) (A : Ext) (P : Point) (hA : A.Bounded) (hP : A.Is P) :
    ∃ r, geDoubleScalarMultVartime a A b = .ok r ∧ r.Bounded ∧
      r.Is (digitsValue (slide a) 256 • P + digitsValue (slide b) 256 • base) := by
  obtain ⟨r, h1, h2, h3⟩ := geDoubleScalarMult_digits a b hA hP
  rw [num_digits, num_digits] at h3
  exact ⟨r, h1, h2, h3⟩

theorem slide_zero : slide (Vector.replicate 32 0) = fun _ => 0 := by
  have h0 : (fun i => if i < 256 then bitOf (Vector.replicate 32 0) i else 0) = fun _ => (0 : Int) := by
    have h : ∀ i, i < 256 → bitOf (Vector.replicate 32 0) i = 0 := by decide +kernel
    funext i; split
    · rename_i hi; exact h i hi
    · rfl
  unfold slide
  rw [h0]
  exact slideOuter_zeros _ _ _ fun _ _ => rfl

/-- C69 fails for large scalars: for a = 2^256 - 1, A = B and b = 0 the result is -B, which is not (2^256 - 1)·B. -/
theorem C69_negation (A : Ext) (hA : A.Bounded) (hP : A.Is base) :
    ∃ r, geDoubleScalarMultVartime allOnes A (Vector.replicate 32 0) = .ok r ∧ r.Is (-base) ∧
      -base ≠ leNat allOnes.toList • base + leNat (Vector.replicate 32 (0 : UInt8)).toList • base := by
  obtain ⟨r, h1, -, h3⟩ := C69_total allOnes (Vector.replicate 32 0) A base hA hP
  refine ⟨r, h1, ?_, ?_⟩
  · rw [C68_negation.2, slide_zero] at h3
    have : digitsValue (fun _ => 0) 256 = 0 := by simp [digitsValue]
    rwa [this, zero_zsmul, add_zero, neg_one_zsmul] at h3
  · rw [C68_negation.1, show leNat (Vector.replicate 32 (0 : UInt8)).toList = 0 by decide +kernel, zero_nsmul, add_zero]
    intro h
    have h2 : ((2 ^ 256 : Nat) : Int) • base = 0 := by
      rw [natCast_zsmul, show (2 ^ 256 : Nat) = (2 ^ 256 - 1) + 1 by norm_num, add_nsmul, one_nsmul, ← h, neg_add_cancel]
    exact absurd ((smul_base_eq_zero _).1 h2) (by decide +kernel)

example : ∃ A : Ext, A.Bounded ∧ A.Is base := (represented base).1

/-- C69: in bytes, with `A` decoded from bytes, as signature verification uses it. -/
theorem C69_bytes_partial (a b : Arr 32) (P : Point) (ha : leNat a.toList ≤ 2 ^ 255) (hb : leNat b.toList ≤ 2 ^ 255) :
    ∃ A r, extFromBytes (encodePoint P) = some A ∧ geDoubleScalarMultVartime a A b = .ok r ∧
      r.toBytes = encodePoint (leNat a.toList • P + leNat b.toList • base) := by
  obtain ⟨A, hA, hB, hI⟩ := extFromBytes_encode P
  obtain ⟨r, h1, h2, h3⟩ := C69_doubleScalarMult_partial a b A P hB hI ha hb
  exact ⟨A, r, hA, h1, Proj.toBytes_spec h2 h3⟩

end Verif.Props
