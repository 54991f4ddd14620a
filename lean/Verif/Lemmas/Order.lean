/-
The base point has prime order 2^252 + 27742317777372353535851937790883648493.
-/
import Verif.Lemmas.Tables
import Mathlib.GroupTheory.OrderOfElement

namespace Verif.Ed

theorem prime_34123 : Nat.Prime 34123 := by
  refine lucas_nat 34123 2 [2, 3, 11, 11, 47] ?_ (by decide +kernel) (by decide +kernel) (by decide +kernel) (by decide +kernel)
  simp only [List.forall_mem_cons, List.not_mem_nil, false_imp_iff, implies_true, and_true]
  exact ⟨by norm_num, by norm_num, by norm_num, by norm_num, by norm_num⟩

theorem prime_409477 : Nat.Prime 409477 := by
  refine lucas_nat 409477 2 [2, 2, 3, 34123] ?_ (by decide +kernel) (by decide +kernel) (by decide +kernel) (by decide +kernel)
  simp only [List.forall_mem_cons, List.not_mem_nil, false_imp_iff, implies_true, and_true]
  exact ⟨by norm_num, by norm_num, by norm_num, prime_34123⟩

theorem prime_14741173 : Nat.Prime 14741173 := by
  refine lucas_nat 14741173 2 [2, 2, 3, 3, 409477] ?_ (by decide +kernel) (by decide +kernel) (by decide +kernel) (by decide +kernel)
  simp only [List.forall_mem_cons, List.not_mem_nil, false_imp_iff, implies_true, and_true]
  exact ⟨by norm_num, by norm_num, by norm_num, by norm_num, prime_409477⟩

theorem prime_58964693 : Nat.Prime 58964693 := by
  refine lucas_nat 58964693 2 [2, 2, 14741173] ?_ (by decide +kernel) (by decide +kernel) (by decide +kernel) (by decide +kernel)
  simp only [List.forall_mem_cons, List.not_mem_nil, false_imp_iff, implies_true, and_true]
  exact ⟨by norm_num, by norm_num, prime_14741173⟩

theorem prime_30703 : Nat.Prime 30703 := by
  refine lucas_nat 30703 3 [2, 3, 7, 17, 43] ?_ (by decide +kernel) (by decide +kernel) (by decide +kernel) (by decide +kernel)
  simp only [List.forall_mem_cons, List.not_mem_nil, false_imp_iff, implies_true, and_true]
  exact ⟨by norm_num, by norm_num, by norm_num, by norm_num, by norm_num⟩

theorem prime_41081 : Nat.Prime 41081 := by
  refine lucas_nat 41081 3 [2, 2, 2, 5, 13, 79] ?_ (by decide +kernel) (by decide +kernel) (by decide +kernel) (by decide +kernel)
  simp only [List.forall_mem_cons, List.not_mem_nil, false_imp_iff, implies_true, and_true]
  exact ⟨by norm_num, by norm_num, by norm_num, by norm_num, by norm_num, by norm_num⟩

theorem prime_82163 : Nat.Prime 82163 := by
  refine lucas_nat 82163 2 [2, 41081] ?_ (by decide +kernel) (by decide +kernel) (by decide +kernel) (by decide +kernel)
  simp only [List.forall_mem_cons, List.not_mem_nil, false_imp_iff, implies_true, and_true]
  exact ⟨by norm_num, prime_41081⟩

theorem prime_22111 : Nat.Prime 22111 := by
  refine lucas_nat 22111 6 [2, 3, 5, 11, 67] ?_ (by decide +kernel) (by decide +kernel) (by decide +kernel) (by decide +kernel)
  simp only [List.forall_mem_cons, List.not_mem_nil, false_imp_iff, implies_true, and_true]
  exact ⟨by norm_num, by norm_num, by norm_num, by norm_num, by norm_num⟩

theorem prime_132667 : Nat.Prime 132667 := by
  refine lucas_nat 132667 5 [2, 3, 22111] ?_ (by decide +kernel) (by decide +kernel) (by decide +kernel) (by decide +kernel)
  simp only [List.forall_mem_cons, List.not_mem_nil, false_imp_iff, implies_true, and_true]
  exact ⟨by norm_num, by norm_num, prime_22111⟩

theorem prime_17231 : Nat.Prime 17231 := by
  refine lucas_nat 17231 13 [2, 5, 1723] ?_ (by decide +kernel) (by decide +kernel) (by decide +kernel) (by decide +kernel)
  simp only [List.forall_mem_cons, List.not_mem_nil, false_imp_iff, implies_true, and_true]
  exact ⟨by norm_num, by norm_num, prime_1723⟩

theorem prime_137849 : Nat.Prime 137849 := by
  refine lucas_nat 137849 3 [2, 2, 2, 17231] ?_ (by decide +kernel) (by decide +kernel) (by decide +kernel) (by decide +kernel)
  simp only [List.forall_mem_cons, List.not_mem_nil, false_imp_iff, implies_true, and_true]
  exact ⟨by norm_num, by norm_num, by norm_num, prime_17231⟩

theorem prime_3044861653679985063343 : Nat.Prime 3044861653679985063343 := by
  refine lucas_nat 3044861653679985063343 5 [2, 3, 11, 30703, 82163, 132667, 137849] ?_ (by decide +kernel) (by decide +kernel) (by decide +kernel) (by decide +kernel)
  simp only [List.forall_mem_cons, List.not_mem_nil, false_imp_iff, implies_true, and_true]
  exact ⟨by norm_num, by norm_num, by norm_num, prime_30703, prime_82163, prime_132667, prime_137849⟩

theorem prime_198211423230930754013084525763697 : Nat.Prime 198211423230930754013084525763697 := by
  refine lucas_nat 198211423230930754013084525763697 5 [2, 2, 2, 2, 3, 23, 58964693, 3044861653679985063343] ?_ (by decide +kernel) (by decide +kernel) (by decide +kernel) (by decide +kernel)
  simp only [List.forall_mem_cons, List.not_mem_nil, false_imp_iff, implies_true, and_true]
  exact ⟨by norm_num, by norm_num, by norm_num, by norm_num, by norm_num, by norm_num, prime_58964693, prime_3044861653679985063343⟩

theorem prime_2939 : Nat.Prime 2939 := by
  refine lucas_nat 2939 2 [2, 13, 113] ?_ (by decide +kernel) (by decide +kernel) (by decide +kernel) (by decide +kernel)
  simp only [List.forall_mem_cons, List.not_mem_nil, false_imp_iff, implies_true, and_true]
  exact ⟨by norm_num, by norm_num, by norm_num⟩

theorem prime_5879 : Nat.Prime 5879 := by
  refine lucas_nat 5879 11 [2, 2939] ?_ (by decide +kernel) (by decide +kernel) (by decide +kernel) (by decide +kernel)
  simp only [List.forall_mem_cons, List.not_mem_nil, false_imp_iff, implies_true, and_true]
  exact ⟨by norm_num, prime_2939⟩

theorem prime_292386187 : Nat.Prime 292386187 := by
  refine lucas_nat 292386187 2 [2, 3, 3, 3, 3, 307, 5879] ?_ (by decide +kernel) (by decide +kernel) (by decide +kernel) (by decide +kernel)
  simp only [List.forall_mem_cons, List.not_mem_nil, false_imp_iff, implies_true, and_true]
  exact ⟨by norm_num, by norm_num, by norm_num, by norm_num, by norm_num, by norm_num, prime_5879⟩

theorem prime_213441916511 : Nat.Prime 213441916511 := by
  refine lucas_nat 213441916511 13 [2, 5, 73, 292386187] ?_ (by decide +kernel) (by decide +kernel) (by decide +kernel) (by decide +kernel)
  simp only [List.forall_mem_cons, List.not_mem_nil, false_imp_iff, implies_true, and_true]
  exact ⟨by norm_num, by norm_num, by norm_num, prime_292386187⟩

theorem prime_1361 : Nat.Prime 1361 := by
  refine lucas_nat 1361 3 [2, 2, 2, 2, 5, 17] ?_ (by decide +kernel) (by decide +kernel) (by decide +kernel) (by decide +kernel)
  simp only [List.forall_mem_cons, List.not_mem_nil, false_imp_iff, implies_true, and_true]
  exact ⟨by norm_num, by norm_num, by norm_num, by norm_num, by norm_num, by norm_num⟩

theorem prime_2851 : Nat.Prime 2851 := by
  refine lucas_nat 2851 2 [2, 3, 5, 5, 19] ?_ (by decide +kernel) (by decide +kernel) (by decide +kernel) (by decide +kernel)
  simp only [List.forall_mem_cons, List.not_mem_nil, false_imp_iff, implies_true, and_true]
  exact ⟨by norm_num, by norm_num, by norm_num, by norm_num, by norm_num⟩

theorem prime_3797 : Nat.Prime 3797 := by
  refine lucas_nat 3797 2 [2, 2, 13, 73] ?_ (by decide +kernel) (by decide +kernel) (by decide +kernel) (by decide +kernel)
  simp only [List.forall_mem_cons, List.not_mem_nil, false_imp_iff, implies_true, and_true]
  exact ⟨by norm_num, by norm_num, by norm_num, by norm_num⟩

theorem prime_531581 : Nat.Prime 531581 := by
  refine lucas_nat 531581 2 [2, 2, 5, 7, 3797] ?_ (by decide +kernel) (by decide +kernel) (by decide +kernel) (by decide +kernel)
  simp only [List.forall_mem_cons, List.not_mem_nil, false_imp_iff, implies_true, and_true]
  exact ⟨by norm_num, by norm_num, by norm_num, by norm_num, prime_3797⟩

theorem prime_2551 : Nat.Prime 2551 := by
  refine lucas_nat 2551 6 [2, 3, 5, 5, 17] ?_ (by decide +kernel) (by decide +kernel) (by decide +kernel) (by decide +kernel)
  simp only [List.forall_mem_cons, List.not_mem_nil, false_imp_iff, implies_true, and_true]
  exact ⟨by norm_num, by norm_num, by norm_num, by norm_num, by norm_num⟩

theorem prime_1224481 : Nat.Prime 1224481 := by
  refine lucas_nat 1224481 13 [2, 2, 2, 2, 2, 3, 5, 2551] ?_ (by decide +kernel) (by decide +kernel) (by decide +kernel) (by decide +kernel)
  simp only [List.forall_mem_cons, List.not_mem_nil, false_imp_iff, implies_true, and_true]
  exact ⟨by norm_num, by norm_num, by norm_num, by norm_num, by norm_num, by norm_num, by norm_num, prime_2551⟩

theorem prime_1257559732178653 : Nat.Prime 1257559732178653 := by
  refine lucas_nat 1257559732178653 2 [2, 2, 3, 7, 23, 531581, 1224481] ?_ (by decide +kernel) (by decide +kernel) (by decide +kernel) (by decide +kernel)
  simp only [List.forall_mem_cons, List.not_mem_nil, false_imp_iff, implies_true, and_true]
  exact ⟨by norm_num, by norm_num, by norm_num, by norm_num, by norm_num, prime_531581, prime_1224481⟩

theorem prime_4434155615661930479 : Nat.Prime 4434155615661930479 := by
  refine lucas_nat 4434155615661930479 17 [2, 41, 43, 1257559732178653] ?_ (by decide +kernel) (by decide +kernel) (by decide +kernel) (by decide +kernel)
  simp only [List.forall_mem_cons, List.not_mem_nil, false_imp_iff, implies_true, and_true]
  exact ⟨by norm_num, by norm_num, by norm_num, prime_1257559732178653⟩

theorem prime_172054593956031949258510691 : Nat.Prime 172054593956031949258510691 := by
  refine lucas_nat 172054593956031949258510691 2 [2, 5, 1361, 2851, 4434155615661930479] ?_ (by decide +kernel) (by decide +kernel) (by decide +kernel) (by decide +kernel)
  simp only [List.forall_mem_cons, List.not_mem_nil, false_imp_iff, implies_true, and_true]
  exact ⟨by norm_num, by norm_num, prime_1361, prime_2851, prime_4434155615661930479⟩

theorem prime_19757330305831588566944191468367130476339 : Nat.Prime 19757330305831588566944191468367130476339 := by
  refine lucas_nat 19757330305831588566944191468367130476339 2 [2, 269, 213441916511, 172054593956031949258510691] ?_ (by decide +kernel) (by decide +kernel) (by decide +kernel) (by decide +kernel)
  simp only [List.forall_mem_cons, List.not_mem_nil, false_imp_iff, implies_true, and_true]
  exact ⟨by norm_num, by norm_num, prime_213441916511, prime_172054593956031949258510691⟩

theorem prime_276602624281642239937218680557139826668747 : Nat.Prime 276602624281642239937218680557139826668747 := by
  refine lucas_nat 276602624281642239937218680557139826668747 2 [2, 7, 19757330305831588566944191468367130476339] ?_ (by decide +kernel) (by decide +kernel) (by decide +kernel) (by decide +kernel)
  simp only [List.forall_mem_cons, List.not_mem_nil, false_imp_iff, implies_true, and_true]
  exact ⟨by norm_num, by norm_num, prime_19757330305831588566944191468367130476339⟩

theorem groupOrder_prime : Nat.Prime groupOrder := by
  refine lucas_nat groupOrder 2 [2, 2, 3, 11, 198211423230930754013084525763697, 276602624281642239937218680557139826668747] ?_ (by decide +kernel) (by decide +kernel) (by decide +kernel) (by decide +kernel)
  simp only [List.forall_mem_cons, List.not_mem_nil, false_imp_iff, implies_true, and_true]
  exact ⟨by norm_num, by norm_num, by norm_num, by norm_num, prime_198211423230930754013084525763697, prime_276602624281642239937218680557139826668747⟩


/-- Projective addition of an affine point. -/
def addAff (t : Int × Int × Int) (q : Int × Int) : Int × Int × Int :=
  let X := t.1
  let Y := t.2.1
  let Z := t.2.2
  let B := Z ^ 2
  let C := X * q.1 % (2 ^ 255 - 19)
  let D := Y * q.2 % (2 ^ 255 - 19)
  let E := feD.toInt * C * D % (2 ^ 255 - 19)
  (Z * (B - E) * (X * q.2 + Y * q.1) % (2 ^ 255 - 19), Z * (B + E) * (D + C) % (2 ^ 255 - 19), (B - E) * (B + E) % (2 ^ 255 - 19))

theorem addAff_spec {t : Int × Int × Int} {q : Int × Int} {P Q : Point} (h : IsXYZ t P) (hq : IsXY q Q) :
    IsXYZ (addAff t q) (P + Q) := by
  obtain ⟨hz, hx, hy⟩ := h
  have ax := addX_mul P Q
  have ay := addY_mul P Q
  obtain ⟨X, Y, Z⟩ := t
  dsimp only at hz hx hy
  have hd : (feD.toInt : F) = d := feD_spec.2
  have n1 := denomX P.on Q.on
  have n2 := denomY P.on Q.on
  simp only [IsXYZ, addAff, cast_mod, Int.cast_sub, Int.cast_add, Int.cast_mul, Int.cast_pow, hd, hq.1, hq.2]
  rw [hx, hy]
  have eB : (Z : F) ^ 2 - d * (P.x * Z * Q.x) * (P.y * Z * Q.y) = (1 - d * P.x * Q.x * P.y * Q.y) * (Z : F) ^ 2 := by ring
  have eC : (Z : F) ^ 2 + d * (P.x * Z * Q.x) * (P.y * Z * Q.y) = (1 + d * P.x * Q.x * P.y * Q.y) * (Z : F) ^ 2 := by ring
  rw [eB, eC]
  refine ⟨?_, ?_, ?_⟩
  · exact mul_ne_zero (mul_ne_zero n2 (pow_ne_zero 2 hz)) (mul_ne_zero n1 (pow_ne_zero 2 hz))
  · linear_combination -(1 - d * P.x * Q.x * P.y * Q.y) * (Z : F) ^ 4 * ax
  · linear_combination -(1 + d * P.x * Q.x * P.y * Q.y) * (Z : F) ^ 4 * ay

/-- Double and add; `n` bits of the scalar are left. -/
def mulAff (q : Int × Int) : Nat → Nat → Int × Int × Int
  | 0, _ => (0, 1, 1)
  | n + 1, k =>
    let t := dbl (mulAff q n (k / 2))
    if k % 2 = 1 then addAff t q else t

theorem mulAff_spec {q : Int × Int} {Q : Point} (hq : IsXY q Q) : ∀ (n k : Nat), k < 2 ^ n → IsXYZ (mulAff q n k) (k • Q)
  | 0, k, h => by
    obtain rfl : k = 0 := by simpa using h
    rw [zero_nsmul]
    refine ⟨?_, ?_, ?_⟩
    · show ((1 : Int) : F) ≠ 0; rw [Int.cast_one]; exact one_ne_zero
    · show ((0 : Int) : F) = 0 * _; rw [Int.cast_zero, zero_mul]
    · show ((1 : Int) : F) = 1 * ((1 : Int) : F); rw [one_mul]
  | n + 1, k, h => by
    have ih := dbl_spec (mulAff_spec hq n (k / 2) (by rw [pow_succ] at h; omega))
    rw [← add_nsmul] at ih
    rw [mulAff]
    split
    · have := addAff_spec ih hq
      have e : (k / 2 + k / 2) • Q + Q = k • Q := by rw [← succ_nsmul]; congr 1; omega
      rwa [e] at this
    · rwa [show k / 2 + k / 2 = k by omega] at ih

theorem order_check : (let t := mulAff (headXY (baseTable.getD 0 [])) 253 groupOrder; zeroMod t.1 && zeroMod (t.2.1 - t.2.2)) = true := by
  decide +kernel

theorem order_smul_base : groupOrder • base = 0 := by
  have h := mulAff_spec base_xy 253 groupOrder (by decide +kernel)
  have c := order_check
  simp only [Bool.and_eq_true] at c
  have c1 := zeroMod_cast c.1
  have c2 := zeroMod_cast c.2
  generalize mulAff (headXY (baseTable.getD 0 [])) 253 groupOrder = t at h c1 c2
  obtain ⟨hz, hx, hy⟩ := h
  refine Point.ext (mul_right_cancel₀ hz ?_) (mul_right_cancel₀ hz ?_)
  · rw [← hx, c1]; exact (zero_mul _).symm
  · rw [← hy, Int.cast_sub] at *
    rw [sub_eq_zero.1 c2]; exact (one_mul _).symm

theorem base_ne_zero : base ≠ 0 := by
  intro h
  have hx : baseX = 0 := congrArg Point.x h
  revert hx
  unfold baseX
  decide +kernel

theorem base_order : addOrderOf base = groupOrder :=
  haveI : Fact (Nat.Prime groupOrder) := ⟨groupOrder_prime⟩
  addOrderOf_eq_prime order_smul_base base_ne_zero

theorem smul_base_eq_zero (n : Int) : n • base = 0 ↔ (groupOrder : Int) ∣ n := by
  rw [← base_order, addOrderOf_dvd_iff_zsmul_eq_zero]

end Verif.Ed
