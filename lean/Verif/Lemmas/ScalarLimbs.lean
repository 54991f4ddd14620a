/-
The limbs that `ScMulAdd` and `ScReduce` start with, and their results.
-/
import Verif.Lemmas.Scalar

namespace Verif.Ed

theorem byte_at (l : Bytes) : ∀ i, (l.getD i 0).toNat = leNat l / 256 ^ i % 256 := by
  induction l with
  | nil => intro i; simp [leNat]
  | cons v l ih =>
    intro i
    have hv := v.toNat_lt
    cases i with
    | zero => rw [List.getD_cons_zero, leNat_head]; omega
    | succ i =>
      rw [List.getD_cons_succ, ih, leNat_head, pow_succ', ← Nat.div_div_eq_div_mul]
      congr 2
      omega

theorem load3_num {n : Nat} (a : Arr n) (i : Nat) : load3 a i = leNat a.toList / 2 ^ (8 * i) % 2 ^ 24 := by
  rw [load3_eq, byte_at, byte_at, byte_at, pow_add 256 i, pow_add 256 i, ← Nat.div_div_eq_div_mul, ← Nat.div_div_eq_div_mul,
    pow_mul, show (2 : Nat) ^ 8 = 256 from rfl]
  generalize leNat a.toList / 256 ^ i = x
  omega

theorem load4_num {n : Nat} (a : Arr n) (i : Nat) : load4 a i = leNat a.toList / 2 ^ (8 * i) % 2 ^ 32 := by
  rw [load4_eq, byte_at, byte_at, byte_at, byte_at, pow_add 256 i, pow_add 256 i, pow_add 256 i, ← Nat.div_div_eq_div_mul,
    ← Nat.div_div_eq_div_mul, ← Nat.div_div_eq_div_mul, pow_mul, show (2 : Nat) ^ 8 = 256 from rfl]
  generalize leNat a.toList / 256 ^ i = x
  omega

theorem mod_div_mod (x : Nat) {k w m : Nat} (h : k + m ≤ w) : x % 2 ^ w / 2 ^ k % 2 ^ m = x / 2 ^ k % 2 ^ m := by
  obtain ⟨r, rfl⟩ : ∃ r, w = k + (m + r) := ⟨w - k - m, by omega⟩
  rw [pow_add, Nat.mod_mul_right_div_self, pow_add, Nat.mod_mul_right_mod]

theorem limb3 {n : Nat} (a : Arr n) (i k j : Nat) (hj : 8 * i + k = j) (hk : k ≤ 3) :
    ((load3 a i) >>> k) &&& 2097151 = leNat a.toList / 2 ^ j % 2 ^ 21 := by
  rw [show 2097151 = 2 ^ 21 - 1 from rfl, Nat.and_two_pow_sub_one_eq_mod, Nat.shiftRight_eq_div_pow, load3_num,
    mod_div_mod _ (by omega), Nat.div_div_eq_div_mul, ← pow_add, hj]

theorem limb4 {n : Nat} (a : Arr n) (i k j : Nat) (hj : 8 * i + k = j) (hk : k ≤ 11) :
    ((load4 a i) >>> k) &&& 2097151 = leNat a.toList / 2 ^ j % 2 ^ 21 := by
  rw [show 2097151 = 2 ^ 21 - 1 from rfl, Nat.and_two_pow_sub_one_eq_mod, Nat.shiftRight_eq_div_pow, load4_num,
    mod_div_mod _ (by omega), Nat.div_div_eq_div_mul, ← pow_add, hj]

theorem limb3_0 {n : Nat} (a : Arr n) (i j : Nat) (hj : 8 * i = j) :
    load3 a i &&& 2097151 = leNat a.toList / 2 ^ j % 2 ^ 21 := by
  have h := limb3 a i 0 j hj (by norm_num)
  rwa [Nat.shiftRight_zero] at h

theorem limb_top {n : Nat} (a : Arr n) (i k j : Nat) (hj : 8 * i + k = j) (h : leNat a.toList < 2 ^ (8 * i + 32)) :
    (load4 a i) >>> k = leNat a.toList / 2 ^ j := by
  rw [Nat.shiftRight_eq_div_pow, load4_num, Nat.mod_eq_of_lt (by
    rw [Nat.div_lt_iff_lt_mul (by positivity), ← pow_add, Nat.add_comm 32]; exact h), Nat.div_div_eq_div_mul, ← pow_add, hj]

theorem sum_limbs (x : Nat) (s : Regs) : ∀ n, (∀ i, i < n → s i = ((x / 2 ^ (21 * i) % 2 ^ 21 : Nat) : Int)) →
    ∑ i ∈ Finset.range n, s i * 2 ^ (21 * i) = ((x % 2 ^ (21 * n) : Nat) : Int)
  | 0, _ => by simp [Nat.mod_one]
  | n + 1, h => by
    rw [Finset.sum_range_succ, sum_limbs x s n fun i hi => h i (by omega), h n (by omega),
      show 21 * (n + 1) = 21 * n + 21 by ring, pow_add 2 (21 * n), Nat.mod_mul]
    push_cast; ring

theorem sum_limbs_top (x : Nat) (s : Regs) (n : Nat) (h : ∀ i, i < n → s i = ((x / 2 ^ (21 * i) % 2 ^ 21 : Nat) : Int))
    (ht : s n = ((x / 2 ^ (21 * n) : Nat) : Int)) : ∑ i ∈ Finset.range (n + 1), s i * 2 ^ (21 * i) = (x : Int) := by
  rw [Finset.sum_range_succ, sum_limbs x s n h, ht]
  have := Nat.mod_add_div' x (2 ^ (21 * n))
  exact_mod_cast this

theorem pow256 (n : Nat) : 256 ^ n = 2 ^ (8 * n) := by rw [pow_mul]; norm_num

theorem limbs12_digit (a : Arr 32) : ∀ i, i < 11 → limbs12 a i = ((leNat a.toList / 2 ^ (21 * i) % 2 ^ 21 : Nat) : Int)
  | 0, _ => by rw [limbs12, limb3_0 a 0 (21 * 0) rfl]
  | 1, _ => by rw [limbs12, limb4 a 2 5 (21 * 1) rfl (by norm_num)]
  | 2, _ => by rw [limbs12, limb3 a 5 2 (21 * 2) rfl (by norm_num)]
  | 3, _ => by rw [limbs12, limb4 a 7 7 (21 * 3) rfl (by norm_num)]
  | 4, _ => by rw [limbs12, limb4 a 10 4 (21 * 4) rfl (by norm_num)]
  | 5, _ => by rw [limbs12, limb3 a 13 1 (21 * 5) rfl (by norm_num)]
  | 6, _ => by rw [limbs12, limb4 a 15 6 (21 * 6) rfl (by norm_num)]
  | 7, _ => by rw [limbs12, limb3 a 18 3 (21 * 7) rfl (by norm_num)]
  | 8, _ => by rw [limbs12, limb3_0 a 21 (21 * 8) rfl]
  | 9, _ => by rw [limbs12, limb4 a 23 5 (21 * 9) rfl (by norm_num)]
  | 10, _ => by rw [limbs12, limb3 a 26 2 (21 * 10) rfl (by norm_num)]
  | n + 11, h => absurd h (by omega)

theorem limbs12_top (a : Arr 32) : limbs12 a 11 = ((leNat a.toList / 2 ^ (21 * 11) : Nat) : Int) := by
  have h := leNat_lt a.toList
  rw [Vector.length_toList] at h
  rw [pow256] at h
  rw [limbs12, limb_top a 28 7 (21 * 11) rfl h]

theorem limbs12_val (a : Arr 32) : ∑ i ∈ Finset.range 12, limbs12 a i * 2 ^ (21 * i) = (leNat a.toList : Int) :=
  sum_limbs_top _ _ 11 (limbs12_digit a) (limbs12_top a)

theorem limbs12_bound (a : Arr 32) (i : Nat) (hi : i < 12) : 0 ≤ limbs12 a i ∧ limbs12 a i < 2 ^ 25 := by
  have h := leNat_lt a.toList
  rw [Vector.length_toList, pow256] at h
  rcases (by omega : i < 11 ∨ i = 11) with h' | rfl
  · clear h
    rw [limbs12_digit a i h']
    have : leNat a.toList / 2 ^ (21 * i) % 2 ^ 21 < 2 ^ 21 := Nat.mod_lt _ (by norm_num)
    omega
  · rw [limbs12_top a]
    have : leNat a.toList / 2 ^ (21 * 11) < 2 ^ 25 := by
      rw [Nat.div_lt_iff_lt_mul (by positivity), ← pow_add]
      exact lt_of_lt_of_eq h (congrArg (2 ^ ·) rfl)
    generalize leNat a.toList / 2 ^ (21 * 11) = x at *
    clear h
    omega

theorem limbs24_digit (a : Arr 64) : ∀ i, i < 23 → limbs24 a i = ((leNat a.toList / 2 ^ (21 * i) % 2 ^ 21 : Nat) : Int)
  | 0, _ => by rw [limbs24, limb3_0 a 0 (21 * 0) rfl]
  | 1, _ => by rw [limbs24, limb4 a 2 5 (21 * 1) rfl (by norm_num)]
  | 2, _ => by rw [limbs24, limb3 a 5 2 (21 * 2) rfl (by norm_num)]
  | 3, _ => by rw [limbs24, limb4 a 7 7 (21 * 3) rfl (by norm_num)]
  | 4, _ => by rw [limbs24, limb4 a 10 4 (21 * 4) rfl (by norm_num)]
  | 5, _ => by rw [limbs24, limb3 a 13 1 (21 * 5) rfl (by norm_num)]
  | 6, _ => by rw [limbs24, limb4 a 15 6 (21 * 6) rfl (by norm_num)]
  | 7, _ => by rw [limbs24, limb3 a 18 3 (21 * 7) rfl (by norm_num)]
  | 8, _ => by rw [limbs24, limb3_0 a 21 (21 * 8) rfl]
  | 9, _ => by rw [limbs24, limb4 a 23 5 (21 * 9) rfl (by norm_num)]
  | 10, _ => by rw [limbs24, limb3 a 26 2 (21 * 10) rfl (by norm_num)]
  | 11, _ => by rw [limbs24, limb4 a 28 7 (21 * 11) rfl (by norm_num)]
  | 12, _ => by rw [limbs24, limb4 a 31 4 (21 * 12) rfl (by norm_num)]
  | 13, _ => by rw [limbs24, limb3 a 34 1 (21 * 13) rfl (by norm_num)]
  | 14, _ => by rw [limbs24, limb4 a 36 6 (21 * 14) rfl (by norm_num)]
  | 15, _ => by rw [limbs24, limb3 a 39 3 (21 * 15) rfl (by norm_num)]
  | 16, _ => by rw [limbs24, limb3_0 a 42 (21 * 16) rfl]
  | 17, _ => by rw [limbs24, limb4 a 44 5 (21 * 17) rfl (by norm_num)]
  | 18, _ => by rw [limbs24, limb3 a 47 2 (21 * 18) rfl (by norm_num)]
  | 19, _ => by rw [limbs24, limb4 a 49 7 (21 * 19) rfl (by norm_num)]
  | 20, _ => by rw [limbs24, limb4 a 52 4 (21 * 20) rfl (by norm_num)]
  | 21, _ => by rw [limbs24, limb3 a 55 1 (21 * 21) rfl (by norm_num)]
  | 22, _ => by rw [limbs24, limb4 a 57 6 (21 * 22) rfl (by norm_num)]
  | n + 23, h => absurd h (by omega)

theorem limbs24_top (a : Arr 64) : limbs24 a 23 = ((leNat a.toList / 2 ^ (21 * 23) : Nat) : Int) := by
  have h := leNat_lt a.toList
  rw [Vector.length_toList] at h
  rw [pow256] at h
  rw [limbs24, limb_top a 60 3 (21 * 23) rfl h]

theorem limbs24_val (a : Arr 64) : ∑ i ∈ Finset.range 24, limbs24 a i * 2 ^ (21 * i) = (leNat a.toList : Int) :=
  sum_limbs_top _ _ 23 (limbs24_digit a) (limbs24_top a)

theorem limbs24_bound (a : Arr 64) (i : Nat) (hi : i < 24) : 0 ≤ limbs24 a i ∧ limbs24 a i < 2 ^ 29 := by
  have h := leNat_lt a.toList
  rw [Vector.length_toList, pow256] at h
  rcases (by omega : i < 23 ∨ i = 23) with h' | rfl
  · clear h
    rw [limbs24_digit a i h']
    have : leNat a.toList / 2 ^ (21 * i) % 2 ^ 21 < 2 ^ 21 := Nat.mod_lt _ (by norm_num)
    omega
  · rw [limbs24_top a]
    have : leNat a.toList / 2 ^ (21 * 23) < 2 ^ 29 := by
      rw [Nat.div_lt_iff_lt_mul (by positivity), ← pow_add]
      exact lt_of_lt_of_eq h (congrArg (2 ^ ·) rfl)
    generalize leNat a.toList / 2 ^ (21 * 23) = x at *
    clear h
    omega

/-! ### The product -/

section
variable {a b c : Regs} (ha : ∀ i, i < 12 → 0 ≤ a i ∧ a i < 2 ^ 25) (hb : ∀ i, i < 12 → 0 ≤ b i ∧ b i < 2 ^ 25)
  (hc : ∀ i, i < 12 → 0 ≤ c i ∧ c i < 2 ^ 25)

include ha hb in
theorem limb_prod (i j : Nat) (hi : i < 12) (hj : j < 12) : 0 ≤ a i * b j ∧ a i * b j ≤ 2 ^ 50 := by
  obtain ⟨h1, h2⟩ := ha i hi
  obtain ⟨h3, h4⟩ := hb j hj
  exact ⟨mul_nonneg h1 h3, by
    have := mul_le_mul h2.le h4.le h3 (by norm_num)
    norm_num at this ⊢; exact this⟩

include ha hb hc in
theorem mulLimbs_0 : mulLimbs a b c 0 = c 0 + a 0 * b 0 ∧ |mulLimbs a b c 0| ≤ 2 ^ 54 := by
  have p0 := limb_prod ha hb 0 0 (by norm_num) (by norm_num)
  have pc := hc 0 (by norm_num)
  have e : mulLimbs a b c 0 = c 0 + a 0 * b 0 := by
    show w64 (c 0 + a 0 * b 0) = _
    exact w64_eq (by omega)
  refine ⟨e, ?_⟩
  rw [e, abs_le]
  omega

include ha hb hc in
theorem mulLimbs_1 : mulLimbs a b c 1 = c 1 + a 0 * b 1 + a 1 * b 0 ∧ |mulLimbs a b c 1| ≤ 2 ^ 54 := by
  have p0 := limb_prod ha hb 0 1 (by norm_num) (by norm_num)
  have p1 := limb_prod ha hb 1 0 (by norm_num) (by norm_num)
  have pc := hc 1 (by norm_num)
  have e : mulLimbs a b c 1 = c 1 + a 0 * b 1 + a 1 * b 0 := by
    show w64 (c 1 + a 0 * b 1 + a 1 * b 0) = _
    exact w64_eq (by omega)
  refine ⟨e, ?_⟩
  rw [e, abs_le]
  omega

include ha hb hc in
theorem mulLimbs_2 : mulLimbs a b c 2 = c 2 + a 0 * b 2 + a 1 * b 1 + a 2 * b 0 ∧ |mulLimbs a b c 2| ≤ 2 ^ 54 := by
  have p0 := limb_prod ha hb 0 2 (by norm_num) (by norm_num)
  have p1 := limb_prod ha hb 1 1 (by norm_num) (by norm_num)
  have p2 := limb_prod ha hb 2 0 (by norm_num) (by norm_num)
  have pc := hc 2 (by norm_num)
  have e : mulLimbs a b c 2 = c 2 + a 0 * b 2 + a 1 * b 1 + a 2 * b 0 := by
    show w64 (c 2 + a 0 * b 2 + a 1 * b 1 + a 2 * b 0) = _
    exact w64_eq (by omega)
  refine ⟨e, ?_⟩
  rw [e, abs_le]
  omega

include ha hb hc in
theorem mulLimbs_3 : mulLimbs a b c 3 = c 3 + a 0 * b 3 + a 1 * b 2 + a 2 * b 1 + a 3 * b 0 ∧ |mulLimbs a b c 3| ≤ 2 ^ 54 := by
  have p0 := limb_prod ha hb 0 3 (by norm_num) (by norm_num)
  have p1 := limb_prod ha hb 1 2 (by norm_num) (by norm_num)
  have p2 := limb_prod ha hb 2 1 (by norm_num) (by norm_num)
  have p3 := limb_prod ha hb 3 0 (by norm_num) (by norm_num)
  have pc := hc 3 (by norm_num)
  have e : mulLimbs a b c 3 = c 3 + a 0 * b 3 + a 1 * b 2 + a 2 * b 1 + a 3 * b 0 := by
    show w64 (c 3 + a 0 * b 3 + a 1 * b 2 + a 2 * b 1 + a 3 * b 0) = _
    exact w64_eq (by omega)
  refine ⟨e, ?_⟩
  rw [e, abs_le]
  omega

include ha hb hc in
theorem mulLimbs_4 : mulLimbs a b c 4 = c 4 + a 0 * b 4 + a 1 * b 3 + a 2 * b 2 + a 3 * b 1 + a 4 * b 0 ∧ |mulLimbs a b c 4| ≤ 2 ^ 54 := by
  have p0 := limb_prod ha hb 0 4 (by norm_num) (by norm_num)
  have p1 := limb_prod ha hb 1 3 (by norm_num) (by norm_num)
  have p2 := limb_prod ha hb 2 2 (by norm_num) (by norm_num)
  have p3 := limb_prod ha hb 3 1 (by norm_num) (by norm_num)
  have p4 := limb_prod ha hb 4 0 (by norm_num) (by norm_num)
  have pc := hc 4 (by norm_num)
  have e : mulLimbs a b c 4 = c 4 + a 0 * b 4 + a 1 * b 3 + a 2 * b 2 + a 3 * b 1 + a 4 * b 0 := by
    show w64 (c 4 + a 0 * b 4 + a 1 * b 3 + a 2 * b 2 + a 3 * b 1 + a 4 * b 0) = _
    exact w64_eq (by omega)
  refine ⟨e, ?_⟩
  rw [e, abs_le]
  omega

include ha hb hc in
theorem mulLimbs_5 : mulLimbs a b c 5 = c 5 + a 0 * b 5 + a 1 * b 4 + a 2 * b 3 + a 3 * b 2 + a 4 * b 1 + a 5 * b 0 ∧ |mulLimbs a b c 5| ≤ 2 ^ 54 := by
  have p0 := limb_prod ha hb 0 5 (by norm_num) (by norm_num)
  have p1 := limb_prod ha hb 1 4 (by norm_num) (by norm_num)
  have p2 := limb_prod ha hb 2 3 (by norm_num) (by norm_num)
  have p3 := limb_prod ha hb 3 2 (by norm_num) (by norm_num)
  have p4 := limb_prod ha hb 4 1 (by norm_num) (by norm_num)
  have p5 := limb_prod ha hb 5 0 (by norm_num) (by norm_num)
  have pc := hc 5 (by norm_num)
  have e : mulLimbs a b c 5 = c 5 + a 0 * b 5 + a 1 * b 4 + a 2 * b 3 + a 3 * b 2 + a 4 * b 1 + a 5 * b 0 := by
    show w64 (c 5 + a 0 * b 5 + a 1 * b 4 + a 2 * b 3 + a 3 * b 2 + a 4 * b 1 + a 5 * b 0) = _
    exact w64_eq (by omega)
  refine ⟨e, ?_⟩
  rw [e, abs_le]
  omega

include ha hb hc in
theorem mulLimbs_6 : mulLimbs a b c 6 = c 6 + a 0 * b 6 + a 1 * b 5 + a 2 * b 4 + a 3 * b 3 + a 4 * b 2 + a 5 * b 1 + a 6 * b 0 ∧ |mulLimbs a b c 6| ≤ 2 ^ 54 := by
  have p0 := limb_prod ha hb 0 6 (by norm_num) (by norm_num)
  have p1 := limb_prod ha hb 1 5 (by norm_num) (by norm_num)
  have p2 := limb_prod ha hb 2 4 (by norm_num) (by norm_num)
  have p3 := limb_prod ha hb 3 3 (by norm_num) (by norm_num)
  have p4 := limb_prod ha hb 4 2 (by norm_num) (by norm_num)
  have p5 := limb_prod ha hb 5 1 (by norm_num) (by norm_num)
  have p6 := limb_prod ha hb 6 0 (by norm_num) (by norm_num)
  have pc := hc 6 (by norm_num)
  have e : mulLimbs a b c 6 = c 6 + a 0 * b 6 + a 1 * b 5 + a 2 * b 4 + a 3 * b 3 + a 4 * b 2 + a 5 * b 1 + a 6 * b 0 := by
    show w64 (c 6 + a 0 * b 6 + a 1 * b 5 + a 2 * b 4 + a 3 * b 3 + a 4 * b 2 + a 5 * b 1 + a 6 * b 0) = _
    exact w64_eq (by omega)
  refine ⟨e, ?_⟩
  rw [e, abs_le]
  omega

include ha hb hc in
theorem mulLimbs_7 : mulLimbs a b c 7 = c 7 + a 0 * b 7 + a 1 * b 6 + a 2 * b 5 + a 3 * b 4 + a 4 * b 3 + a 5 * b 2 + a 6 * b 1 + a 7 * b 0 ∧ |mulLimbs a b c 7| ≤ 2 ^ 54 := by
  have p0 := limb_prod ha hb 0 7 (by norm_num) (by norm_num)
  have p1 := limb_prod ha hb 1 6 (by norm_num) (by norm_num)
  have p2 := limb_prod ha hb 2 5 (by norm_num) (by norm_num)
  have p3 := limb_prod ha hb 3 4 (by norm_num) (by norm_num)
  have p4 := limb_prod ha hb 4 3 (by norm_num) (by norm_num)
  have p5 := limb_prod ha hb 5 2 (by norm_num) (by norm_num)
  have p6 := limb_prod ha hb 6 1 (by norm_num) (by norm_num)
  have p7 := limb_prod ha hb 7 0 (by norm_num) (by norm_num)
  have pc := hc 7 (by norm_num)
  have e : mulLimbs a b c 7 = c 7 + a 0 * b 7 + a 1 * b 6 + a 2 * b 5 + a 3 * b 4 + a 4 * b 3 + a 5 * b 2 + a 6 * b 1 + a 7 * b 0 := by
    show w64 (c 7 + a 0 * b 7 + a 1 * b 6 + a 2 * b 5 + a 3 * b 4 + a 4 * b 3 + a 5 * b 2 + a 6 * b 1 + a 7 * b 0) = _
    exact w64_eq (by omega)
  refine ⟨e, ?_⟩
  rw [e, abs_le]
  omega

include ha hb hc in
theorem mulLimbs_8 : mulLimbs a b c 8 = c 8 + a 0 * b 8 + a 1 * b 7 + a 2 * b 6 + a 3 * b 5 + a 4 * b 4 + a 5 * b 3 + a 6 * b 2 + a 7 * b 1 + a 8 * b 0 ∧ |mulLimbs a b c 8| ≤ 2 ^ 54 := by
  have p0 := limb_prod ha hb 0 8 (by norm_num) (by norm_num)
  have p1 := limb_prod ha hb 1 7 (by norm_num) (by norm_num)
  have p2 := limb_prod ha hb 2 6 (by norm_num) (by norm_num)
  have p3 := limb_prod ha hb 3 5 (by norm_num) (by norm_num)
  have p4 := limb_prod ha hb 4 4 (by norm_num) (by norm_num)
  have p5 := limb_prod ha hb 5 3 (by norm_num) (by norm_num)
  have p6 := limb_prod ha hb 6 2 (by norm_num) (by norm_num)
  have p7 := limb_prod ha hb 7 1 (by norm_num) (by norm_num)
  have p8 := limb_prod ha hb 8 0 (by norm_num) (by norm_num)
  have pc := hc 8 (by norm_num)
  have e : mulLimbs a b c 8 = c 8 + a 0 * b 8 + a 1 * b 7 + a 2 * b 6 + a 3 * b 5 + a 4 * b 4 + a 5 * b 3 + a 6 * b 2 + a 7 * b 1 + a 8 * b 0 := by
    show w64 (c 8 + a 0 * b 8 + a 1 * b 7 + a 2 * b 6 + a 3 * b 5 + a 4 * b 4 + a 5 * b 3 + a 6 * b 2 + a 7 * b 1 + a 8 * b 0) = _
    exact w64_eq (by omega)
  refine ⟨e, ?_⟩
  rw [e, abs_le]
  omega

include ha hb hc in
theorem mulLimbs_9 : mulLimbs a b c 9 = c 9 + a 0 * b 9 + a 1 * b 8 + a 2 * b 7 + a 3 * b 6 + a 4 * b 5 + a 5 * b 4 + a 6 * b 3 + a 7 * b 2 + a 8 * b 1 + a 9 * b 0 ∧ |mulLimbs a b c 9| ≤ 2 ^ 54 := by
  have p0 := limb_prod ha hb 0 9 (by norm_num) (by norm_num)
  have p1 := limb_prod ha hb 1 8 (by norm_num) (by norm_num)
  have p2 := limb_prod ha hb 2 7 (by norm_num) (by norm_num)
  have p3 := limb_prod ha hb 3 6 (by norm_num) (by norm_num)
  have p4 := limb_prod ha hb 4 5 (by norm_num) (by norm_num)
  have p5 := limb_prod ha hb 5 4 (by norm_num) (by norm_num)
  have p6 := limb_prod ha hb 6 3 (by norm_num) (by norm_num)
  have p7 := limb_prod ha hb 7 2 (by norm_num) (by norm_num)
  have p8 := limb_prod ha hb 8 1 (by norm_num) (by norm_num)
  have p9 := limb_prod ha hb 9 0 (by norm_num) (by norm_num)
  have pc := hc 9 (by norm_num)
  have e : mulLimbs a b c 9 = c 9 + a 0 * b 9 + a 1 * b 8 + a 2 * b 7 + a 3 * b 6 + a 4 * b 5 + a 5 * b 4 + a 6 * b 3 + a 7 * b 2 + a 8 * b 1 + a 9 * b 0 := by
    show w64 (c 9 + a 0 * b 9 + a 1 * b 8 + a 2 * b 7 + a 3 * b 6 + a 4 * b 5 + a 5 * b 4 + a 6 * b 3 + a 7 * b 2 + a 8 * b 1 + a 9 * b 0) = _
    exact w64_eq (by omega)
  refine ⟨e, ?_⟩
  rw [e, abs_le]
  omega

include ha hb hc in
theorem mulLimbs_10 : mulLimbs a b c 10 = c 10 + a 0 * b 10 + a 1 * b 9 + a 2 * b 8 + a 3 * b 7 + a 4 * b 6 + a 5 * b 5 + a 6 * b 4 + a 7 * b 3 + a 8 * b 2 + a 9 * b 1 + a 10 * b 0 ∧ |mulLimbs a b c 10| ≤ 2 ^ 54 := by
  have p0 := limb_prod ha hb 0 10 (by norm_num) (by norm_num)
  have p1 := limb_prod ha hb 1 9 (by norm_num) (by norm_num)
  have p2 := limb_prod ha hb 2 8 (by norm_num) (by norm_num)
  have p3 := limb_prod ha hb 3 7 (by norm_num) (by norm_num)
  have p4 := limb_prod ha hb 4 6 (by norm_num) (by norm_num)
  have p5 := limb_prod ha hb 5 5 (by norm_num) (by norm_num)
  have p6 := limb_prod ha hb 6 4 (by norm_num) (by norm_num)
  have p7 := limb_prod ha hb 7 3 (by norm_num) (by norm_num)
  have p8 := limb_prod ha hb 8 2 (by norm_num) (by norm_num)
  have p9 := limb_prod ha hb 9 1 (by norm_num) (by norm_num)
  have p10 := limb_prod ha hb 10 0 (by norm_num) (by norm_num)
  have pc := hc 10 (by norm_num)
  have e : mulLimbs a b c 10 = c 10 + a 0 * b 10 + a 1 * b 9 + a 2 * b 8 + a 3 * b 7 + a 4 * b 6 + a 5 * b 5 + a 6 * b 4 + a 7 * b 3 + a 8 * b 2 + a 9 * b 1 + a 10 * b 0 := by
    show w64 (c 10 + a 0 * b 10 + a 1 * b 9 + a 2 * b 8 + a 3 * b 7 + a 4 * b 6 + a 5 * b 5 + a 6 * b 4 + a 7 * b 3 + a 8 * b 2 + a 9 * b 1 + a 10 * b 0) = _
    exact w64_eq (by omega)
  refine ⟨e, ?_⟩
  rw [e, abs_le]
  omega

include ha hb hc in
theorem mulLimbs_11 : mulLimbs a b c 11 = c 11 + a 0 * b 11 + a 1 * b 10 + a 2 * b 9 + a 3 * b 8 + a 4 * b 7 + a 5 * b 6 + a 6 * b 5 + a 7 * b 4 + a 8 * b 3 + a 9 * b 2 + a 10 * b 1 + a 11 * b 0 ∧ |mulLimbs a b c 11| ≤ 2 ^ 54 := by
  have p0 := limb_prod ha hb 0 11 (by norm_num) (by norm_num)
  have p1 := limb_prod ha hb 1 10 (by norm_num) (by norm_num)
  have p2 := limb_prod ha hb 2 9 (by norm_num) (by norm_num)
  have p3 := limb_prod ha hb 3 8 (by norm_num) (by norm_num)
  have p4 := limb_prod ha hb 4 7 (by norm_num) (by norm_num)
  have p5 := limb_prod ha hb 5 6 (by norm_num) (by norm_num)
  have p6 := limb_prod ha hb 6 5 (by norm_num) (by norm_num)
  have p7 := limb_prod ha hb 7 4 (by norm_num) (by norm_num)
  have p8 := limb_prod ha hb 8 3 (by norm_num) (by norm_num)
  have p9 := limb_prod ha hb 9 2 (by norm_num) (by norm_num)
  have p10 := limb_prod ha hb 10 1 (by norm_num) (by norm_num)
  have p11 := limb_prod ha hb 11 0 (by norm_num) (by norm_num)
  have pc := hc 11 (by norm_num)
  have e : mulLimbs a b c 11 = c 11 + a 0 * b 11 + a 1 * b 10 + a 2 * b 9 + a 3 * b 8 + a 4 * b 7 + a 5 * b 6 + a 6 * b 5 + a 7 * b 4 + a 8 * b 3 + a 9 * b 2 + a 10 * b 1 + a 11 * b 0 := by
    show w64 (c 11 + a 0 * b 11 + a 1 * b 10 + a 2 * b 9 + a 3 * b 8 + a 4 * b 7 + a 5 * b 6 + a 6 * b 5 + a 7 * b 4 + a 8 * b 3 + a 9 * b 2 + a 10 * b 1 + a 11 * b 0) = _
    exact w64_eq (by omega)
  refine ⟨e, ?_⟩
  rw [e, abs_le]
  omega

include ha hb in
theorem mulLimbs_12 : mulLimbs a b c 12 = a 1 * b 11 + a 2 * b 10 + a 3 * b 9 + a 4 * b 8 + a 5 * b 7 + a 6 * b 6 + a 7 * b 5 + a 8 * b 4 + a 9 * b 3 + a 10 * b 2 + a 11 * b 1 ∧ |mulLimbs a b c 12| ≤ 2 ^ 54 := by
  have p0 := limb_prod ha hb 1 11 (by norm_num) (by norm_num)
  have p1 := limb_prod ha hb 2 10 (by norm_num) (by norm_num)
  have p2 := limb_prod ha hb 3 9 (by norm_num) (by norm_num)
  have p3 := limb_prod ha hb 4 8 (by norm_num) (by norm_num)
  have p4 := limb_prod ha hb 5 7 (by norm_num) (by norm_num)
  have p5 := limb_prod ha hb 6 6 (by norm_num) (by norm_num)
  have p6 := limb_prod ha hb 7 5 (by norm_num) (by norm_num)
  have p7 := limb_prod ha hb 8 4 (by norm_num) (by norm_num)
  have p8 := limb_prod ha hb 9 3 (by norm_num) (by norm_num)
  have p9 := limb_prod ha hb 10 2 (by norm_num) (by norm_num)
  have p10 := limb_prod ha hb 11 1 (by norm_num) (by norm_num)
  have e : mulLimbs a b c 12 = a 1 * b 11 + a 2 * b 10 + a 3 * b 9 + a 4 * b 8 + a 5 * b 7 + a 6 * b 6 + a 7 * b 5 + a 8 * b 4 + a 9 * b 3 + a 10 * b 2 + a 11 * b 1 := by
    show w64 (a 1 * b 11 + a 2 * b 10 + a 3 * b 9 + a 4 * b 8 + a 5 * b 7 + a 6 * b 6 + a 7 * b 5 + a 8 * b 4 + a 9 * b 3 + a 10 * b 2 + a 11 * b 1) = _
    exact w64_eq (by omega)
  refine ⟨e, ?_⟩
  rw [e, abs_le]
  omega

include ha hb in
theorem mulLimbs_13 : mulLimbs a b c 13 = a 2 * b 11 + a 3 * b 10 + a 4 * b 9 + a 5 * b 8 + a 6 * b 7 + a 7 * b 6 + a 8 * b 5 + a 9 * b 4 + a 10 * b 3 + a 11 * b 2 ∧ |mulLimbs a b c 13| ≤ 2 ^ 54 := by
  have p0 := limb_prod ha hb 2 11 (by norm_num) (by norm_num)
  have p1 := limb_prod ha hb 3 10 (by norm_num) (by norm_num)
  have p2 := limb_prod ha hb 4 9 (by norm_num) (by norm_num)
  have p3 := limb_prod ha hb 5 8 (by norm_num) (by norm_num)
  have p4 := limb_prod ha hb 6 7 (by norm_num) (by norm_num)
  have p5 := limb_prod ha hb 7 6 (by norm_num) (by norm_num)
  have p6 := limb_prod ha hb 8 5 (by norm_num) (by norm_num)
  have p7 := limb_prod ha hb 9 4 (by norm_num) (by norm_num)
  have p8 := limb_prod ha hb 10 3 (by norm_num) (by norm_num)
  have p9 := limb_prod ha hb 11 2 (by norm_num) (by norm_num)
  have e : mulLimbs a b c 13 = a 2 * b 11 + a 3 * b 10 + a 4 * b 9 + a 5 * b 8 + a 6 * b 7 + a 7 * b 6 + a 8 * b 5 + a 9 * b 4 + a 10 * b 3 + a 11 * b 2 := by
    show w64 (a 2 * b 11 + a 3 * b 10 + a 4 * b 9 + a 5 * b 8 + a 6 * b 7 + a 7 * b 6 + a 8 * b 5 + a 9 * b 4 + a 10 * b 3 + a 11 * b 2) = _
    exact w64_eq (by omega)
  refine ⟨e, ?_⟩
  rw [e, abs_le]
  omega

include ha hb in
theorem mulLimbs_14 : mulLimbs a b c 14 = a 3 * b 11 + a 4 * b 10 + a 5 * b 9 + a 6 * b 8 + a 7 * b 7 + a 8 * b 6 + a 9 * b 5 + a 10 * b 4 + a 11 * b 3 ∧ |mulLimbs a b c 14| ≤ 2 ^ 54 := by
  have p0 := limb_prod ha hb 3 11 (by norm_num) (by norm_num)
  have p1 := limb_prod ha hb 4 10 (by norm_num) (by norm_num)
  have p2 := limb_prod ha hb 5 9 (by norm_num) (by norm_num)
  have p3 := limb_prod ha hb 6 8 (by norm_num) (by norm_num)
  have p4 := limb_prod ha hb 7 7 (by norm_num) (by norm_num)
  have p5 := limb_prod ha hb 8 6 (by norm_num) (by norm_num)
  have p6 := limb_prod ha hb 9 5 (by norm_num) (by norm_num)
  have p7 := limb_prod ha hb 10 4 (by norm_num) (by norm_num)
  have p8 := limb_prod ha hb 11 3 (by norm_num) (by norm_num)
  have e : mulLimbs a b c 14 = a 3 * b 11 + a 4 * b 10 + a 5 * b 9 + a 6 * b 8 + a 7 * b 7 + a 8 * b 6 + a 9 * b 5 + a 10 * b 4 + a 11 * b 3 := by
    show w64 (a 3 * b 11 + a 4 * b 10 + a 5 * b 9 + a 6 * b 8 + a 7 * b 7 + a 8 * b 6 + a 9 * b 5 + a 10 * b 4 + a 11 * b 3) = _
    exact w64_eq (by omega)
  refine ⟨e, ?_⟩
  rw [e, abs_le]
  omega

include ha hb in
theorem mulLimbs_15 : mulLimbs a b c 15 = a 4 * b 11 + a 5 * b 10 + a 6 * b 9 + a 7 * b 8 + a 8 * b 7 + a 9 * b 6 + a 10 * b 5 + a 11 * b 4 ∧ |mulLimbs a b c 15| ≤ 2 ^ 54 := by
  have p0 := limb_prod ha hb 4 11 (by norm_num) (by norm_num)
  have p1 := limb_prod ha hb 5 10 (by norm_num) (by norm_num)
  have p2 := limb_prod ha hb 6 9 (by norm_num) (by norm_num)
  have p3 := limb_prod ha hb 7 8 (by norm_num) (by norm_num)
  have p4 := limb_prod ha hb 8 7 (by norm_num) (by norm_num)
  have p5 := limb_prod ha hb 9 6 (by norm_num) (by norm_num)
  have p6 := limb_prod ha hb 10 5 (by norm_num) (by norm_num)
  have p7 := limb_prod ha hb 11 4 (by norm_num) (by norm_num)
  have e : mulLimbs a b c 15 = a 4 * b 11 + a 5 * b 10 + a 6 * b 9 + a 7 * b 8 + a 8 * b 7 + a 9 * b 6 + a 10 * b 5 + a 11 * b 4 := by
    show w64 (a 4 * b 11 + a 5 * b 10 + a 6 * b 9 + a 7 * b 8 + a 8 * b 7 + a 9 * b 6 + a 10 * b 5 + a 11 * b 4) = _
    exact w64_eq (by omega)
  refine ⟨e, ?_⟩
  rw [e, abs_le]
  omega

include ha hb in
theorem mulLimbs_16 : mulLimbs a b c 16 = a 5 * b 11 + a 6 * b 10 + a 7 * b 9 + a 8 * b 8 + a 9 * b 7 + a 10 * b 6 + a 11 * b 5 ∧ |mulLimbs a b c 16| ≤ 2 ^ 54 := by
  have p0 := limb_prod ha hb 5 11 (by norm_num) (by norm_num)
  have p1 := limb_prod ha hb 6 10 (by norm_num) (by norm_num)
  have p2 := limb_prod ha hb 7 9 (by norm_num) (by norm_num)
  have p3 := limb_prod ha hb 8 8 (by norm_num) (by norm_num)
  have p4 := limb_prod ha hb 9 7 (by norm_num) (by norm_num)
  have p5 := limb_prod ha hb 10 6 (by norm_num) (by norm_num)
  have p6 := limb_prod ha hb 11 5 (by norm_num) (by norm_num)
  have e : mulLimbs a b c 16 = a 5 * b 11 + a 6 * b 10 + a 7 * b 9 + a 8 * b 8 + a 9 * b 7 + a 10 * b 6 + a 11 * b 5 := by
    show w64 (a 5 * b 11 + a 6 * b 10 + a 7 * b 9 + a 8 * b 8 + a 9 * b 7 + a 10 * b 6 + a 11 * b 5) = _
    exact w64_eq (by omega)
  refine ⟨e, ?_⟩
  rw [e, abs_le]
  omega

include ha hb in
theorem mulLimbs_17 : mulLimbs a b c 17 = a 6 * b 11 + a 7 * b 10 + a 8 * b 9 + a 9 * b 8 + a 10 * b 7 + a 11 * b 6 ∧ |mulLimbs a b c 17| ≤ 2 ^ 54 := by
  have p0 := limb_prod ha hb 6 11 (by norm_num) (by norm_num)
  have p1 := limb_prod ha hb 7 10 (by norm_num) (by norm_num)
  have p2 := limb_prod ha hb 8 9 (by norm_num) (by norm_num)
  have p3 := limb_prod ha hb 9 8 (by norm_num) (by norm_num)
  have p4 := limb_prod ha hb 10 7 (by norm_num) (by norm_num)
  have p5 := limb_prod ha hb 11 6 (by norm_num) (by norm_num)
  have e : mulLimbs a b c 17 = a 6 * b 11 + a 7 * b 10 + a 8 * b 9 + a 9 * b 8 + a 10 * b 7 + a 11 * b 6 := by
    show w64 (a 6 * b 11 + a 7 * b 10 + a 8 * b 9 + a 9 * b 8 + a 10 * b 7 + a 11 * b 6) = _
    exact w64_eq (by omega)
  refine ⟨e, ?_⟩
  rw [e, abs_le]
  omega

include ha hb in
theorem mulLimbs_18 : mulLimbs a b c 18 = a 7 * b 11 + a 8 * b 10 + a 9 * b 9 + a 10 * b 8 + a 11 * b 7 ∧ |mulLimbs a b c 18| ≤ 2 ^ 54 := by
  have p0 := limb_prod ha hb 7 11 (by norm_num) (by norm_num)
  have p1 := limb_prod ha hb 8 10 (by norm_num) (by norm_num)
  have p2 := limb_prod ha hb 9 9 (by norm_num) (by norm_num)
  have p3 := limb_prod ha hb 10 8 (by norm_num) (by norm_num)
  have p4 := limb_prod ha hb 11 7 (by norm_num) (by norm_num)
  have e : mulLimbs a b c 18 = a 7 * b 11 + a 8 * b 10 + a 9 * b 9 + a 10 * b 8 + a 11 * b 7 := by
    show w64 (a 7 * b 11 + a 8 * b 10 + a 9 * b 9 + a 10 * b 8 + a 11 * b 7) = _
    exact w64_eq (by omega)
  refine ⟨e, ?_⟩
  rw [e, abs_le]
  omega

include ha hb in
theorem mulLimbs_19 : mulLimbs a b c 19 = a 8 * b 11 + a 9 * b 10 + a 10 * b 9 + a 11 * b 8 ∧ |mulLimbs a b c 19| ≤ 2 ^ 54 := by
  have p0 := limb_prod ha hb 8 11 (by norm_num) (by norm_num)
  have p1 := limb_prod ha hb 9 10 (by norm_num) (by norm_num)
  have p2 := limb_prod ha hb 10 9 (by norm_num) (by norm_num)
  have p3 := limb_prod ha hb 11 8 (by norm_num) (by norm_num)
  have e : mulLimbs a b c 19 = a 8 * b 11 + a 9 * b 10 + a 10 * b 9 + a 11 * b 8 := by
    show w64 (a 8 * b 11 + a 9 * b 10 + a 10 * b 9 + a 11 * b 8) = _
    exact w64_eq (by omega)
  refine ⟨e, ?_⟩
  rw [e, abs_le]
  omega

include ha hb in
theorem mulLimbs_20 : mulLimbs a b c 20 = a 9 * b 11 + a 10 * b 10 + a 11 * b 9 ∧ |mulLimbs a b c 20| ≤ 2 ^ 54 := by
  have p0 := limb_prod ha hb 9 11 (by norm_num) (by norm_num)
  have p1 := limb_prod ha hb 10 10 (by norm_num) (by norm_num)
  have p2 := limb_prod ha hb 11 9 (by norm_num) (by norm_num)
  have e : mulLimbs a b c 20 = a 9 * b 11 + a 10 * b 10 + a 11 * b 9 := by
    show w64 (a 9 * b 11 + a 10 * b 10 + a 11 * b 9) = _
    exact w64_eq (by omega)
  refine ⟨e, ?_⟩
  rw [e, abs_le]
  omega

include ha hb in
theorem mulLimbs_21 : mulLimbs a b c 21 = a 10 * b 11 + a 11 * b 10 ∧ |mulLimbs a b c 21| ≤ 2 ^ 54 := by
  have p0 := limb_prod ha hb 10 11 (by norm_num) (by norm_num)
  have p1 := limb_prod ha hb 11 10 (by norm_num) (by norm_num)
  have e : mulLimbs a b c 21 = a 10 * b 11 + a 11 * b 10 := by
    show w64 (a 10 * b 11 + a 11 * b 10) = _
    exact w64_eq (by omega)
  refine ⟨e, ?_⟩
  rw [e, abs_le]
  omega

include ha hb in
theorem mulLimbs_22 : mulLimbs a b c 22 = a 11 * b 11 ∧ |mulLimbs a b c 22| ≤ 2 ^ 54 := by
  have p0 := limb_prod ha hb 11 11 (by norm_num) (by norm_num)
  have e : mulLimbs a b c 22 = a 11 * b 11 := by
    show w64 (a 11 * b 11) = _
    exact w64_eq (by omega)
  refine ⟨e, ?_⟩
  rw [e, abs_le]
  omega

include ha hb hc in
theorem mulLimbs_val : (mulLimbs a b c).val = (∑ i ∈ Finset.range 12, a i * 2 ^ (21 * i)) * (∑ i ∈ Finset.range 12, b i * 2 ^ (21 * i)) +
    ∑ i ∈ Finset.range 12, c i * 2 ^ (21 * i) := by
  unfold Regs.val
  simp only [Finset.sum_range_succ, Finset.sum_range_zero, zero_add, pow_mul]
  rw [(mulLimbs_0 ha hb hc).1, (mulLimbs_1 ha hb hc).1, (mulLimbs_2 ha hb hc).1, (mulLimbs_3 ha hb hc).1, (mulLimbs_4 ha hb hc).1, (mulLimbs_5 ha hb hc).1, (mulLimbs_6 ha hb hc).1, (mulLimbs_7 ha hb hc).1, (mulLimbs_8 ha hb hc).1, (mulLimbs_9 ha hb hc).1, (mulLimbs_10 ha hb hc).1, (mulLimbs_11 ha hb hc).1, (mulLimbs_12 ha hb).1, (mulLimbs_13 ha hb).1, (mulLimbs_14 ha hb).1, (mulLimbs_15 ha hb).1, (mulLimbs_16 ha hb).1, (mulLimbs_17 ha hb).1, (mulLimbs_18 ha hb).1, (mulLimbs_19 ha hb).1, (mulLimbs_20 ha hb).1, (mulLimbs_21 ha hb).1, (mulLimbs_22 ha hb).1,
    show mulLimbs a b c 23 = 0 from rfl]
  generalize (2 : Int) ^ 21 = x
  ring

include ha hb hc in
theorem mulLimbs_fits : Fits (mulLimbs a b c) (List.replicate 23 (2 ^ 54) ++ [0])
  | 0 => (mulLimbs_0 ha hb hc).2
  | 1 => (mulLimbs_1 ha hb hc).2
  | 2 => (mulLimbs_2 ha hb hc).2
  | 3 => (mulLimbs_3 ha hb hc).2
  | 4 => (mulLimbs_4 ha hb hc).2
  | 5 => (mulLimbs_5 ha hb hc).2
  | 6 => (mulLimbs_6 ha hb hc).2
  | 7 => (mulLimbs_7 ha hb hc).2
  | 8 => (mulLimbs_8 ha hb hc).2
  | 9 => (mulLimbs_9 ha hb hc).2
  | 10 => (mulLimbs_10 ha hb hc).2
  | 11 => (mulLimbs_11 ha hb hc).2
  | 12 => (mulLimbs_12 ha hb).2
  | 13 => (mulLimbs_13 ha hb).2
  | 14 => (mulLimbs_14 ha hb).2
  | 15 => (mulLimbs_15 ha hb).2
  | 16 => (mulLimbs_16 ha hb).2
  | 17 => (mulLimbs_17 ha hb).2
  | 18 => (mulLimbs_18 ha hb).2
  | 19 => (mulLimbs_19 ha hb).2
  | 20 => (mulLimbs_20 ha hb).2
  | 21 => (mulLimbs_21 ha hb).2
  | 22 => (mulLimbs_22 ha hb).2
  | 23 => by simp [mulLimbs]
  | n + 24 => by simp [mulLimbs]

end

theorem limbs24_fits (a : Arr 64) : Fits (limbs24 a) (List.replicate 24 (2 ^ 29)) := by
  intro i
  rcases Nat.lt_or_ge i 24 with hi | hi
  · have := limbs24_bound a i hi
    rw [List.getD_eq_getElem?_getD, List.getElem?_replicate, if_pos hi]
    show |limbs24 a i| ≤ ((2 ^ 29 : Nat) : Int)
    rw [abs_le]; push_cast; omega
  · obtain ⟨n, rfl⟩ : ∃ n, i = n + 24 := ⟨i - 24, by omega⟩
    simp [limbs24]

/-! ### The bounds along the way -/

/-- Checks the bounds of a run of `l1`, `l2`, `l3`. -/
def endOk (l1 l2 l3 : List ScOp) (B : List Nat) : Bool :=
  match boundOps l1 B with
  | none => false
  | some B2 => (List.range' 13 11).all (fun i => B2.getD i 0 == 0) &&
    match boundOps l2 B2 with
    | none => false
    | some B3 =>
      match boundOps l3 B3 with
      | none => false
      | some B4 => (List.range' 12 12).all (fun i => B4.getD i 0 == 0)

/-- Decidable form of `Tail`. -/
def tailOk (B : List Nat) : Bool :=
  (List.range' 12 12).all (fun i => B.getD i 0 == 0) && decide (boundVal B < 2 ^ 252) && endOk carry12 [.fold 12] carry11 B

theorem all_zero {B : List Nat} {k n : Nat} (h : (List.range' k n).all (fun i => B.getD i 0 == 0) = true) :
    ∀ i, k ≤ i → i < k + n → B.getD i 0 = 0 := by
  intro i h1 h2
  rw [List.all_eq_true] at h
  exact beq_iff_eq.1 (h i (List.mem_range'_1.2 ⟨h1, h2⟩))

theorem endOk_spec {l1 l2 l3 : List ScOp} {B : List Nat} (h : endOk l1 l2 l3 B = true) :
    ∃ B2 B3 B4, boundOps l1 B = some B2 ∧ boundOps l2 B2 = some B3 ∧ boundOps l3 B3 = some B4 ∧
      (∀ i, 13 ≤ i → i < 24 → B2.getD i 0 = 0) ∧ (∀ i, 12 ≤ i → i < 24 → B4.getD i 0 = 0) := by
  unfold endOk at h
  split at h
  · exact absurd h (by simp)
  · rename_i B2 e2
    rw [Bool.and_eq_true] at h
    obtain ⟨h3, h4⟩ := h
    split at h4
    · exact absurd h4 (by simp)
    · rename_i B3 e3
      split at h4
      · exact absurd h4 (by simp)
      · rename_i B4 e4
        exact ⟨B2, B3, B4, e2, e3, e4,
          fun i a b => all_zero h3 i a (by omega), fun i a b => all_zero h4 i a (by omega)⟩

theorem tailOk_spec {B : List Nat} (h : tailOk B = true) : Tail B := by
  unfold tailOk at h
  rw [Bool.and_eq_true, Bool.and_eq_true] at h
  obtain ⟨⟨h1, h2⟩, h3⟩ := h
  exact ⟨fun i a b => all_zero h1 i a (by omega), of_decide_eq_true h2, endOk_spec h3⟩

/-- A run of the first part within bounds, followed by the tail. -/
def runOk (l : List ScOp) (B : List Nat) : Bool :=
  match boundOps l B with
  | none => false
  | some B' => tailOk B'

theorem runOps_append (l l' : List ScOp) (s : Regs) : runOps (l ++ l') s = runOps l' (runOps l s) := by
  unfold runOps; rw [List.foldl_append]

theorem run_spec (l : List ScOp) {B : List Nat} (h : runOk l B = true) {s : Regs} (hf : Fits s B) :
    (leNat (scPack (runOps carry11 (runOps [.fold 12] (runOps carry12 (runOps l s))))).toList : Int) = s.val % groupOrder := by
  unfold runOk at h
  split at h
  · exact absurd h (by simp)
  · rename_i B' e
    obtain ⟨h1, q, hq⟩ := runOps_spec l e hf
    rw [tail_spec h1 (tailOk_spec h), hq, Int.sub_mul_emod_self_right]

theorem reduce_bounds : runOk (foldHigh ++ reduceLow) (List.replicate 24 (2 ^ 29)) = true := by decide +kernel

theorem mul_bounds : runOk (mulCarries ++ (foldHigh ++ reduceLow)) (List.replicate 23 (2 ^ 54) ++ [0]) = true := by decide +kernel

theorem scReduce_spec (a : Arr 64) : leNat (scReduce a).toList = leNat a.toList % groupOrder := by
  have h := run_spec _ reduce_bounds (limbs24_fits a)
  have hv : (limbs24 a).val = (leNat a.toList : Int) := limbs24_val a
  rw [hv] at h
  exact_mod_cast h

theorem scMulAdd_spec (a b c : Arr 32) :
    leNat (scMulAdd a b c).toList = (leNat a.toList * leNat b.toList + leNat c.toList) % groupOrder := by
  have ba := limbs12_bound a
  have bb := limbs12_bound b
  have bc := limbs12_bound c
  have h := run_spec _ mul_bounds (mulLimbs_fits ba bb bc)
  rw [mulLimbs_val ba bb bc, limbs12_val, limbs12_val, limbs12_val, runOps_append] at h
  exact_mod_cast h

/-! ### `ScMinimal` -/

theorem word_num (a : Arr 32) (i : Nat) : word a i = leNat a.toList / 2 ^ (64 * i) % 2 ^ 64 := by
  unfold word
  rw [load4_num, load4_num, Nat.or_comm, Nat.shiftLeft_eq, Nat.mul_comm _ (2 ^ 32), ← Nat.two_pow_add_eq_or_of_lt (Nat.mod_lt _ (by norm_num)),
    show 8 * (i * 8 + 4) = 64 * i + 32 by ring, show 8 * (i * 8) = 64 * i by ring, pow_add, ← Nat.div_div_eq_div_mul]
  generalize leNat a.toList / 2 ^ (64 * i) = x
  omega

theorem scMinimal_spec (a : Arr 32) : scMinimal a = true ↔ leNat a.toList < groupOrder := by
  have h := leNat_lt a.toList
  rw [Vector.length_toList, show (256 : Nat) ^ 32 = 2 ^ 256 by norm_num] at h
  have w0 := word_num a 0
  have w1 := word_num a 1
  have w2 := word_num a 2
  have w3 := word_num a 3
  simp only [Nat.mul_zero, Nat.mul_one, Nat.reduceMul, pow_zero, Nat.div_one] at w0 w1 w2 w3
  generalize leNat a.toList = x at *
  have hx : x = word a 0 + 2 ^ 64 * word a 1 + 2 ^ 128 * word a 2 + 2 ^ 192 * word a 3 := by omega
  have b0 : word a 0 < 2 ^ 64 := by omega
  have b1 : word a 1 < 2 ^ 64 := by omega
  have b2 : word a 2 < 2 ^ 64 := by omega
  have b3 : word a 3 < 2 ^ 64 := by omega
  clear w0 w1 w2 w3
  simp only [scMinimal, scMinimalFrom, orderWord]
  generalize word a 0 = u0 at *
  generalize word a 1 = u1 at *
  generalize word a 2 = u2 at *
  generalize word a 3 = u3 at *
  unfold groupOrder
  subst hx
  repeat' split
  all_goals first
    | (simp only [true_iff]; omega)
    | (simp only [Bool.false_eq_true, false_iff]; omega)

end Verif.Ed
