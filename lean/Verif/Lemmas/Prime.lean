/-
2^255 - 19 is prime (a tree of Lucas certificates; the powers are evaluated by the kernel).
-/
import Verif.Lemmas.FieldCombine
import Mathlib.NumberTheory.LucasPrimality
import Mathlib.Tactic.NormNum.Prime

namespace Verif.Ed

/-- `a ^ e % m` by repeated squaring. -/
def powMod (m : Nat) : (fuel : Nat) → (a e : Nat) → Nat
  | 0, _, _ => 1 % m
  | fuel + 1, a, e =>
    if e = 0 then 1 % m
    else if e % 2 = 1 then a * powMod m fuel (a * a % m) (e / 2) % m else powMod m fuel (a * a % m) (e / 2)

theorem powMod_eq (m fuel a e : Nat) (h : e < 2 ^ fuel) : powMod m fuel a e = a ^ e % m := by
  induction fuel generalizing a e with
  | zero =>
    obtain rfl : e = 0 := by simpa using h
    simp [powMod]
  | succ fuel ih =>
    rw [powMod]
    split
    · rename_i h0; simp [h0]
    · have hlt : e / 2 < 2 ^ fuel := by rw [Nat.pow_succ] at h; omega
      have hsq : (a * a % m) ^ (e / 2) % m = a ^ (2 * (e / 2)) % m := by
        rw [← Nat.pow_mod, pow_mul, pow_two]
      rw [ih _ _ hlt, hsq]
      split
      · rw [Nat.mul_mod_mod, ← pow_succ']
        congr 2; omega
      · congr 2; omega

theorem lucas_nat (n a : Nat) (fs : List Nat) (hfs : ∀ q ∈ fs, Nat.Prime q) (hprod : fs.prod = n - 1)
    (hn : 1 < n ∧ n < 2 ^ 256) (h1 : powMod n 256 a (n - 1) = 1) (hq : ∀ q ∈ fs, powMod n 256 a ((n - 1) / q) ≠ 1) :
    Nat.Prime n := by
  have hpow : ∀ e, ((a : ZMod n)) ^ e = ((a ^ e % n : Nat) : ZMod n) := by
    intro e; rw [ZMod.natCast_mod]; push_cast; rfl
  refine lucas_primality n (a : ZMod n) ?_ ?_
  · rw [hpow, ← powMod_eq n 256 a (n - 1) (by omega), h1]; simp
  · intro q hqp hdvd
    rw [← hprod, Prime.dvd_prod_iff hqp.prime] at hdvd
    obtain ⟨r, hr, hdvd⟩ := hdvd
    obtain rfl := (Nat.prime_dvd_prime_iff_eq hqp (hfs r hr)).mp hdvd
    rw [hpow, ← powMod_eq n 256 a ((n - 1) / q) (lt_of_le_of_lt (Nat.div_le_self _ _) (by omega))]
    intro h
    have h2 : ((powMod n 256 a ((n - 1) / q) : Nat) : ZMod n) = ((1 : Nat) : ZMod n) := by rw [h]; simp
    rw [ZMod.natCast_eq_natCast_iff, Nat.ModEq, Nat.mod_eq_of_lt hn.1] at h2
    apply hq q hr
    rw [powMod_eq n 256 a _ (lt_of_le_of_lt (Nat.div_le_self _ _) (by omega))] at h2 ⊢
    rwa [Nat.mod_mod] at h2

theorem prime_32573 : Nat.Prime 32573 := by
  refine lucas_nat 32573 2 [2, 2, 17, 479] ?_ (by decide +kernel) (by decide +kernel) (by decide +kernel) (by decide +kernel)
  simp only [List.forall_mem_cons, List.not_mem_nil, false_imp_iff, implies_true, and_true]
  exact ⟨by norm_num, by norm_num, by norm_num, by norm_num⟩

theorem prime_65147 : Nat.Prime 65147 := by
  refine lucas_nat 65147 2 [2, 32573] ?_ (by decide +kernel) (by decide +kernel) (by decide +kernel) (by decide +kernel)
  simp only [List.forall_mem_cons, List.not_mem_nil, false_imp_iff, implies_true, and_true]
  exact ⟨by norm_num, prime_32573⟩

theorem prime_57467 : Nat.Prime 57467 := by
  refine lucas_nat 57467 2 [2, 59, 487] ?_ (by decide +kernel) (by decide +kernel) (by decide +kernel) (by decide +kernel)
  simp only [List.forall_mem_cons, List.not_mem_nil, false_imp_iff, implies_true, and_true]
  exact ⟨by norm_num, by norm_num, by norm_num⟩

theorem prime_132049 : Nat.Prime 132049 := by
  refine lucas_nat 132049 26 [2, 2, 2, 2, 3, 3, 7, 131] ?_ (by decide +kernel) (by decide +kernel) (by decide +kernel) (by decide +kernel)
  simp only [List.forall_mem_cons, List.not_mem_nil, false_imp_iff, implies_true, and_true]
  exact ⟨by norm_num, by norm_num, by norm_num, by norm_num, by norm_num, by norm_num, by norm_num, by norm_num⟩

theorem prime_3727 : Nat.Prime 3727 := by
  refine lucas_nat 3727 3 [2, 3, 3, 3, 3, 23] ?_ (by decide +kernel) (by decide +kernel) (by decide +kernel) (by decide +kernel)
  simp only [List.forall_mem_cons, List.not_mem_nil, false_imp_iff, implies_true, and_true]
  exact ⟨by norm_num, by norm_num, by norm_num, by norm_num, by norm_num, by norm_num⟩

theorem prime_1923133 : Nat.Prime 1923133 := by
  refine lucas_nat 1923133 2 [2, 2, 3, 43, 3727] ?_ (by decide +kernel) (by decide +kernel) (by decide +kernel) (by decide +kernel)
  simp only [List.forall_mem_cons, List.not_mem_nil, false_imp_iff, implies_true, and_true]
  exact ⟨by norm_num, by norm_num, by norm_num, by norm_num, prime_3727⟩

theorem prime_4153 : Nat.Prime 4153 := by
  refine lucas_nat 4153 5 [2, 2, 2, 3, 173] ?_ (by decide +kernel) (by decide +kernel) (by decide +kernel) (by decide +kernel)
  simp only [List.forall_mem_cons, List.not_mem_nil, false_imp_iff, implies_true, and_true]
  exact ⟨by norm_num, by norm_num, by norm_num, by norm_num, by norm_num⟩

theorem prime_1723 : Nat.Prime 1723 := by
  refine lucas_nat 1723 3 [2, 3, 7, 41] ?_ (by decide +kernel) (by decide +kernel) (by decide +kernel) (by decide +kernel)
  simp only [List.forall_mem_cons, List.not_mem_nil, false_imp_iff, implies_true, and_true]
  exact ⟨by norm_num, by norm_num, by norm_num, by norm_num⟩

theorem prime_430751 : Nat.Prime 430751 := by
  refine lucas_nat 430751 17 [2, 5, 5, 5, 1723] ?_ (by decide +kernel) (by decide +kernel) (by decide +kernel) (by decide +kernel)
  simp only [List.forall_mem_cons, List.not_mem_nil, false_imp_iff, implies_true, and_true]
  exact ⟨by norm_num, by norm_num, by norm_num, by norm_num, prime_1723⟩

theorem prime_31757755568855353 : Nat.Prime 31757755568855353 := by
  refine lucas_nat 31757755568855353 10 [2, 2, 2, 3, 31, 107, 223, 4153, 430751] ?_ (by decide +kernel) (by decide +kernel) (by decide +kernel) (by decide +kernel)
  simp only [List.forall_mem_cons, List.not_mem_nil, false_imp_iff, implies_true, and_true]
  exact ⟨by norm_num, by norm_num, by norm_num, by norm_num, by norm_num, by norm_num, by norm_num, prime_4153, prime_430751⟩

theorem prime_9463 : Nat.Prime 9463 := by
  refine lucas_nat 9463 3 [2, 3, 19, 83] ?_ (by decide +kernel) (by decide +kernel) (by decide +kernel) (by decide +kernel)
  simp only [List.forall_mem_cons, List.not_mem_nil, false_imp_iff, implies_true, and_true]
  exact ⟨by norm_num, by norm_num, by norm_num, by norm_num⟩

theorem prime_37853 : Nat.Prime 37853 := by
  refine lucas_nat 37853 2 [2, 2, 9463] ?_ (by decide +kernel) (by decide +kernel) (by decide +kernel) (by decide +kernel)
  simp only [List.forall_mem_cons, List.not_mem_nil, false_imp_iff, implies_true, and_true]
  exact ⟨by norm_num, by norm_num, prime_9463⟩

theorem prime_75707 : Nat.Prime 75707 := by
  refine lucas_nat 75707 2 [2, 37853] ?_ (by decide +kernel) (by decide +kernel) (by decide +kernel) (by decide +kernel)
  simp only [List.forall_mem_cons, List.not_mem_nil, false_imp_iff, implies_true, and_true]
  exact ⟨by norm_num, prime_37853⟩

theorem prime_2437 : Nat.Prime 2437 := by
  refine lucas_nat 2437 2 [2, 2, 3, 7, 29] ?_ (by decide +kernel) (by decide +kernel) (by decide +kernel) (by decide +kernel)
  simp only [List.forall_mem_cons, List.not_mem_nil, false_imp_iff, implies_true, and_true]
  exact ⟨by norm_num, by norm_num, by norm_num, by norm_num, by norm_num⟩

theorem prime_569003 : Nat.Prime 569003 := by
  refine lucas_nat 569003 2 [2, 7, 97, 419] ?_ (by decide +kernel) (by decide +kernel) (by decide +kernel) (by decide +kernel)
  simp only [List.forall_mem_cons, List.not_mem_nil, false_imp_iff, implies_true, and_true]
  exact ⟨by norm_num, by norm_num, by norm_num, by norm_num⟩

theorem prime_2773320623 : Nat.Prime 2773320623 := by
  refine lucas_nat 2773320623 5 [2, 2437, 569003] ?_ (by decide +kernel) (by decide +kernel) (by decide +kernel) (by decide +kernel)
  simp only [List.forall_mem_cons, List.not_mem_nil, false_imp_iff, implies_true, and_true]
  exact ⟨by norm_num, prime_2437, prime_569003⟩

theorem prime_72106336199 : Nat.Prime 72106336199 := by
  refine lucas_nat 72106336199 7 [2, 13, 2773320623] ?_ (by decide +kernel) (by decide +kernel) (by decide +kernel) (by decide +kernel)
  simp only [List.forall_mem_cons, List.not_mem_nil, false_imp_iff, implies_true, and_true]
  exact ⟨by norm_num, by norm_num, prime_2773320623⟩

theorem prime_8574133 : Nat.Prime 8574133 := by
  refine lucas_nat 8574133 2 [2, 2, 3, 7, 103, 991] ?_ (by decide +kernel) (by decide +kernel) (by decide +kernel) (by decide +kernel)
  simp only [List.forall_mem_cons, List.not_mem_nil, false_imp_iff, implies_true, and_true]
  exact ⟨by norm_num, by norm_num, by norm_num, by norm_num, by norm_num, by norm_num⟩

theorem prime_1919519569386763 : Nat.Prime 1919519569386763 := by
  refine lucas_nat 1919519569386763 2 [2, 3, 7, 19, 47, 47, 127, 8574133] ?_ (by decide +kernel) (by decide +kernel) (by decide +kernel) (by decide +kernel)
  simp only [List.forall_mem_cons, List.not_mem_nil, false_imp_iff, implies_true, and_true]
  exact ⟨by norm_num, by norm_num, by norm_num, by norm_num, by norm_num, by norm_num, by norm_num, prime_8574133⟩

theorem prime_75445702479781427272750846543864801 : Nat.Prime 75445702479781427272750846543864801 := by
  refine lucas_nat 75445702479781427272750846543864801 7 [2, 2, 2, 2, 2, 3, 3, 5, 5, 75707, 72106336199, 1919519569386763] ?_ (by decide +kernel) (by decide +kernel) (by decide +kernel) (by decide +kernel)
  simp only [List.forall_mem_cons, List.not_mem_nil, false_imp_iff, implies_true, and_true]
  exact ⟨by norm_num, by norm_num, by norm_num, by norm_num, by norm_num, by norm_num, by norm_num, by norm_num, by norm_num, prime_75707, prime_72106336199, prime_1919519569386763⟩

theorem prime_74058212732561358302231226437062788676166966415465897661863160754340907 : Nat.Prime 74058212732561358302231226437062788676166966415465897661863160754340907 := by
  refine lucas_nat 74058212732561358302231226437062788676166966415465897661863160754340907 2 [2, 3, 353, 57467, 132049, 1923133, 31757755568855353, 75445702479781427272750846543864801] ?_ (by decide +kernel) (by decide +kernel) (by decide +kernel) (by decide +kernel)
  simp only [List.forall_mem_cons, List.not_mem_nil, false_imp_iff, implies_true, and_true]
  exact ⟨by norm_num, by norm_num, by norm_num, prime_57467, prime_132049, prime_1923133, prime_31757755568855353, prime_75445702479781427272750846543864801⟩

theorem p_prime : Nat.Prime p := by
  refine lucas_nat p 2 [2, 2, 3, 65147, 74058212732561358302231226437062788676166966415465897661863160754340907] ?_ (by decide +kernel) (by decide +kernel) (by decide +kernel) (by decide +kernel)
  simp only [List.forall_mem_cons, List.not_mem_nil, false_imp_iff, implies_true, and_true]
  exact ⟨by norm_num, by norm_num, by norm_num, prime_65147, prime_74058212732561358302231226437062788676166966415465897661863160754340907⟩


end Verif.Ed
