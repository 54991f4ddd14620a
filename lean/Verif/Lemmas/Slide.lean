/-
`slide` keeps the value of the scalar: exactly up to 2^255, and modulo 2^256 in general.
-/
import Verif.Lemmas.ScalarMult

namespace Verif.Ed

/-- The number with `n` digits from index `k` on. -/
def num (r : Digits) : Nat → Nat → Int
  | _, 0 => 0
  | k, n + 1 => r k + 2 * num r (k + 1) n

theorem num_congr {r s : Digits} : ∀ (n k : Nat), (∀ j, k ≤ j → j < k + n → r j = s j) → num r k n = num s k n
  | 0, _, _ => rfl
  | n + 1, k, h => by
    rw [num, num, h k le_rfl (by omega), num_congr n (k + 1) fun j h1 h2 => h j (by omega) (by omega)]

theorem num_append (r : Digits) : ∀ (m n k : Nat), num r k (m + n) = num r k m + 2 ^ m * num r (k + m) n
  | 0, n, k => by simp [num]
  | m + 1, n, k => by
    rw [show m + 1 + n = (m + n) + 1 by omega, num, num, num_append r m n (k + 1),
      show k + (m + 1) = k + 1 + m by omega, pow_succ]
    ring

theorem num_zero {r : Digits} : ∀ (n k : Nat), (∀ j, k ≤ j → j < k + n → r j = 0) → num r k n = 0
  | 0, _, _ => rfl
  | n + 1, k, h => by
    rw [num, h k le_rfl (by omega), num_zero n (k + 1) fun j h1 h2 => h j (by omega) (by omega)]; rfl

/-- All digits from `k` on are bits. -/
def Bits (r : Digits) (k : Nat) : Prop := ∀ j, k ≤ j → j < 256 → r j = 0 ∨ r j = 1

theorem num_bits {r : Digits} : ∀ (n k : Nat), (∀ j, k ≤ j → j < k + n → r j = 0 ∨ r j = 1) →
    0 ≤ num r k n ∧ num r k n < 2 ^ n
  | 0, _, _ => by simp [num]
  | n + 1, k, h => by
    have := num_bits n (k + 1) fun j h1 h2 => h j (by omega) (by omega)
    have h0 := h k le_rfl (by omega)
    rw [num, pow_succ]
    omega

theorem Digits.set_eq (r : Digits) (i : Nat) (v : Int) : r.set i v i = v := by simp [Digits.set]

theorem Digits.set_ne (r : Digits) {i j : Nat} (v : Int) (h : j ≠ i) : r.set i v j = r j := by simp [Digits.set, h]

/-- The carry loop adds one to the digits from `k` on; a carry out of the last digit is lost. -/
theorem slideCarry_spec : ∀ (n k : Nat) (r : Digits), (∀ j, k ≤ j → j < k + n → r j = 0 ∨ r j = 1) →
    (∀ j, j < k ∨ k + n ≤ j → slideCarry n k r j = r j) ∧
    (∀ j, k ≤ j → j < k + n → slideCarry n k r j = 0 ∨ slideCarry n k r j = 1) ∧
    ∃ c : Int, num (slideCarry n k r) k n = num r k n + 1 - c * 2 ^ n ∧ (num r k n + 1 < 2 ^ n → c = 0)
  | 0, k, r, _ => ⟨fun _ _ => rfl, fun j h1 h2 => by omega, 1, by simp [num], by simp [num]⟩
  | n + 1, k, r, h => by
    rcases h k le_rfl (by omega) with h0 | h1
    · have e : slideCarry (n + 1) k r = r.set k 1 := by rw [slideCarry, if_pos h0]
      rw [e]
      refine ⟨fun j hj => Digits.set_ne _ _ (by omega), ?_, 0, ?_, fun _ => rfl⟩
      · intro j h1 h2
        rcases eq_or_ne j k with rfl | hjk
        · right; exact Digits.set_eq ..
        · rw [Digits.set_ne _ _ hjk]; exact h j h1 h2
      · rw [num, num, Digits.set_eq, num_congr (s := r) n (k + 1) fun j h1 _ => Digits.set_ne _ _ (by omega), h0]
        ring
    · have e : slideCarry (n + 1) k r = slideCarry n (k + 1) (r.set k 0) := by
        rw [slideCarry, if_neg (by rw [h1]; decide)]
      have hb : ∀ j, k + 1 ≤ j → j < k + 1 + n → r.set k 0 j = 0 ∨ r.set k 0 j = 1 := by
        intro j h1 h2
        rw [Digits.set_ne _ _ (by omega)]; exact h j (by omega) (by omega)
      obtain ⟨a1, a2, c, a3, a4⟩ := slideCarry_spec n (k + 1) (r.set k 0) hb
      have hk : slideCarry n (k + 1) (r.set k 0) k = 0 := by rw [a1 k (by omega), Digits.set_eq]
      have hn : num (r.set k 0) (k + 1) n = num r (k + 1) n := num_congr n (k + 1) fun j h1 _ => Digits.set_ne _ _ (by omega)
      rw [e]
      refine ⟨fun j hj => ?_, fun j h1 h2 => ?_, c, ?_, ?_⟩
      · rw [a1 j (by omega), Digits.set_ne _ _ (by omega)]
      · rcases eq_or_ne j k with rfl | hjk
        · left; exact hk
        · exact a2 j (by omega) (by omega)
      · rw [num, num, hk, a3, hn, h1, pow_succ]; ring
      · rw [hn] at a4
        rw [num, h1, pow_succ]
        intro h; exact a4 (by omega)

/-- What holds at the start of the round `b` for digit `i`; `U` is the number from digit `i` on at the start. -/
structure Inner (i : Nat) (U : Int) (r0 : Digits) (b : Nat) (r : Digits) : Prop where
  below : ∀ j, j < i → r j = r0 j
  zeros : ∀ j, i < j → j < i + b → j < 256 → r j = 0
  bits : Bits r (i + b)
  odd : r i % 2 = 1
  lo : -15 ≤ r i
  hi : r i ≤ 15
  value : ∃ c : Int, num r i (256 - i) = U - c * 2 ^ (256 - i)
  exact : U ≤ 2 ^ (255 - i) → num r i (256 - i) = U ∧ num r i (256 - i) - r i ≤ 2 ^ (255 - i)

/-- What holds after the loop over `b`. -/
structure Outer (i : Nat) (U : Int) (r0 : Digits) (r : Digits) : Prop where
  below : ∀ j, j < i → r j = r0 j
  bits : Bits r (i + 1)
  odd : r i % 2 = 1
  lo : -15 ≤ r i
  hi : r i ≤ 15
  value : ∃ c : Int, num r i (256 - i) = U - c * 2 ^ (256 - i)
  exact : U ≤ 2 ^ (255 - i) → num r i (256 - i) = U ∧ num r i (256 - i) - r i ≤ 2 ^ (255 - i)

theorem Inner.done {i : Nat} {U : Int} {r0 : Digits} {b : Nat} {r : Digits} (h : Inner i U r0 b r) : Outer i U r0 r := by
  refine ⟨h.below, fun j h1 h2 => ?_, h.odd, h.lo, h.hi, h.value, h.exact⟩
  rcases Nat.lt_or_ge j (i + b) with hj | hj
  · exact .inl (h.zeros j (by omega) hj h2)
  · exact h.bits j hj h2

/-- The number from digit `i` on, with the digits between `i` and `i + b` zero. -/
theorem num_window {r : Digits} {i b : Nat} (hb : 1 ≤ b) (hib : i + b ≤ 256)
    (hz : ∀ j, i < j → j < i + b → j < 256 → r j = 0) :
    num r i (256 - i) = r i + 2 ^ b * num r (i + b) (256 - (i + b)) := by
  have e : 256 - i = b + (256 - (i + b)) := by omega
  rw [e, num_append]
  obtain ⟨b, rfl⟩ : ∃ c, b = c + 1 := ⟨b - 1, by omega⟩
  rw [num, num_zero b (i + 1) fun j h1 h2 => hz j (by omega) (by omega) (by omega)]
  simp

theorem w8_id {x : Int} (h1 : -128 ≤ x) (h2 : x ≤ 127) : w8 x = x := by
  unfold w8
  rw [Int.bmod_eq_of_le] <;> omega

theorem slideInner_spec {i : Nat} {U : Int} {r0 : Digits} (hi : i < 256) : ∀ (n b : Nat) (r : Digits), b + n = 7 → 1 ≤ b →
    Inner i U r0 b r → Outer i U r0 (slideInner i n b r)
  | 0, b, r, _, _, h => h.done
  | n + 1, b, r, hn, hb, h => by
    rw [slideInner]
    split
    · rename_i hib
      have hwin := num_window hb (by omega) h.zeros
      have hbit := h.bits (i + b) le_rfl hib
      have hstep : num r (i + b) (256 - (i + b)) = r (i + b) + 2 * num r (i + b + 1) (256 - (i + (b + 1))) := by
        rw [show 256 - (i + b) = 256 - (i + (b + 1)) + 1 by omega, num]
      have hpow : ∃ q : Int, (2 : Int) ^ b = 2 * q ∧ 1 ≤ q ∧ q ≤ 32 := by
        have : b = 1 ∨ b = 2 ∨ b = 3 ∨ b = 4 ∨ b = 5 ∨ b = 6 := by omega
        rcases this with rfl | rfl | rfl | rfl | rfl | rfl
        · exact ⟨1, by norm_num⟩
        · exact ⟨2, by norm_num⟩
        · exact ⟨4, by norm_num⟩
        · exact ⟨8, by norm_num⟩
        · exact ⟨16, by norm_num⟩
        · exact ⟨32, by norm_num⟩
      have hodd := h.odd
      have hlo := h.lo
      have hhi := h.hi
      split
      · rename_i hne
        have h1 : r (i + b) = 1 := by omega
        obtain ⟨q, hq, hq1, hq2⟩ := hpow
        have e1 : w8 (r (i + b) * 2 ^ b) = 2 ^ b := by rw [h1, one_mul, w8_id] <;> omega
        have e2 : w8 (r i + 2 ^ b) = r i + 2 ^ b := by rw [w8_id] <;> omega
        have e3 : w8 (r i - 2 ^ b) = r i - 2 ^ b := by rw [w8_id] <;> omega
        rw [e1, e2, e3]
        split
        · rename_i hle
          apply slideInner_spec hi n (b + 1) _ (by omega) (by omega)
          have hz' : ∀ j, i < j → j < i + (b + 1) → j < 256 → ((r.set i (r i + 2 ^ b)).set (i + b) 0) j = 0 := by
            intro j h1 h2 h3
            rcases eq_or_ne j (i + b) with rfl | hj
            · exact Digits.set_eq ..
            · rw [Digits.set_ne _ _ hj, Digits.set_ne _ _ (by omega)]; exact h.zeros j h1 (by omega) h3
          have hri : ((r.set i (r i + 2 ^ b)).set (i + b) 0) i = r i + 2 ^ b := by
            rw [Digits.set_ne _ _ (by omega), Digits.set_eq]
          have hnum : num ((r.set i (r i + 2 ^ b)).set (i + b) 0) i (256 - i) = num r i (256 - i) := by
            rw [num_window (b := b + 1) (by omega) (by omega) hz', hri, hwin, hstep, h1,
              num_congr (s := r) _ _ fun j h1 _ => by rw [Digits.set_ne _ _ (by omega), Digits.set_ne _ _ (by omega)],
              show i + (b + 1) = i + b + 1 by omega, pow_succ]
            ring
          refine ⟨fun j hj => ?_, hz', fun j h1 h2 => ?_, ?_, ?_, ?_, ?_, ?_⟩
          · rw [Digits.set_ne _ _ (by omega), Digits.set_ne _ _ (by omega), h.below j hj]
          · rw [Digits.set_ne _ _ (by omega), Digits.set_ne _ _ (by omega)]; exact h.bits j (by omega) h2
          · rw [hri]; omega
          · rw [hri]; omega
          · rw [hri]; omega
          · rw [hnum]; exact h.value
          · rw [hnum, hri]
            intro hU
            obtain ⟨x1, x2⟩ := h.exact hU
            exact ⟨x1, by omega⟩
        · rename_i hgt
          split
          · rename_i hge
            have hb6 : b ≤ 4 := by
              by_contra hb5
              have : b = 5 ∨ b = 6 := by omega
              rcases this with rfl | rfl <;> norm_num at hge <;> omega
            have hpos : 0 < r i := by
              have : b = 1 ∨ b = 2 ∨ b = 3 ∨ b = 4 := by omega
              rcases this with rfl | rfl | rfl | rfl <;> norm_num at hgt <;> omega
            apply slideInner_spec hi n (b + 1) _ (by omega) (by omega)
            have hbits' : ∀ j, i + b ≤ j → j < i + b + (256 - (i + b)) → (r.set i (r i - 2 ^ b)) j = 0 ∨ (r.set i (r i - 2 ^ b)) j = 1 := by
              intro j h1 h2
              rw [Digits.set_ne _ _ (by omega)]; exact h.bits j h1 (by omega)
            obtain ⟨c1, c2, c, c3, c4⟩ := slideCarry_spec (256 - (i + b)) (i + b) (r.set i (r i - 2 ^ b)) hbits'
            have hsame : num (r.set i (r i - 2 ^ b)) (i + b) (256 - (i + b)) = num r (i + b) (256 - (i + b)) :=
              num_congr _ _ fun j h1 _ => Digits.set_ne _ _ (by omega)
            rw [hsame] at c3 c4
            generalize hs : slideCarry (256 - (i + b)) (i + b) (r.set i (r i - 2 ^ b)) = s at *
            have hsi : s i = r i - 2 ^ b := by rw [c1 i (by omega), Digits.set_eq]
            have hsz : ∀ j, i < j → j < i + b → j < 256 → s j = 0 := by
              intro j h1 h2 h3
              rw [c1 j (by omega), Digits.set_ne _ _ (by omega)]; exact h.zeros j h1 h2 h3
            have hsk : s (i + b) = 0 := by
              rw [← hs, show 256 - (i + b) = 255 - (i + b) + 1 by omega, slideCarry, Digits.set_ne _ _ (by omega), h1,
                if_neg (by decide)]
              have := (slideCarry_spec (255 - (i + b)) (i + b + 1) ((r.set i (r i - 2 ^ b)).set (i + b) 0) (by
                intro j h1 h2
                rw [Digits.set_ne _ _ (by omega)]; exact hbits' j (by omega) (by omega))).1 (i + b) (by omega)
              rw [this, Digits.set_eq]
            have hwin' := num_window hb (by omega) hsz
            have hpp : (2 : Int) ^ (256 - i) = 2 ^ b * 2 ^ (256 - (i + b)) := by rw [← pow_add]; congr 1; omega
            have hval : num s i (256 - i) = num r i (256 - i) - c * 2 ^ (256 - i) := by
              rw [hwin', hwin, hsi, c3, hpp]; ring
            refine ⟨fun j hj => ?_, fun j h1 h2 h3 => ?_, fun j h1 h2 => ?_, ?_, ?_, ?_, ?_, ?_⟩
            · rw [c1 j (by omega), Digits.set_ne _ _ (by omega), h.below j hj]
            · rcases eq_or_ne j (i + b) with rfl | hj
              · exact hsk
              · exact hsz j h1 (by omega) h3
            · exact c2 j (by omega) (by omega)
            · rw [hsi]; omega
            · rw [hsi]; omega
            · rw [hsi]; omega
            · obtain ⟨c', hc'⟩ := h.value
              exact ⟨c' + c, by rw [hval, hc']; ring⟩
            · intro hU
              obtain ⟨x1, x2⟩ := h.exact hU
              have hp1 : (2 : Int) ^ (255 - i) = 2 ^ b * 2 ^ (255 - (i + b)) := by rw [← pow_add]; congr 1; omega
              have hp2 : (2 : Int) ^ (256 - (i + b)) = 2 * 2 ^ (255 - (i + b)) := by rw [← pow_succ']; congr 1; omega
              have hlt : num r (i + b) (256 - (i + b)) < 2 ^ (255 - (i + b)) := by
                have : 2 ^ b * num r (i + b) (256 - (i + b)) < 2 ^ b * 2 ^ (255 - (i + b)) := by rw [← hp1]; omega
                exact lt_of_mul_lt_mul_left this (by positivity)
              have hc : c = 0 := by
                apply c4
                have : (0 : Int) < 2 ^ (255 - (i + b)) := by positivity
                omega
              rw [hc, zero_mul, sub_zero] at hval
              refine ⟨by rw [hval, x1], ?_⟩
              rw [hc, zero_mul, sub_zero] at c3
              rw [hwin', c3, hp1, add_sub_cancel_left]
              exact mul_le_mul_of_nonneg_left (by omega) (by positivity)
          · exact h.done
      · rename_i h0
        have h0 : r (i + b) = 0 := by omega
        apply slideInner_spec hi n (b + 1) _ (by omega) (by omega)
        refine ⟨h.below, fun j h1 h2 h3 => ?_, fun j h1 h2 => h.bits j (by omega) h2, h.odd, h.lo, h.hi, h.value, h.exact⟩
        rcases eq_or_ne j (i + b) with rfl | hj
        · exact h0
        · exact h.zeros j h1 (by omega) h3
    · exact h.done

/-- A digit of the sliding window form. -/
def IsDigit (x : Int) : Prop := x = 0 ∨ (x % 2 = 1 ∧ -15 ≤ x ∧ x ≤ 15)

theorem slideOuter_spec (A : Int) : ∀ (n i : Nat) (r : Digits), i + n = 256 → (∀ j, j < i → IsDigit (r j)) → Bits r i →
    (∃ c : Int, num r 0 256 = A - c * 2 ^ 256) →
    (A ≤ 2 ^ 255 → num r 0 256 = A ∧ 2 ^ i * num r i (256 - i) ≤ 2 ^ 255) →
    (∀ j, j < 256 → IsDigit (slideOuter n i r j)) ∧ (∃ c : Int, num (slideOuter n i r) 0 256 = A - c * 2 ^ 256) ∧
      (A ≤ 2 ^ 255 → num (slideOuter n i r) 0 256 = A)
  | 0, i, r, hn, hd, _, hv, he => ⟨fun j hj => hd j (by omega), hv, fun h => (he h).1⟩
  | n + 1, i, r, hn, hd, hb, hv, he => by
    rw [slideOuter]
    have hsplit : ∀ s : Digits, num s 0 256 = num s 0 i + 2 ^ i * num s i (256 - i) := by
      intro s
      have := num_append s i (256 - i) 0
      rwa [show i + (256 - i) = 256 by omega, Nat.zero_add] at this
    have htail : ∀ s : Digits, num s i (256 - i) = s i + 2 * num s (i + 1) (256 - (i + 1)) := by
      intro s
      rw [show 256 - i = 256 - (i + 1) + 1 by omega, num]
    split
    · rename_i hne
      have h1 : r i = 1 := by have := hb i le_rfl (by omega); omega
      have hin : Inner i (num r i (256 - i)) r 1 r :=
        ⟨fun _ _ => rfl, fun j h1 h2 _ => by omega, fun j h1 h2 => hb j (by omega) h2, by rw [h1]; rfl, by omega, by omega,
          ⟨0, by ring⟩, fun h => ⟨rfl, by omega⟩⟩
      have ho := slideInner_spec (by omega) 6 1 r (by omega) le_rfl hin
      generalize slideInner i 6 1 r = s at *
      have hlow : num s 0 i = num r 0 i := num_congr i 0 fun j _ h2 => ho.below j (by omega)
      apply slideOuter_spec A n (i + 1) s (by omega)
      · intro j hj
        rcases eq_or_ne j i with rfl | hji
        · exact .inr ⟨ho.odd, ho.lo, ho.hi⟩
        · rw [ho.below j (by omega)]; exact hd j (by omega)
      · exact ho.bits
      · obtain ⟨c, hc⟩ := hv
        obtain ⟨c', hc'⟩ := ho.value
        refine ⟨c + c', ?_⟩
        have hp : (2 : Int) ^ 256 = 2 ^ i * 2 ^ (256 - i) := by rw [← pow_add]; congr 1; omega
        rw [hsplit, hlow, hc', add_mul, ← sub_sub, ← hc, hsplit r]
        rw [hp]; ring
      · intro hA
        obtain ⟨x1, x2⟩ := he hA
        have hp : (2 : Int) ^ 255 = 2 ^ i * 2 ^ (255 - i) := by rw [← pow_add]; congr 1; omega
        have hU : num r i (256 - i) ≤ 2 ^ (255 - i) := by
          rw [hp] at x2
          exact le_of_mul_le_mul_left x2 (by positivity)
        obtain ⟨y1, y2⟩ := ho.exact hU
        refine ⟨by rw [hsplit, hlow, y1, ← hsplit, x1], ?_⟩
        rw [htail s, add_sub_cancel_left] at y2
        rw [hp, pow_succ, mul_assoc]
        exact mul_le_mul_of_nonneg_left y2 (by positivity)
    · rename_i h0
      have h0 : r i = 0 := by omega
      apply slideOuter_spec A n (i + 1) r (by omega)
      · intro j hj
        rcases eq_or_ne j i with rfl | hji
        · exact .inl h0
        · exact hd j (by omega)
      · exact fun j h1 h2 => hb j (by omega) h2
      · exact hv
      · intro hA
        obtain ⟨x1, x2⟩ := he hA
        refine ⟨x1, ?_⟩
        rw [htail, h0, zero_add, ← mul_assoc, ← pow_succ] at x2
        exact x2

/-! ### The bits of the scalar -/

def listBit (l : Bytes) (i : Nat) : Int := ((1 &&& (l.getD (i / 8) 0 >>> UInt8.ofNat (i % 8))).toNat : Int)

theorem byte_bits : ∀ v : UInt8, num (fun i => ((1 &&& (v >>> UInt8.ofNat i)).toNat : Int)) 0 8 = (v.toNat : Int) :=
  forall_byte (by decide +kernel)

theorem num_shift (r : Digits) (m : Nat) : ∀ (n k : Nat), num r (k + m) n = num (fun i => r (i + m)) k n
  | 0, _ => rfl
  | n + 1, k => by rw [num, num, show k + m + 1 = k + 1 + m by omega, num_shift r m n (k + 1)]

theorem num_listBit : ∀ l : Bytes, num (listBit l) 0 (8 * l.length) = (leNat l : Int)
  | [] => rfl
  | v :: l => by
    rw [List.length_cons, show 8 * (l.length + 1) = 8 + 8 * l.length by omega, num_append, num_shift]
    have e1 : num (listBit (v :: l)) 0 8 = (v.toNat : Int) := by
      rw [← byte_bits v]
      apply num_congr
      intro j _ hj
      unfold listBit
      rw [show j / 8 = 0 by omega, show j % 8 = j by omega, List.getD_cons_zero]
    have e2 : (fun i => listBit (v :: l) (i + 8)) = listBit l := by
      funext i
      unfold listBit
      rw [show (i + 8) / 8 = i / 8 + 1 by omega, show (i + 8) % 8 = i % 8 by omega, List.getD_cons_succ]
    rw [e1, e2, num_listBit l, leNat_head]
    push_cast; ring

theorem bit_01 : ∀ v : UInt8, ∀ i : Fin 8, ((1 &&& (v >>> UInt8.ofNat i.val)).toNat : Int) = 0 ∨
    ((1 &&& (v >>> UInt8.ofNat i.val)).toNat : Int) = 1 := forall_byte (by decide +kernel)

theorem slide_spec (a : Arr 32) :
    (∀ j, j < 256 → IsDigit (slide a j)) ∧ (∃ c : Int, num (slide a) 0 256 = leNat a.toList - c * 2 ^ 256) ∧
      (leNat a.toList ≤ 2 ^ 255 → num (slide a) 0 256 = leNat a.toList) := by
  have hnum : num (fun i => if i < 256 then bitOf a i else 0) 0 256 = (leNat a.toList : Int) := by
    rw [← num_listBit, Vector.length_toList]
    apply num_congr
    intro j _ hj
    simp only [if_pos (show j < 256 by omega)]
    rfl
  have hbits : Bits (fun i => if i < 256 then bitOf a i else 0) 0 := by
    intro j _ hj
    simp only [if_pos hj]
    exact bit_01 _ ⟨j % 8, by omega⟩
  have := slideOuter_spec (leNat a.toList) 256 0 _ rfl (fun j hj => by omega) hbits ⟨0, by rw [hnum]; ring⟩
    (fun h => ⟨hnum, by rw [pow_zero, one_mul, hnum]; exact h⟩)
  refine ⟨this.1, this.2.1, fun h => this.2.2 ?_⟩
  exact_mod_cast h

end Verif.Ed
