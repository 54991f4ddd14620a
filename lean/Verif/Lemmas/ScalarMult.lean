/-
`selectPoint` and `GeScalarMultBase`.
-/
import Verif.Lemmas.Tables
import Verif.Lemmas.Encode
import Verif.Model.ScalarMult
import Verif.Props.Field

namespace Verif.Ed
open Verif.Props (IsInt32 C62_cmove)

/-! ### Branch-free selection -/

theorem ofInt_toInt {b : Int} (h : -2 ^ 31 ≤ b ∧ b < 2 ^ 31) : (BitVec.ofInt 32 b).toInt = b := by
  rw [BitVec.toInt_ofInt]; exact Int.bmod_eq_of_le (by omega) (by omega)

theorem negative_eq {b : Int} (h : -2 ^ 31 ≤ b ∧ b < 2 ^ 31) : negative b = if b < 0 then 1 else 0 := by
  unfold negative
  have e : ((BitVec.ofInt 32 b).sshiftRight 31).toInt = b / 2 ^ 31 := by
    rw [BitVec.toInt_sshiftRight, ofInt_toInt h, Int.shiftRight_eq_div_pow]; rfl
  split
  · have : (BitVec.ofInt 32 b).sshiftRight 31 = BitVec.allOnes 32 := BitVec.toInt_inj.1 (by rw [e]; show _ = (-1 : Int); omega)
    rw [this]; rfl
  · have : (BitVec.ofInt 32 b).sshiftRight 31 = 0#32 := BitVec.toInt_inj.1 (by rw [e]; simp; omega)
    rw [this]; rfl

theorem sub_double (x : BitVec 32) : x - x <<< 1 = -x := by
  apply BitVec.eq_of_toNat_eq
  simp only [BitVec.toNat_sub, BitVec.toNat_shiftLeft, BitVec.toNat_neg, Nat.shiftLeft_eq]
  have := x.isLt
  omega

theorem absOf_eq {b : Int} (h : -2 ^ 31 < b ∧ b < 2 ^ 31) : absOf b (negative b) = |b| := by
  rw [negative_eq (by omega)]
  unfold absOf
  split
  · rename_i hb
    rw [show (-(BitVec.ofInt 32 1)) = BitVec.allOnes 32 from rfl, BitVec.allOnes_and, sub_double, BitVec.toInt_neg,
      ofInt_toInt (by omega), abs_of_neg hb]
    exact Int.bmod_eq_of_le (by omega) (by omega)
  · rename_i hb
    rw [show (-(BitVec.ofInt 32 0)) = 0#32 from rfl, BitVec.zero_and, BitVec.zero_shiftLeft, BitVec.sub_zero,
      ofInt_toInt (by omega), abs_of_nonneg (by omega)]

theorem ofInt_toNat {b : Int} (h : 0 ≤ b ∧ b < 2 ^ 31) : (BitVec.ofInt 32 b).toNat = b.toNat := by
  rw [BitVec.toNat_ofInt]; congr 1; omega

theorem equal_eq {b c : Int} (hb : 0 ≤ b ∧ b < 2 ^ 31) (hc : 0 ≤ c ∧ c < 2 ^ 31) : equal b c = if b = c then 1 else 0 := by
  unfold equal
  split
  · rename_i h; subst h; rw [BitVec.xor_self]; rfl
  · rename_i h
    generalize hx : BitVec.ofInt 32 b ^^^ BitVec.ofInt 32 c = x
    have h1 : x.toNat < 2 ^ 31 := by
      rw [← hx, BitVec.toNat_xor, ofInt_toNat hb, ofInt_toNat hc]
      exact Nat.xor_lt_two_pow (by omega) (by omega)
    have h2 : x.toNat ≠ 0 := by
      intro h0
      have h0 : x = 0#32 := BitVec.eq_of_toNat_eq h0
      rw [← hx, BitVec.xor_eq_zero_iff] at h0
      have := congrArg BitVec.toInt h0
      rw [ofInt_toInt (by omega), ofInt_toInt (by omega)] at this
      exact h this
    have : (x - 1) >>> 31 = 0#32 := by
      apply BitVec.eq_of_toNat_eq
      rw [BitVec.toNat_ushiftRight, BitVec.toNat_sub, Nat.shiftRight_eq_div_pow]
      have : (1 : BitVec 32).toNat = 1 := rfl
      rw [this]
      show _ = 0
      omega
    rw [this]; rfl

theorem Fe.Small.int32 {f : Fe} (h : f.Small) : IsInt32 f := h.mono (by norm_num) (by norm_num)

theorem preCMove_spec {t u : Pre} (ht : t.Bounded) (hu : u.Bounded) : preCMove t u 0 = t ∧ preCMove t u 1 = u := by
  obtain ⟨a1, a2⟩ := C62_cmove t.yPlusX u.yPlusX (Fe.Small.int32 ht.plus) (Fe.Small.int32 hu.plus)
  obtain ⟨b1, b2⟩ := C62_cmove t.yMinusX u.yMinusX (Fe.Small.int32 ht.minus) (Fe.Small.int32 hu.minus)
  obtain ⟨c1, c2⟩ := C62_cmove t.xy2d u.xy2d (Fe.Small.int32 ht.xy) (Fe.Small.int32 hu.xy)
  unfold preCMove
  rw [a1, a2, b1, b2, c1, c2]
  exact ⟨rfl, rfl⟩

theorem fold_select (tbl : Fin 8 → Pre) (hb : ∀ i, (tbl i).Bounded) {c : Int} (hc : 0 ≤ c ∧ c < 2 ^ 31) :
    ∀ (l : List (Fin 8)) (t : Pre), t.Bounded →
      (∃ i : Fin 8, c = i.val + 1 ∧ l.foldl (fun t i => preCMove t (tbl i) (equal c (i.val + 1))) t = tbl i) ∨
      ((∀ i ∈ l, c ≠ i.val + 1) ∧ l.foldl (fun t i => preCMove t (tbl i) (equal c (i.val + 1))) t = t) := by
  intro l
  induction l with
  | nil => intro t _; exact .inr ⟨fun _ h => absurd h (List.not_mem_nil), rfl⟩
  | cons a l ih =>
    intro t ht
    have he : equal c (a.val + 1) = if c = a.val + 1 then 1 else 0 := equal_eq hc (by omega)
    rw [List.foldl_cons, he]
    by_cases h : c = a.val + 1
    · rw [if_pos h, (preCMove_spec ht (hb a)).2]
      rcases ih (tbl a) (hb a) with h1 | ⟨_, h2⟩
      · exact .inl h1
      · exact .inl ⟨a, h, h2⟩
    · rw [if_neg h, (preCMove_spec ht (hb a)).1]
      rcases ih t ht with h1 | ⟨h1, h2⟩
      · exact .inl h1
      · refine .inr ⟨fun i hi => ?_, h2⟩
        rcases List.mem_cons.1 hi with rfl | hi
        · exact h
        · exact h1 i hi

theorem Pre.neg_spec {t : Pre} {P : Point} (hb : t.Bounded) (h : t.Is P) :
    (⟨t.yMinusX, t.yPlusX, feNeg t.xy2d⟩ : Pre).Bounded ∧ (⟨t.yMinusX, t.yPlusX, feNeg t.xy2d⟩ : Pre).Is (-P) := by
  obtain ⟨b, v⟩ := feNeg_spec hb.xy (by norm_num) (by norm_num)
  refine ⟨⟨hb.minus, hb.plus, b⟩, ?_, ?_, ?_⟩
  · show t.yMinusX.val = P.y + -P.x
    rw [h.minus]; ring
  · show t.yPlusX.val = P.y - -P.x
    rw [h.plus]; ring
  · show (feNeg t.xy2d).val = 2 * d * -P.x * P.y
    rw [v, h.xy]; ring

theorem selectPoint_spec (pos : Fin 32) (b : Int) (h : -2 ^ 31 < b ∧ b < 2 ^ 31) :
    (selectPoint pos b).Bounded ∧
    (selectPoint pos b).Is ((if |b| ≤ 8 then b else 0) • 256 ^ pos.val • base) := by
  have habs := absOf_eq h
  have hneg := negative_eq (b := b) (by omega)
  have hb : ∀ i, (baseEntry pos i).Bounded := fun i => (baseTable_spec pos i pos.isLt i.isLt).1
  unfold selectPoint
  extract_lets bNegative bAbs t0 minusT
  have e1 : bNegative = if b < 0 then 1 else 0 := hneg
  have e2 : bAbs = |b| := habs
  have hc : 0 ≤ |b| ∧ |b| < 2 ^ 31 := ⟨abs_nonneg b, abs_lt.2 (by omega)⟩
  have hsel := fold_select (baseEntry pos) hb hc (List.finRange 8) Pre.zero Pre.zero_spec.1
  rw [← e2] at hsel
  change (∃ i : Fin 8, bAbs = i.val + 1 ∧ t0 = baseEntry pos i) ∨ ((∀ i ∈ List.finRange 8, bAbs ≠ i.val + 1) ∧ t0 = Pre.zero) at hsel
  rw [e2] at hsel
  rw [e1, show minusT = ⟨t0.yMinusX, t0.yPlusX, feNeg t0.xy2d⟩ from rfl]
  clear_value t0
  clear minusT
  generalize t0 = t at hsel ⊢
  have hres : t.Bounded ∧ t.Is ((if |b| ≤ 8 then |b| else 0) • 256 ^ pos.val • base) := by
    rcases hsel with ⟨i, hi, rfl⟩ | ⟨hi, rfl⟩
    · obtain ⟨h1, h2⟩ := baseTable_spec pos i pos.isLt i.isLt
      refine ⟨h1, ?_⟩
      rw [if_pos (by omega), hi, show ((i.val : Int) + 1) = ((i.val + 1 : Nat) : Int) by push_cast; rfl, natCast_zsmul, smul_smul]
      exact h2
    · have : (if |b| ≤ 8 then |b| else 0) = 0 := by
        split
        · rename_i h8
          by_contra hne
          have h1 : 0 < |b| := lt_of_le_of_ne hc.1 (Ne.symm hne)
          have := hi ⟨(|b|).toNat - 1, by omega⟩ (List.mem_finRange _)
          simp only at this
          omega
        · rfl
      rw [this, zero_zsmul]
      exact Pre.zero_spec
  obtain ⟨g1, g2⟩ := Pre.neg_spec hres.1 hres.2
  split
  · rename_i hlt
    rw [(preCMove_spec hres.1 g1).2]
    refine ⟨g1, ?_⟩
    have e : (if |b| ≤ 8 then b else 0) = -(if |b| ≤ 8 then |b| else 0) := by
      split
      · rw [abs_of_neg hlt, neg_neg]
      · rfl
    rw [e, neg_zsmul]; exact g2
  · rename_i hlt
    rw [(preCMove_spec hres.1 g1).1]
    refine ⟨hres.1, ?_⟩
    rw [abs_of_nonneg (by omega)] at hres
    rw [abs_of_nonneg (by omega)]; exact hres.2

/-! ### Recoding -/

/-- The number that signed hexadecimal digits stand for, least significant first. -/
def hexVal : List Int → Int
  | [] => 0
  | x :: xs => x + 16 * hexVal xs

theorem w8_eq {x : Int} (h : -128 ≤ x ∧ x ≤ 127) : w8 x = x := Int.bmod_eq_of_le (by omega) (by omega)

theorem recode_length : ∀ (l : List Int) (c : Int), (recode c l).length = l.length
  | [], _ => rfl
  | [_], _ => rfl
  | x :: y :: xs, c => by rw [recode, List.length_cons, recode_length (y :: xs)]; rfl

theorem recode_spec : ∀ (l : List Int) (c : Int), l ≠ [] → (∀ x ∈ l, 0 ≤ x ∧ x ≤ 15) → 0 ≤ c ∧ c ≤ 1 →
    hexVal (recode c l) = hexVal l + c ∧
    (∀ i, i + 1 < l.length → -8 ≤ (recode c l).getD i 0 ∧ (recode c l).getD i 0 ≤ 7) ∧
    l.getD (l.length - 1) 0 ≤ (recode c l).getD (l.length - 1) 0 ∧
    (recode c l).getD (l.length - 1) 0 ≤ l.getD (l.length - 1) 0 + 1
  | [], _, h, _, _ => absurd rfl h
  | [x], c, _, hx, hc => by
    have h1 := hx x (List.mem_singleton_self x)
    rw [recode, w8_eq (by omega)]
    refine ⟨by simp [hexVal], fun i hi => by simp at hi, ?_, ?_⟩ <;> simp <;> omega
  | x :: y :: xs, c, _, hx, hc => by
    have h1 := hx x List.mem_cons_self
    have hr : recode c (x :: y :: xs) = (x + c - 16 * ((x + c + 8) / 16)) :: recode ((x + c + 8) / 16) (y :: xs) := by
      rw [recode]
      simp only [sar]
      rw [w8_eq (show -128 ≤ x + c ∧ _ by omega), w8_eq (show -128 ≤ x + c + 8 ∧ _ by omega),
        w8_eq (x := (x + c + 8) / 2 ^ 4 * 2 ^ 4) (by omega), w8_eq (by omega)]
      norm_num
      ring
    have hc' : 0 ≤ (x + c + 8) / 16 ∧ (x + c + 8) / 16 ≤ 1 := by omega
    obtain ⟨i1, i2, i3, i4⟩ := recode_spec (y :: xs) _ (by simp) (fun z hz => hx z (List.mem_cons_of_mem _ hz)) hc'
    rw [hr]
    refine ⟨?_, ?_, ?_, ?_⟩
    · rw [hexVal, i1, show hexVal (x :: y :: xs) = x + 16 * hexVal (y :: xs) from rfl]; ring
    · intro i hi
      cases i with
      | zero => simp only [List.getD_cons_zero]; omega
      | succ i => rw [List.getD_cons_succ]; exact i2 i (by simpa using hi)
    · simpa using i3
    · simpa using i4

theorem nib : ∀ v : UInt8, (v &&& 15).toNat = v.toNat % 16 ∧ ((v >>> 4) &&& 15).toNat = v.toNat / 16 :=
  forall_byte (by decide +kernel)

theorem nibbles_list (l : Bytes) :
    hexVal (l.flatMap fun (v : UInt8) => [((v &&& 15).toNat : Int), (((v >>> 4) &&& 15).toNat : Int)]) = (leNat l : Int) ∧
    (∀ x ∈ l.flatMap fun (v : UInt8) => [((v &&& 15).toNat : Int), (((v >>> 4) &&& 15).toNat : Int)], 0 ≤ x ∧ x ≤ 15) ∧
    (l.flatMap fun (v : UInt8) => [((v &&& 15).toNat : Int), (((v >>> 4) &&& 15).toNat : Int)]).length = 2 * l.length := by
  induction l with
  | nil => exact ⟨rfl, fun _ h => by simp at h, rfl⟩
  | cons v l ih =>
    obtain ⟨h1, h2, h3⟩ := ih
    have hv := nib v
    have hlt := v.toNat_lt
    rw [List.flatMap_cons]
    refine ⟨?_, ?_, ?_⟩
    · rw [List.cons_append, List.cons_append, List.nil_append, hexVal, hexVal, h1, hv.1, hv.2, leNat_head]
      push_cast; omega
    · intro x hx
      rw [List.cons_append, List.cons_append, List.nil_append, List.mem_cons, List.mem_cons] at hx
      rcases hx with rfl | rfl | hx
      · rw [hv.1]; omega
      · rw [hv.2]; omega
      · exact h2 x hx
    · rw [List.length_append, h3, List.length_cons]; simp; omega

theorem nibbles_last (l : Bytes) (z : UInt8) :
    ((l ++ [z]).flatMap fun (v : UInt8) => [((v &&& 15).toNat : Int), (((v >>> 4) &&& 15).toNat : Int)]).getD
      (2 * l.length + 1) 0 = (z.toNat / 16 : Nat) := by
  rw [List.flatMap_append, List.getD_eq_getElem?_getD, List.getElem?_append_right (by rw [(nibbles_list l).2.2]; omega),
    (nibbles_list l).2.2, show 2 * l.length + 1 - 2 * l.length = 1 by omega, ← (nib z).2]
  rfl

/-- Sum of every second digit, weighted by powers of 256. -/
def sum256 (f : Nat → Int) : Nat → Int
  | 0 => 0
  | n + 1 => sum256 f n + f n * 256 ^ n

theorem sum256_split : ∀ (n : Nat) (l : List Int), l.length = 2 * n →
    hexVal l = sum256 (fun i => l.getD (2 * i) 0) n + 16 * sum256 (fun i => l.getD (2 * i + 1) 0) n := by
  have shift : ∀ (f : Nat → Int) (n : Nat), sum256 f (n + 1) = f 0 + 256 * sum256 (fun i => f (i + 1)) n := by
    intro f n
    induction n with
    | zero => simp [sum256]
    | succ n ih => rw [sum256, ih, sum256]; ring
  intro n
  induction n with
  | zero => intro l hl; rw [List.length_eq_zero_iff.1 hl]; rfl
  | succ n ih =>
    intro l hl
    match l, hl with
    | x :: y :: l, hl =>
      have := ih l (by simp at hl; omega)
      rw [hexVal, hexVal, this, shift, shift]
      simp only [Nat.mul_add, Nat.mul_one, Nat.mul_zero, Nat.zero_add, List.getD_cons_zero, List.getD_cons_succ]
      ring

/-! ### The loops -/

theorem addDigits_spec (digit : Nat → Int) (hd : ∀ i, i < 32 → |digit i| ≤ 8) {h : Ext} {P : Point} (hb : h.Bounded)
    (hi : h.Is P) : (addDigits digit h).Bounded ∧ (addDigits digit h).Is (P + sum256 digit 32 • base) := by
  have key : ∀ n, (hn : n ≤ 32) →
      (((List.finRange 32).take n).foldl (fun h pos => (geMixedAdd h (selectPoint pos (digit pos.val))).toExt) h).Bounded ∧
      (((List.finRange 32).take n).foldl (fun h pos => (geMixedAdd h (selectPoint pos (digit pos.val))).toExt) h).Is
        (P + sum256 digit n • base) := by
    intro n
    induction n with
    | zero => intro _; rw [List.take_zero, sum256, zero_zsmul, add_zero]; exact ⟨hb, hi⟩
    | succ n ih =>
      intro hn
      obtain ⟨b1, i1⟩ := ih (by omega)
      have hn' : n < (List.finRange 32).length := by simp; omega
      rw [← List.take_append_getElem hn', List.foldl_append, List.foldl_cons, List.foldl_nil, List.getElem_finRange]
      have hdn := hd n (by omega)
      have hdn' := abs_le.1 hdn
      obtain ⟨b2, i2⟩ := selectPoint_spec ⟨n, by omega⟩ (digit n) (by omega)
      rw [if_pos hdn] at i2
      obtain ⟨b3, i3⟩ := geMixedAdd_spec b1 i1 b2 i2
      obtain ⟨b4, i4⟩ := Comp.toExt_spec b3 i3
      have e : P + sum256 digit n • base + digit n • 256 ^ n • base = P + sum256 digit (n + 1) • base := by
        rw [sum256, add_zsmul, mul_zsmul, add_assoc, ← natCast_zsmul base (256 ^ n)]; push_cast; rfl
      rw [← e]
      exact ⟨b4, i4⟩
  have := key 32 le_rfl
  rw [List.take_of_length_le (by simp)] at this
  exact this

theorem digits_bound {a : Arr 32} (ha : a[31].toNat ≤ 127) (i : Nat) (hi : i < 64) :
    |(recode 0 (nibbles a)).getD i 0| ≤ 8 := by
  obtain ⟨h1, h2, h3⟩ := nibbles_list a.toList
  have hl : (nibbles a).length = 64 := by unfold nibbles; rw [h3]; simp
  obtain ⟨r1, r2, r3, r4⟩ := recode_spec (nibbles a) 0 (by intro h; rw [h] at hl; simp at hl) h2 (by omega)
  rw [hl] at r2 r3 r4
  have hlast : (nibbles a).getD 63 0 = (a[31].toNat / 16 : Nat) := by
    have hsplit : a.toList = a.toList.take 31 ++ [a[31]] := by
      have := List.take_append_getElem (l := a.toList) (i := 31) (by simp)
      rw [Vector.getElem_toList] at this
      rw [this, List.take_of_length_le (by simp)]
    have h := nibbles_last (a.toList.take 31) a[31]
    rw [← hsplit] at h
    have e : 2 * (a.toList.take 31).length + 1 = 63 := by simp
    rw [e] at h
    exact h
  rw [abs_le]
  rcases (by omega : i + 1 < 64 ∨ i = 63) with h | rfl
  · have := r2 i h; omega
  · rw [show 64 - 1 = 63 from rfl, hlast] at r3 r4; omega

theorem geScalarMultBase_spec (a : Arr 32) (ha : a[31].toNat ≤ 127) :
    (geScalarMultBase a).Bounded ∧ (geScalarMultBase a).Is (leNat a.toList • base) := by
  obtain ⟨h1, h2, h3⟩ := nibbles_list a.toList
  have hl : (nibbles a).length = 64 := by unfold nibbles; rw [h3]; simp
  obtain ⟨r1, -⟩ := recode_spec (nibbles a) 0 (by intro h; rw [h] at hl; simp at hl) h2 (by omega)
  have hsum := sum256_split 32 (recode 0 (nibbles a)) (by rw [recode_length, hl])
  rw [r1, add_zero, show hexVal (nibbles a) = (leNat a.toList : Int) from h1] at hsum
  have hd := fun i hi => digits_bound ha i hi
  unfold geScalarMultBase
  extract_lets e h s1 s2 s3 h'
  change ∀ i, i < 64 → |e.getD i 0| ≤ 8 at hd
  change _ = sum256 (fun i => e.getD (2 * i) 0) 32 + 16 * sum256 (fun i => e.getD (2 * i + 1) 0) 32 at hsum
  clear_value e
  obtain ⟨b0, i0⟩ := addDigits_spec (fun pos => e.getD (2 * pos + 1) 0) (fun i hi => hd _ (by omega)) Ext.zero_spec.1 Ext.zero_spec.2
  obtain ⟨c1, j1⟩ := Ext.double_spec b0 i0
  obtain ⟨b1, i1⟩ := Comp.toProj_spec c1 j1
  obtain ⟨c2, j2⟩ := Proj.double_spec b1 i1
  obtain ⟨b2, i2⟩ := Comp.toProj_spec c2 j2
  obtain ⟨c3, j3⟩ := Proj.double_spec b2 i2
  obtain ⟨b3, i3⟩ := Comp.toProj_spec c3 j3
  obtain ⟨c4, j4⟩ := Proj.double_spec b3 i3
  obtain ⟨b4, i4⟩ := Comp.toExt_spec c4 j4
  obtain ⟨b5, i5⟩ := addDigits_spec (fun pos => e.getD (2 * pos) 0) (fun i hi => hd _ (by omega)) b4 i4
  refine ⟨b5, ?_⟩
  have e2 : (leNat a.toList • base : Point) = (leNat a.toList : Int) • base := (natCast_zsmul _ _).symm
  rw [e2, hsum]
  generalize sum256 (fun i => e.getD (2 * i) 0) 32 = u at *
  generalize sum256 (fun i => e.getD (2 * i + 1) 0) 32 = v at *
  have e3 : (u + 16 * v) • base = 0 + v • base + (0 + v • base) + (0 + v • base + (0 + v • base)) +
      (0 + v • base + (0 + v • base) + (0 + v • base + (0 + v • base))) +
      (0 + v • base + (0 + v • base) + (0 + v • base + (0 + v • base)) +
      (0 + v • base + (0 + v • base) + (0 + v • base + (0 + v • base)))) + u • base := by
    rw [add_zsmul, mul_zsmul]; abel
  rw [e3]; exact i5

end Verif.Ed
