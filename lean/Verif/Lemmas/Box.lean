/-
Nonces, headers, boxes.
-/
import Verif.Model.Crypto
import Verif.Spec.Sealed
import Verif.Lemmas.Bytes
import Verif.Lemmas.Act

namespace Verif
open Spec

/-! ### Big-endian numbers -/

theorem beVal_singleton (x : UInt8) : beVal [x] = x.toNat := by simp [beVal]

theorem beVal_cons (x : UInt8) (a : Bytes) : beVal (x :: a) = x.toNat * 256 ^ a.length + beVal a := by
  rw [← beVal_singleton x, ← beVal_append]; rfl

theorem beVal_snoc (a : Bytes) (x : UInt8) : beVal (a ++ [x]) = beVal a * 256 + x.toNat := by
  rw [beVal_append, beVal_singleton]; simp

theorem beVal_inj {a b : Bytes} (hl : a.length = b.length) (hv : beVal a = beVal b) : a = b := by
  induction a generalizing b with
  | nil => exact (List.length_eq_zero_iff.mp hl.symm).symm
  | cons x a ih =>
    cases b with
    | nil => simp at hl
    | cons y b =>
      simp only [List.length_cons, Nat.add_right_cancel_iff] at hl
      rw [beVal_cons, beVal_cons, hl] at hv
      have h1 := beVal_lt a
      have h2 := beVal_lt b
      rw [hl] at h1
      have hp : 0 < 256 ^ b.length := Nat.pow_pos (by decide)
      have hx : x.toNat = y.toNat := by
        have e1 : (x.toNat * 256 ^ b.length + beVal a) / 256 ^ b.length = x.toNat := by
          rw [Nat.add_comm, Nat.add_mul_div_right _ _ hp, Nat.div_eq_of_lt h1, Nat.zero_add]
        have e2 : (y.toNat * 256 ^ b.length + beVal b) / 256 ^ b.length = y.toNat := by
          rw [Nat.add_comm, Nat.add_mul_div_right _ _ hp, Nat.div_eq_of_lt h2, Nat.zero_add]
        rw [← e1, ← e2, hv]
      rw [hx] at hv
      rw [UInt8.toNat_inj.mp hx, ih hl (by omega)]

theorem bigEndian_length (k n : Nat) : (bigEndian k n).length = k := by simp [bigEndian]

theorem bigEndian_succ (k n : Nat) : bigEndian (k + 1) n = bigEndian k (n / 256) ++ [n.toUInt8] := by
  simp only [bigEndian, List.range_succ, List.map_append, List.map_cons, List.map_nil]
  congr 1
  · apply List.map_congr_left
    intro j hj
    rw [List.mem_range] at hj
    rw [show k + 1 - 1 - j = (k - 1 - j) + 1 by omega, Nat.pow_succ, Nat.mul_comm, ← Nat.div_div_eq_div_mul]
  · simp

theorem beVal_bigEndian (k n : Nat) : beVal (bigEndian k n) = n % 256 ^ k := by
  induction k generalizing n with
  | zero => simp [bigEndian, beVal, Nat.mod_one]
  | succ k ih =>
    rw [bigEndian_succ, beVal_snoc, ih, toUInt8_toNat, Nat.pow_succ, Nat.mul_comm (256 ^ k) 256, Nat.mod_mul]
    omega

theorem bigEndian_eq_be64 (n : Nat) : be64 n = bigEndian 8 n := by
  simp [bigEndian, be64, List.range_succ]

theorem bigEndian_of_beVal (bs : Bytes) : bigEndian bs.length (beVal bs) = bs := by
  apply beVal_inj (bigEndian_length _ _)
  rw [beVal_bigEndian, Nat.mod_eq_of_lt (beVal_lt bs)]

/-! ### Nonces -/

theorem nonceOf_toList (i : Nat) : (nonceOf i).toList = bigEndian 24 i := copyZ_toList_eq (bigEndian_length _ _)

theorem nonceOf_val {i : Nat} (h : i < 256 ^ 24) : beVal (nonceOf i).toList = i := by
  rw [nonceOf_toList, beVal_bigEndian, Nat.mod_eq_of_lt h]

theorem nonceOf_zero : nonceOf 0 = Vector.replicate 24 0 := by
  apply arr_ext; rw [nonceOf_toList]; decide

theorem nonceOf_inj {i j : Nat} (hi : i < 256 ^ 24) (hj : j < 256 ^ 24) (h : nonceOf i = nonceOf j) : i = j := by
  rw [← nonceOf_val hi, ← nonceOf_val hj, h]

theorem nonceOf_beVal (n : Arr 24) : nonceOf (beVal n.toList) = n := by
  apply arr_ext
  apply beVal_inj (by simp)
  exact nonceOf_val (by have := beVal_lt n.toList; rwa [length_toList] at this)

theorem setIfInBounds_toList {n : Nat} (v : Arr n) (i : Nat) (x : UInt8) : (v.setIfInBounds i x).toList = v.toList.set i x := by
  rw [← Vector.toList_toArray, Vector.toArray_setIfInBounds, Array.toList_setIfInBounds, Vector.toList_toArray]

theorem incrementNonceLoop_spec (i : Nat) (hi : i ≤ 24) (v : Arr 24) (a b : Bytes) (ha : a.length = i)
    (hv : v.toList = a ++ b) :
    (beVal a + 1 < 256 ^ i ∧ ∃ v' a', incrementNonceLoop i v = .ok v' ∧ v'.toList = a' ++ b ∧ a'.length = i ∧
      beVal a' = beVal a + 1) ∨
    (beVal a + 1 = 256 ^ i ∧ incrementNonceLoop i v = .err .nonceReused) := by
  induction i generalizing v a b with
  | zero =>
    right
    have : a = [] := List.length_eq_zero_iff.mp ha
    subst this
    exact ⟨rfl, rfl⟩
  | succ i ih =>
    obtain ⟨a0, c, rfl⟩ : ∃ a0 c, a = a0 ++ [c] := by
      rcases List.eq_nil_or_concat a with rfl | ⟨a', y, rfl⟩
      · simp at ha
      · exact ⟨a', y, by simp⟩
    simp only [List.length_append, List.length_singleton, Nat.add_right_cancel_iff] at ha
    have hget : v.toList.getD i 0 = c := by rw [hv, ← ha]; simp [List.getD]
    have hset : (v.setIfInBounds i (c + 1)).toList = a0 ++ [c + 1] ++ b := by
      rw [setIfInBounds_toList, hv, ← ha]; simp
    have hget' : (v.setIfInBounds i (c + 1)).toList.getD i 0 = c + 1 := by rw [hset, ← ha]; simp [List.getD]
    have hlt := beVal_lt a0
    rw [ha] at hlt
    unfold incrementNonceLoop
    simp only [hget, hget']
    rw [beVal_snoc]
    by_cases hc : c + 1 = 0
    · rw [if_neg (by simpa using hc)]
      have hcv : c.toNat = 255 := by
        have h1 := c.toNat_lt
        have h2 : (c + 1).toNat = 0 := by rw [hc]; rfl
        rw [UInt8.toNat_add] at h2
        have h3 : (1 : UInt8).toNat = 1 := rfl
        rw [h3] at h2
        omega
      rcases ih (by omega) (v.setIfInBounds i (c + 1)) a0 ([c + 1] ++ b) ha (by rw [hset]; simp) with
        ⟨h1, v', a', h2, h3, h4, h5⟩ | ⟨h1, h2⟩
      · left
        refine ⟨by rw [Nat.pow_succ]; omega, v', a' ++ [0], h2, by rw [h3, hc]; simp, by simp [h4], ?_⟩
        rw [beVal_snoc, h5, hcv]
        simp only [UInt8.toNat_zero]
        omega
      · exact .inr ⟨by rw [Nat.pow_succ]; omega, h2⟩
    · rw [if_pos hc]
      have hcv : c.toNat ≠ 255 := by
        intro h
        apply hc
        apply UInt8.toNat_inj.mp
        rw [UInt8.toNat_add, h]; rfl
      have h1 := c.toNat_lt
      left
      refine ⟨by rw [Nat.pow_succ]; omega, _, a0 ++ [c + 1], rfl, hset, by simp [ha], ?_⟩
      have h3 : (1 : UInt8).toNat = 1 := rfl
      rw [beVal_snoc, UInt8.toNat_add, h3, Nat.mod_eq_of_lt (by omega)]
      omega

theorem incrementNonce_val (v : Arr 24) :
    (beVal v.toList + 1 < 256 ^ 24 ∧ ∃ v', incrementNonce v = .ok v' ∧ beVal v'.toList = beVal v.toList + 1) ∨
    (beVal v.toList + 1 = 256 ^ 24 ∧ incrementNonce v = .err .nonceReused) := by
  rcases incrementNonceLoop_spec 24 (Nat.le_refl _) v v.toList [] (by simp) (by simp) with ⟨h, v', a', h1, h2, -, h3⟩ | h
  · refine .inl ⟨h, v', h1, ?_⟩
    rw [h2, List.append_nil, h3]
  · exact .inr h

theorem incrementNonce_ok {i : Nat} (h : i + 1 < 256 ^ 24) : incrementNonce (nonceOf i) = .ok (nonceOf (i + 1)) := by
  have hv := nonceOf_val (show i < 256 ^ 24 by omega)
  rcases incrementNonce_val (nonceOf i) with ⟨-, v', h1, h2⟩ | ⟨h1, -⟩
  · rw [h1, ← nonceOf_beVal v', h2, hv]
  · rw [hv] at h1; omega

theorem incrementNonce_err {i : Nat} (h : i + 1 = 256 ^ 24) : incrementNonce (nonceOf i) = .err .nonceReused := by
  have hv := nonceOf_val (show i < 256 ^ 24 by omega)
  rcases incrementNonce_val (nonceOf i) with ⟨h1, -⟩ | ⟨-, h2⟩
  · rw [hv] at h1; omega
  · exact h2

/-! ### Boxes -/

namespace Prims

variable (P : Prims)

theorem keystream_length (k : Arr 32) (n : Arr 24) (pos l : Nat) : (P.keystream k n pos l).length = l := by
  simp [keystream]

theorem xorStream_length (k : Arr 32) (n : Arr 24) (m : Bytes) : (P.xorStream k n m).length = m.length := by
  simp [xorStream, keystream_length]

theorem zip_xor_cancel : ∀ (a b : Bytes), a.length = b.length →
    List.zipWith (· ^^^ ·) (List.zipWith (· ^^^ ·) a b) b = a
  | [], _, _ => by simp
  | x :: a, [], h => by simp at h
  | x :: a, y :: b, h => by
    simp only [List.zipWith_cons_cons]
    rw [zip_xor_cancel a b (by simpa using h), UInt8.xor_assoc, UInt8.xor_self, UInt8.xor_zero]

theorem xorStream_xorStream (k : Arr 32) (n : Arr 24) (m : Bytes) : P.xorStream k n (P.xorStream k n m) = m := by
  show List.zipWith _ (P.xorStream k n m) (P.keystream k n 32 (P.xorStream k n m).length) = m
  rw [xorStream_length]
  exact zip_xor_cancel _ _ (by simp [keystream_length])

theorem boxSeal_length (k : Arr 32) (n : Arr 24) (m : Bytes) : (P.boxSeal k n m).length = m.length + 16 := by
  simp [boxSeal, xorStream_length]; omega

theorem boxOpen_boxSeal (k : Arr 32) (n : Arr 24) (m : Bytes) : P.boxOpen k n (P.boxSeal k n m) = some m := by
  have h1 : ¬ (P.boxSeal k n m).length < overhead := by rw [boxSeal_length, overhead]; omega
  have h2 : (P.boxSeal k n m).drop overhead = P.xorStream k n m := List.drop_left' (by simp [overhead])
  have h3 : (P.boxSeal k n m).take overhead =
    (P.poly1305 (P.keystream k n 0 32) (P.xorStream k n m)).toList := List.take_left' (by simp [overhead])
  rw [boxOpen, if_neg h1, h2, h3, if_pos rfl, xorStream_xorStream]

/-- A box opens exactly if it is the sealing of the result. -/
theorem boxOpen_some {k : Arr 32} {n : Arr 24} {c m : Bytes} (h : P.boxOpen k n c = some m) : c = P.boxSeal k n m := by
  unfold boxOpen at h
  split at h
  · cases h
  · split at h
    · rename_i h1 h2
      obtain rfl := Option.some.inj h
      unfold boxSeal
      simp only
      rw [xorStream_xorStream, h2, List.take_append_drop]
    · cases h

theorem boxOpen_iff {k : Arr 32} {n : Arr 24} {c m : Bytes} : P.boxOpen k n c = some m ↔ c = P.boxSeal k n m :=
  ⟨P.boxOpen_some, fun h => h ▸ P.boxOpen_boxSeal k n m⟩

theorem boxSeal_inj {k : Arr 32} {n : Arr 24} {m m' : Bytes} (h : P.boxSeal k n m = P.boxSeal k n m') : m = m' := by
  have h1 := P.boxOpen_boxSeal k n m
  rw [h, P.boxOpen_boxSeal] at h1
  exact (Option.some.inj h1).symm

end Prims

/-! ### Header -/

theorem sealHeader_eq (P : Prims) (n : Nat) (epub shared : Arr 32) :
    sealHeader P n epub shared = headerOf P shared epub n := by
  simp only [sealHeader, headerOf, bigEndian_eq_be64]

theorem headerOf_length (P : Prims) (shared epub : Arr 32) (n : Nat) : (headerOf P shared epub n).length = 72 := by
  simp [headerOf, bigEndian_length]

theorem headerOf_drop8 (P : Prims) (shared epub : Arr 32) (n : Nat) :
    (headerOf P shared epub n).drop 8 = epub.toList ++ (P.authSum (bigEndian 8 n ++ epub.toList) shared).toList := by
  rw [headerOf, List.append_assoc, List.drop_left' (bigEndian_length 8 n)]

theorem headerOf_take8 (P : Prims) (shared epub : Arr 32) (n : Nat) :
    (headerOf P shared epub n).take 8 = bigEndian 8 n := by
  rw [headerOf, List.append_assoc, List.take_left' (bigEndian_length 8 n)]

theorem headerOf_take40 (P : Prims) (shared epub : Arr 32) (n : Nat) :
    (headerOf P shared epub n).take 40 = bigEndian 8 n ++ epub.toList := by
  rw [headerOf, List.take_left' (by simp [bigEndian_length])]

theorem headerOf_drop40 (P : Prims) (shared epub : Arr 32) (n : Nat) :
    (headerOf P shared epub n).drop 40 = (P.authSum (bigEndian 8 n ++ epub.toList) shared).toList := by
  rw [headerOf, List.drop_left' (by simp [bigEndian_length])]

/-- What the header checks of `open` establish. -/
theorem header_of_auth (P : Prims) (h : Bytes) (shared : Arr 32) (hl : h.length = headerSize)
    (ha : P.authVerify (h.drop 40) (h.take 40) shared = true) :
    h = headerOf P shared (copyZ 32 (h.drop 8)) (beVal (h.take 8)) ∧ beVal (h.take 8) < 2 ^ 64 := by
  rw [headerSize] at hl
  simp only [Prims.authVerify, Bool.and_eq_true, decide_eq_true_eq] at ha
  have h8 : (h.take 8).length = 8 := by simp; omega
  have he : (copyZ 32 (h.drop 8)).toList = (h.drop 8).take 32 := copyZ_toList_of_le (by simp; omega)
  have hb : bigEndian 8 (beVal (h.take 8)) = h.take 8 := by
    have := bigEndian_of_beVal (h.take 8); rwa [h8] at this
  have h40 : h.take 8 ++ (h.drop 8).take 32 = h.take 40 := by
    rw [show (40 : Nat) = 8 + 32 from rfl, List.take_add]
  constructor
  · rw [headerOf, hb, he, h40, ← ha.2, List.take_append_drop]
  · have := beVal_lt (h.take 8); rwa [h8] at this

/-! ### Pieces -/

theorem pieces_nil (n : Nat) (hn : 0 < n) : pieces n hn [] = [] := by rw [pieces, if_pos rfl]

theorem pieces_cons {n : Nat} {hn : 0 < n} {m : Bytes} (h : m ≠ []) :
    pieces n hn m = m.take n :: pieces n hn (m.drop n) := by rw [pieces, if_neg h]

theorem pieces_flatten (n : Nat) (hn : 0 < n) (m : Bytes) : (pieces n hn m).flatten = m := by
  induction h : m.length using Nat.strongRecOn generalizing m with
  | ind k ih =>
    by_cases hm : m = []
    · subst hm; rw [pieces_nil]; rfl
    · rw [pieces_cons hm, List.flatten_cons, ih _ (by
        have := List.length_pos_iff.mpr hm
        rw [List.length_drop]; omega) _ rfl, List.take_append_drop]

theorem pieces_length (n : Nat) (hn : 0 < n) (m : Bytes) : (pieces n hn m).length = (m.length + (n - 1)) / n := by
  induction h : m.length using Nat.strongRecOn generalizing m with
  | ind k ih =>
    by_cases hm : m = []
    · subst hm; rw [pieces_nil, ← h]
      simp only [List.length_nil, Nat.zero_add]
      rw [Nat.div_eq_of_lt (by omega)]
    · have hp := List.length_pos_iff.mpr hm
      rw [pieces_cons hm, List.length_cons, ih _ (by rw [List.length_drop]; omega) _ rfl, List.length_drop, ← h]
      by_cases hle : n ≤ m.length
      · rw [show m.length + (n - 1) = m.length - n + (n - 1) + n by omega, Nat.add_div_right _ hn]
      · rw [show m.length - n = 0 by omega, Nat.div_eq_of_lt (by omega : 0 + (n - 1) < n),
          show m.length + (n - 1) = (m.length - 1) + n by omega, Nat.add_div_right _ hn, Nat.div_eq_of_lt (by omega)]

theorem chunkCount_eq (m : Bytes) : chunkCount m.length = (pieces 16385 (by decide) m).length := by
  rw [pieces_length, chunkCount, chunkSize]
  split <;> omega

theorem mem_pieces_length {n : Nat} {hn : 0 < n} {m p : Bytes} (h : p ∈ pieces n hn m) : p.length ≤ n := by
  induction hk : m.length using Nat.strongRecOn generalizing m with
  | ind k ih =>
    by_cases hm : m = []
    · subst hm; rw [pieces_nil] at h; cases h
    · have hp := List.length_pos_iff.mpr hm
      rw [pieces_cons hm] at h
      rcases List.mem_cons.mp h with rfl | h
      · simp; omega
      · exact ih _ (by rw [List.length_drop]; omega) h rfl

theorem sealedFrom_length (P : Prims) (shared : Arr 32) (i : Nat) (ps : List Bytes) :
    (sealedFrom P shared i ps).length = ps.length := by
  induction ps generalizing i with
  | nil => rfl
  | cons p ps ih => simp [sealedFrom, ih]

theorem sealedFrom_get (P : Prims) (shared : Arr 32) (i : Nat) (ps : List Bytes) (j : Nat) :
    (sealedFrom P shared i ps)[j]? = (ps[j]?).map (P.boxSeal shared (nonceOf (i + j))) := by
  induction ps generalizing i j with
  | nil => simp [sealedFrom]
  | cons p ps ih =>
    cases j with
    | zero => simp [sealedFrom]
    | succ j => simp only [sealedFrom, List.getElem?_cons_succ, ih]; rw [show i + 1 + j = i + (j + 1) by omega]

theorem sealedFrom_append (P : Prims) (shared : Arr 32) (i : Nat) (ps qs : List Bytes) :
    sealedFrom P shared i (ps ++ qs) = sealedFrom P shared i ps ++ sealedFrom P shared (i + ps.length) qs := by
  induction ps generalizing i with
  | nil => simp [sealedFrom]
  | cons p ps ih => simp only [List.cons_append, sealedFrom, ih, List.length_cons]; rw [show i + 1 + ps.length = i + (ps.length + 1) by omega]

theorem sealedFrom_flatten_length (P : Prims) (shared : Arr 32) (i : Nat) (ps : List Bytes) :
    (sealedFrom P shared i ps).flatten.length = ps.flatten.length + 16 * ps.length := by
  induction ps generalizing i with
  | nil => rfl
  | cons p ps ih => simp only [sealedFrom, List.flatten_cons, List.length_append, ih, Prims.boxSeal_length, List.length_cons]; omega

end Verif
