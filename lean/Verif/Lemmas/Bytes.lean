/-
Lemmas about byte strings, fixed arrays and big-endian numbers.
-/
import Verif.Model.Go

namespace Verif

theorem copyZ_toList (n : Nat) (src : Bytes) : (copyZ n src).toList = (src ++ List.replicate n 0).take n := by
  apply List.ext_getElem
  · simp
  · intro i h1 h2
    simp only [Vector.length_toList] at h1
    simp only [copyZ, Vector.getElem_toList, Vector.getElem_ofFn, List.getElem_take, List.getD_eq_getElem?_getD]
    by_cases hi : i < src.length
    · rw [List.getElem_append_left hi, List.getElem?_eq_getElem hi]; rfl
    · rw [List.getElem_append_right (by omega), List.getElem?_eq_none (by omega)]; simp

theorem copyZ_toList_of_le {n : Nat} {src : Bytes} (h : n ≤ src.length) : (copyZ n src).toList = src.take n := by
  rw [copyZ_toList, List.take_append_of_le_length h]

theorem copyZ_toList_eq {n : Nat} {src : Bytes} (h : src.length = n) : (copyZ n src).toList = src := by
  rw [copyZ_toList_of_le (by omega), ← h, List.take_length]

theorem arr_ext {n : Nat} {a b : Arr n} (h : a.toList = b.toList) : a = b := Vector.toList_inj.mp h

theorem copyZ_self {n : Nat} (a : Arr n) : copyZ n a.toList = a :=
  arr_ext (copyZ_toList_eq (by simp))

theorem copyZ_append {n : Nat} (a : Arr n) (rest : Bytes) : copyZ n (a.toList ++ rest) = a :=
  arr_ext (by rw [copyZ_toList_of_le (by simp)]; simp)

theorem beVal_append (a b : Bytes) : beVal (a ++ b) = beVal a * 256 ^ b.length + beVal b := by
  have key : ∀ (l : Bytes) (x : Nat), l.foldl (fun acc b => acc * 256 + b.toNat) x = x * 256 ^ l.length + beVal l := by
    intro l
    induction l with
    | nil => intro x; simp [beVal]
    | cons c cs ih =>
      intro x
      simp only [beVal, List.foldl_cons, List.length_cons]
      rw [ih, ih (0 * 256 + c.toNat)]
      rw [Nat.pow_succ]
      simp only [Nat.add_mul, Nat.zero_mul, Nat.zero_add, Nat.mul_comm (256 ^ cs.length) 256]
      rw [Nat.mul_assoc, Nat.add_assoc]
  rw [beVal, List.foldl_append, key]; rfl

theorem beVal_lt (a : Bytes) : beVal a < 256 ^ a.length := by
  induction a with
  | nil => simp [beVal]
  | cons a as ih =>
    have h := beVal_append [a] as
    have h1 : beVal [a] = a.toNat := by simp [beVal]
    rw [List.singleton_append, h1] at h
    rw [h, List.length_cons, Nat.pow_succ]
    have h2 := a.toNat_lt
    have h3 : (a.toNat + 1) * 256 ^ as.length ≤ 256 * 256 ^ as.length := Nat.mul_le_mul_right _ (by omega)
    rw [Nat.add_mul] at h3
    omega

theorem toUInt8_toNat (n : Nat) : n.toUInt8.toNat = n % 256 := by simp

theorem beVal_be32 (v : BitVec 32) : beVal (be32 v) = v.toNat := by
  have h := v.isLt
  simp only [beVal, be32, List.foldl, toUInt8_toNat]
  omega

theorem be32_length (v : BitVec 32) : (be32 v).length = 4 := rfl

theorem beVal_be64 (v : Nat) (h : v < 2^64) : beVal (be64 v) = v := by
  simp only [beVal, be64, List.foldl, toUInt8_toNat]
  omega

theorem be64_length (v : Nat) : (be64 v).length = 8 := rfl

theorem xorArr_self_cancel {n : Nat} (a b : Arr n) : xorArr (xorArr a b) b = a := by
  apply Vector.ext
  intro i hi
  simp only [xorArr, Vector.getElem_ofFn, Fin.getElem_fin]
  rw [UInt8.xor_assoc, UInt8.xor_self, UInt8.xor_zero]

theorem length_toList {n : Nat} (a : Arr n) : a.toList.length = n := Vector.length_toList

theorem xorArr_right_comm {n : Nat} (a b c : Arr n) : xorArr (xorArr a b) c = xorArr (xorArr a c) b := by
  apply Vector.ext
  intro i hi
  simp only [xorArr, Vector.getElem_ofFn, Fin.getElem_fin]
  rw [UInt8.xor_assoc, UInt8.xor_comm b[i], ← UInt8.xor_assoc]

end Verif
