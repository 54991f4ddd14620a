/-
Little-endian integers, written independently of the model.
-/
import Verif.Model.Go

namespace Verif

/-- The number that a byte string stands for, least significant byte first. -/
def leNat (bs : Bytes) : Nat := bs.foldr (fun b acc => b.toNat + 256 * acc) 0

theorem leNat_append (a b : Bytes) : leNat (a ++ b) = leNat a + 256 ^ a.length * leNat b := by
  induction a with
  | nil => simp [leNat]
  | cons x a ih =>
    simp only [leNat, List.cons_append, List.foldr_cons, List.length_cons, Nat.pow_succ] at ih ⊢
    rw [ih, Nat.mul_add, Nat.add_assoc, Nat.mul_comm (256 ^ a.length) 256, Nat.mul_assoc]

theorem leNat_lt (a : Bytes) : leNat a < 256 ^ a.length := by
  induction a with
  | nil => simp [leNat]
  | cons x a ih =>
    simp only [leNat, List.foldr_cons, List.length_cons, Nat.pow_succ] at ih ⊢
    have := x.toNat_lt
    omega

/-- Strings of equal length with equal values are equal. -/
theorem leNat_inj {a b : Bytes} (hl : a.length = b.length) (h : leNat a = leNat b) : a = b := by
  induction a generalizing b with
  | nil => cases b with
    | nil => rfl
    | cons y b => simp at hl
  | cons x a ih => cases b with
    | nil => simp at hl
    | cons y b =>
      simp only [leNat, List.foldr_cons, List.length_cons] at ih h hl
      have h1 := x.toNat_lt
      have h2 := y.toNat_lt
      have h3 : x.toNat = y.toNat := by omega
      rw [UInt8.toNat_inj.1 h3, ih (b := b) (by omega) (by omega)]

end Verif
