/-
What `feSquare`, `FeSquare` and `FeSquare2` compute is what the model says.
-/
import Verif.Source.EdRaw
import Mathlib.Data.ZMod.Basic

namespace Verif.Src.EdSrc

open Verif.Ed

/-- Truncation to int64 depends on the value modulo 2^64. -/
def low (z : ZMod (2^64)) : Int := Int.bmod z.val (2^64)

theorem w64_low (x : Int) : w64 x = low (x : ZMod (2^64)) := by
  unfold w64 low
  rw [ZMod.val_intCast]
  exact (Int.emod_bmod x (2^64)).symm

theorem low_cast (z : ZMod (2^64)) : ((low z : Int) : ZMod (2^64)) = z := by
  have h : ((low z : Int) : ZMod (2^64)) = ((z.val : Int) : ZMod (2^64)) := by
    rw [ZMod.intCast_eq_intCast_iff]
    unfold low
    show Int.bmod _ _ % _ = _
    rw [Int.bmod_emod]
  rw [h]
  simp

theorem rawSquareSums_eq {α : Type} (f : Fe) (k : Int → Int → Int → Int → Int → Int → Int → Int → Int → Int → α) :
    rawSquareSums f k = feSquareSums f k := by
  unfold rawSquareSums feSquareSums
  simp only [w64_low, Int.cast_add, Int.cast_mul, low_cast]

theorem rawSquare_eq (f : Fe) : rawSquare f = feSquare f := by
  unfold rawSquare feSquare
  rw [rawSquareSums_eq]
  congr 1
  funext h0 h1 h2 h3 h4 h5 h6 h7 h8 h9
  exact rawCombine_eq ..

theorem rawSquare2_eq (f : Fe) : rawSquare2 f = feSquare2 f := by
  unfold rawSquare2 feSquare2
  rw [rawSquareSums_eq]
  congr 1
  funext h0 h1 h2 h3 h4 h5 h6 h7 h8 h9
  exact rawCombine_eq ..

end Verif.Src.EdSrc
