/-
Field elements as elements of GF(2^255 - 19).
-/
import Verif.Lemmas.FieldMul
import Verif.Spec.Curve
import Mathlib.FieldTheory.Finite.Basic

namespace Verif.Ed

/-- The element of GF(2^255 - 19) that a field element represents. -/
def Fe.val (f : Fe) : F := (f.toInt : F)

/-- The bounds of every result of `FeCombine`, hence of `FeMul` and `FeSquare`. -/
abbrev Fe.Small (f : Fe) : Prop := f.Within (2 ^ 25) (2 ^ 24 + 2 ^ 16)

theorem Fe.Small.ok {f : Fe} (h : f.Small) : f.Ok := h.mono (by norm_num) (by norm_num)

theorem cast_sub_mul (a q : Int) : ((a - q * (p : Nat) : Int) : F) = (a : F) := by
  rw [Int.cast_sub, Int.cast_mul, Int.cast_natCast, ZMod.natCast_self p, mul_zero, sub_zero]

theorem feMul_val {f g : Fe} (hf : f.Ok) (hg : g.Ok) : (feMul f g).Small ∧ (feMul f g).val = f.val * g.val := by
  obtain ⟨h, q, hq⟩ := feMul_spec hf hg
  refine ⟨h, ?_⟩
  rw [Fe.val, hq, cast_sub_mul]; push_cast; rfl

theorem feSquare_val {f : Fe} (hf : f.Ok) : (feSquare f).Small ∧ (feSquare f).val = f.val ^ 2 := by
  obtain ⟨h, q, hq⟩ := feSquare_spec hf
  refine ⟨h, ?_⟩
  rw [Fe.val, hq, cast_sub_mul, pow_two]; push_cast; rfl

theorem feSquare2_val {f : Fe} (hf : f.Within 110729625 55364812) :
    (feSquare2 f).Small ∧ (feSquare2 f).val = 2 * f.val ^ 2 := by
  obtain ⟨h, q, hq⟩ := feSquare2_spec hf
  refine ⟨h, ?_⟩
  rw [Fe.val, hq, cast_sub_mul, pow_two]; push_cast; rfl

theorem feAdd_spec {f g : Fe} {e o e' o' : Int} (hf : f.Within e o) (hg : g.Within e' o') (he : e + e' < 2 ^ 31)
    (ho : o + o' < 2 ^ 31) : (feAdd f g).Within (e + e') (o + o') ∧ (feAdd f g).val = f.val + g.val := by
  obtain ⟨f0, f1, f2, f3, f4, f5, f6, f7, f8, f9⟩ := hf
  obtain ⟨g0, g1, g2, g3, g4, g5, g6, g7, g8, g9⟩ := hg
  unfold feAdd
  rw [w32_eq (by omega), w32_eq (by omega), w32_eq (by omega), w32_eq (by omega), w32_eq (by omega), w32_eq (by omega),
    w32_eq (by omega), w32_eq (by omega), w32_eq (by omega), w32_eq (by omega)]
  refine ⟨?_, ?_⟩
  · constructor <;> dsimp only <;> omega
  · simp only [Fe.val, Fe.toInt, limbs]; push_cast; ring

theorem feSub_spec {f g : Fe} {e o e' o' : Int} (hf : f.Within e o) (hg : g.Within e' o') (he : e + e' < 2 ^ 31)
    (ho : o + o' < 2 ^ 31) : (feSub f g).Within (e + e') (o + o') ∧ (feSub f g).val = f.val - g.val := by
  obtain ⟨f0, f1, f2, f3, f4, f5, f6, f7, f8, f9⟩ := hf
  obtain ⟨g0, g1, g2, g3, g4, g5, g6, g7, g8, g9⟩ := hg
  unfold feSub
  rw [w32_eq (by omega), w32_eq (by omega), w32_eq (by omega), w32_eq (by omega), w32_eq (by omega), w32_eq (by omega),
    w32_eq (by omega), w32_eq (by omega), w32_eq (by omega), w32_eq (by omega)]
  refine ⟨?_, ?_⟩
  · constructor <;> dsimp only <;> omega
  · simp only [Fe.val, Fe.toInt, limbs]; push_cast; ring

theorem feNeg_spec {f : Fe} {e o : Int} (hf : f.Within e o) (he : e < 2 ^ 31) (ho : o < 2 ^ 31) :
    (feNeg f).Within e o ∧ (feNeg f).val = -f.val := by
  obtain ⟨f0, f1, f2, f3, f4, f5, f6, f7, f8, f9⟩ := hf
  unfold feNeg
  rw [w32_eq (by omega), w32_eq (by omega), w32_eq (by omega), w32_eq (by omega), w32_eq (by omega), w32_eq (by omega),
    w32_eq (by omega), w32_eq (by omega), w32_eq (by omega), w32_eq (by omega)]
  refine ⟨?_, ?_⟩
  · constructor <;> dsimp only <;> omega
  · simp only [Fe.val, Fe.toInt, limbs]; push_cast; ring

theorem feOne_spec : feOne.Within 1 0 ∧ feOne.val = 1 := by
  refine ⟨?_, ?_⟩
  · constructor <;> simp [feOne]
  · simp [Fe.val, Fe.toInt, limbs, feOne]

theorem feZero_spec : feZero.Within 0 0 ∧ feZero.val = 0 := by
  refine ⟨?_, ?_⟩
  · constructor <;> simp [feZero]
  · simp [Fe.val, Fe.toInt, limbs, feZero]

/-! ### Powers -/

/-- `t` is small and represents `z ^ n`. -/
def IsPow (z : F) (n : Nat) (t : Fe) : Prop := t.Small ∧ t.val = z ^ n

theorem IsPow.to {z : F} {m n : Nat} {s : Fe} (hs : IsPow z m s) (h : m = n) : IsPow z n s := h ▸ hs

theorem IsPow.mul {z : F} {m n : Nat} {s t : Fe} (hs : IsPow z m s) (ht : IsPow z n t) : IsPow z (m + n) (feMul s t) := by
  obtain ⟨h1, h2⟩ := feMul_val hs.1.ok ht.1.ok
  exact ⟨h1, by rw [h2, hs.2, ht.2, pow_add]⟩

theorem IsPow.square {z : F} {m : Nat} {s : Fe} (hs : IsPow z m s) : IsPow z (2 * m) (feSquare s) := by
  obtain ⟨h1, h2⟩ := feSquare_val hs.1.ok
  exact ⟨h1, by rw [h2, hs.2, ← pow_mul, mul_comm]⟩

theorem IsPow.sqIter {z : F} {m : Nat} {s : Fe} (k : Nat) (hs : IsPow z m s) : IsPow z (2 ^ k * m) (sqIter k s) := by
  induction k generalizing m s with
  | zero => simpa [Ed.sqIter] using hs
  | succ k ih =>
    have := ih hs.square
    rw [Ed.sqIter, pow_succ, mul_assoc]
    exact this

/-- `FeInvert` computes the power 2^255 - 21. -/
theorem feInvert_pow {z : Fe} (hz : z.Ok) : IsPow z.val (2 ^ 255 - 21) (feInvert z) := by
  have hzs : ∀ {n s}, IsPow z.val n s → IsPow z.val (1 + n) (feMul z s) := by
    intro n s hs
    obtain ⟨h1, h2⟩ := feMul_val hz hs.1.ok
    exact ⟨h1, by rw [h2, hs.2, pow_add, pow_one]⟩
  have a0 : IsPow z.val 2 (feSquare z) := feSquare_val hz
  unfold feInvert
  extract_lets t0 t1 t1a t1b t0a t2 t1c t2a t2b t1d t2c t2d t2e t3 t3a t2f t2g t2h t1e t2i t2j t2k t3b t3c t2l t2m t2n t1f t1g t1h
  have b0 : IsPow z.val 2 t0 := a0
  have b1 : IsPow z.val 4 t1 := (b0.square).to (by norm_num)
  have b1a : IsPow z.val 8 t1a := (b1.sqIter 1).to (by norm_num)
  have b1b : IsPow z.val 9 t1b := (hzs b1a).to (by norm_num)
  have b0a : IsPow z.val 11 t0a := (b0.mul b1b).to (by norm_num)
  have b2 : IsPow z.val 22 t2 := (b0a.square).to (by norm_num)
  have b1c : IsPow z.val 31 t1c := (b1b.mul b2).to (by norm_num)
  have b2a : IsPow z.val (2 * 31) t2a := (b1c.square).to (by norm_num)
  have b2b : IsPow z.val (2 ^ 4 * (2 * 31)) t2b := (b2a.sqIter 4).to (by norm_num)
  have b1d : IsPow z.val (2 ^ 10 - 1) t1d := (b2b.mul b1c).to (by norm_num)
  have b2c : IsPow z.val (2 * (2 ^ 10 - 1)) t2c := (b1d.square).to (by norm_num)
  have b2d : IsPow z.val (2 ^ 9 * (2 * (2 ^ 10 - 1))) t2d := (b2c.sqIter 9).to (by norm_num)
  have b2e : IsPow z.val (2 ^ 20 - 1) t2e := (b2d.mul b1d).to (by norm_num)
  have b3 : IsPow z.val (2 * (2 ^ 20 - 1)) t3 := (b2e.square).to (by norm_num)
  have b3a : IsPow z.val (2 ^ 19 * (2 * (2 ^ 20 - 1))) t3a := (b3.sqIter 19).to (by norm_num)
  have b2f : IsPow z.val (2 ^ 40 - 1) t2f := (b3a.mul b2e).to (by norm_num)
  have b2g : IsPow z.val (2 * (2 ^ 40 - 1)) t2g := (b2f.square).to (by norm_num)
  have b2h : IsPow z.val (2 ^ 9 * (2 * (2 ^ 40 - 1))) t2h := (b2g.sqIter 9).to (by norm_num)
  have b1e : IsPow z.val (2 ^ 50 - 1) t1e := (b2h.mul b1d).to (by norm_num)
  have b2i : IsPow z.val (2 * (2 ^ 50 - 1)) t2i := (b1e.square).to (by norm_num)
  have b2j : IsPow z.val (2 ^ 49 * (2 * (2 ^ 50 - 1))) t2j := (b2i.sqIter 49).to (by norm_num)
  have b2k : IsPow z.val (2 ^ 100 - 1) t2k := (b2j.mul b1e).to (by norm_num)
  have b3b : IsPow z.val (2 * (2 ^ 100 - 1)) t3b := (b2k.square).to (by norm_num)
  have b3c : IsPow z.val (2 ^ 99 * (2 * (2 ^ 100 - 1))) t3c := (b3b.sqIter 99).to (by norm_num)
  have b2l : IsPow z.val (2 ^ 200 - 1) t2l := (b3c.mul b2k).to (by norm_num)
  have b2m : IsPow z.val (2 * (2 ^ 200 - 1)) t2m := (b2l.square).to (by norm_num)
  have b2n : IsPow z.val (2 ^ 49 * (2 * (2 ^ 200 - 1))) t2n := (b2m.sqIter 49).to (by norm_num)
  have b1f : IsPow z.val (2 ^ 250 - 1) t1f := (b2n.mul b1e).to (by norm_num)
  have b1g : IsPow z.val (2 * (2 ^ 250 - 1)) t1g := (b1f.square).to (by norm_num)
  have b1h : IsPow z.val (2 ^ 4 * (2 * (2 ^ 250 - 1))) t1h := (b1g.sqIter 4).to (by norm_num)
  exact (b1h.mul b0a).to (by norm_num)

theorem feInvert_val {z : Fe} (hz : z.Ok) : (feInvert z).Small ∧ (feInvert z).val = z.val⁻¹ := by
  obtain ⟨h1, h2⟩ := feInvert_pow hz
  refine ⟨h1, ?_⟩
  rw [h2]
  by_cases h0 : z.val = 0
  · rw [h0, inv_zero]; exact zero_pow (by norm_num)
  · have h3 : z.val ^ (2 ^ 255 - 20) = 1 := ZMod.pow_card_sub_one_eq_one h0
    rw [← mul_left_inj' h0, inv_mul_cancel₀ h0, ← pow_succ, ← h3]
    exact congrArg _ (by norm_num)

/-- `fePow22523` computes the power 2^252 - 3. -/
theorem fePow22523_pow {z : Fe} (hz : z.Ok) : IsPow z.val (2 ^ 252 - 3) (fePow22523 z) := by
  have hzs : ∀ {n s}, IsPow z.val n s → IsPow z.val (1 + n) (feMul z s) := by
    intro n s hs
    obtain ⟨h1, h2⟩ := feMul_val hz hs.1.ok
    exact ⟨h1, by rw [h2, hs.2, pow_add, pow_one]⟩
  have hzr : ∀ {n s}, IsPow z.val n s → IsPow z.val (n + 1) (feMul s z) := by
    intro n s hs
    obtain ⟨h1, h2⟩ := feMul_val hs.1.ok hz
    exact ⟨h1, by rw [h2, hs.2, pow_add, pow_one]⟩
  have a0 : IsPow z.val 2 (feSquare z) := feSquare_val hz
  unfold fePow22523
  extract_lets t0 t0a t1 t1a t1b t0b t0c t0d t0e t1c t1d t0f t1e t1f t1g t2 t2a t1h t1i t1j t0g t1k t1l t1m t2b t2c t1n t1o t1p t0h t0i t0j
  have b0 : IsPow z.val 2 t0 := a0
  have b0a : IsPow z.val 2 t0a := (b0.sqIter 0).to (by norm_num)
  have b1 : IsPow z.val 4 t1 := (b0a.square).to (by norm_num)
  have b1a : IsPow z.val 8 t1a := (b1.sqIter 1).to (by norm_num)
  have b1b : IsPow z.val 9 t1b := (hzs b1a).to (by norm_num)
  have b0b : IsPow z.val 11 t0b := (b0a.mul b1b).to (by norm_num)
  have b0c : IsPow z.val 22 t0c := (b0b.square).to (by norm_num)
  have b0d : IsPow z.val 22 t0d := (b0c.sqIter 0).to (by norm_num)
  have b0e : IsPow z.val 31 t0e := (b1b.mul b0d).to (by norm_num)
  have b1c : IsPow z.val (2 * 31) t1c := (b0e.square).to (by norm_num)
  have b1d : IsPow z.val (2 ^ 4 * (2 * 31)) t1d := (b1c.sqIter 4).to (by norm_num)
  have b0f : IsPow z.val (2 ^ 10 - 1) t0f := (b1d.mul b0e).to (by norm_num)
  have b1e : IsPow z.val (2 * (2 ^ 10 - 1)) t1e := (b0f.square).to (by norm_num)
  have b1f : IsPow z.val (2 ^ 9 * (2 * (2 ^ 10 - 1))) t1f := (b1e.sqIter 9).to (by norm_num)
  have b1g : IsPow z.val (2 ^ 20 - 1) t1g := (b1f.mul b0f).to (by norm_num)
  have b2 : IsPow z.val (2 * (2 ^ 20 - 1)) t2 := (b1g.square).to (by norm_num)
  have b2a : IsPow z.val (2 ^ 19 * (2 * (2 ^ 20 - 1))) t2a := (b2.sqIter 19).to (by norm_num)
  have b1h : IsPow z.val (2 ^ 40 - 1) t1h := (b2a.mul b1g).to (by norm_num)
  have b1i : IsPow z.val (2 * (2 ^ 40 - 1)) t1i := (b1h.square).to (by norm_num)
  have b1j : IsPow z.val (2 ^ 9 * (2 * (2 ^ 40 - 1))) t1j := (b1i.sqIter 9).to (by norm_num)
  have b0g : IsPow z.val (2 ^ 50 - 1) t0g := (b1j.mul b0f).to (by norm_num)
  have b1k : IsPow z.val (2 * (2 ^ 50 - 1)) t1k := (b0g.square).to (by norm_num)
  have b1l : IsPow z.val (2 ^ 49 * (2 * (2 ^ 50 - 1))) t1l := (b1k.sqIter 49).to (by norm_num)
  have b1m : IsPow z.val (2 ^ 100 - 1) t1m := (b1l.mul b0g).to (by norm_num)
  have b2b : IsPow z.val (2 * (2 ^ 100 - 1)) t2b := (b1m.square).to (by norm_num)
  have b2c : IsPow z.val (2 ^ 99 * (2 * (2 ^ 100 - 1))) t2c := (b2b.sqIter 99).to (by norm_num)
  have b1n : IsPow z.val (2 ^ 200 - 1) t1n := (b2c.mul b1m).to (by norm_num)
  have b1o : IsPow z.val (2 * (2 ^ 200 - 1)) t1o := (b1n.square).to (by norm_num)
  have b1p : IsPow z.val (2 ^ 49 * (2 * (2 ^ 200 - 1))) t1p := (b1o.sqIter 49).to (by norm_num)
  have b0h : IsPow z.val (2 ^ 250 - 1) t0h := (b1p.mul b0g).to (by norm_num)
  have b0i : IsPow z.val (2 * (2 ^ 250 - 1)) t0i := (b0h.square).to (by norm_num)
  have b0j : IsPow z.val (2 ^ 1 * (2 * (2 ^ 250 - 1))) t0j := (b0i.sqIter 1).to (by norm_num)
  exact (hzr b0j).to (by norm_num)

end Verif.Ed
