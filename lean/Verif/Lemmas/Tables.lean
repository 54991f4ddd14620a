/-
The tables hold the multiples of the base point that they should. The whole tables are checked by evaluation in the kernel
against the addition law in cleared form; the lemmas lift the checks to the group.
-/
import Verif.Lemmas.Group
import Verif.Spec.X25519
import Verif.Model.Tables

namespace Verif.Ed

/-- Affine coordinates of an entry: half the difference and half the sum of the first two components. -/
def entryXY (q : Pre) : Int × Int :=
  let plus := q.yPlusX.toInt
  let minus := q.yMinusX.toInt
  ((plus - minus) * ((2 ^ 255 - 18) / 2) % (2 ^ 255 - 19), (plus + minus) * ((2 ^ 255 - 18) / 2) % (2 ^ 255 - 19))

/-- Whether an integer is a multiple of `p`. -/
def zeroMod (a : Int) : Bool := a % (2 ^ 255 - 19) == 0

def limbOk (x b : Int) : Bool := decide (-b ≤ x) && decide (x ≤ b)

def feOk (f : Fe) : Bool :=
  limbOk f.f0 (2 ^ 25) && limbOk f.f1 (2 ^ 24 + 2 ^ 16) && limbOk f.f2 (2 ^ 25) && limbOk f.f3 (2 ^ 24 + 2 ^ 16) &&
  limbOk f.f4 (2 ^ 25) && limbOk f.f5 (2 ^ 24 + 2 ^ 16) && limbOk f.f6 (2 ^ 25) && limbOk f.f7 (2 ^ 24 + 2 ^ 16) &&
  limbOk f.f8 (2 ^ 25) && limbOk f.f9 (2 ^ 24 + 2 ^ 16)

/-- Limb bounds, curve equation and third component. -/
def entryOk (q : Pre) : Bool :=
  let x := (entryXY q).1
  let y := (entryXY q).2
  feOk q.yPlusX && feOk q.yMinusX && feOk q.xy2d &&
  zeroMod (-x ^ 2 + y ^ 2 - (1 + feD.toInt * x ^ 2 * y ^ 2)) && zeroMod (q.yPlusX.toInt - (y + x)) &&
  zeroMod (q.yMinusX.toInt - (y - x)) && zeroMod (q.xy2d.toInt - 2 * feD.toInt * x * y)

/-- The third point is the sum of the first two. -/
def addOk (a b c : Int × Int) : Bool :=
  let t := feD.toInt * a.1 * b.1 * a.2 * b.2 % (2 ^ 255 - 19)
  zeroMod (c.1 * (1 + t) - (a.1 * b.2 + b.1 * a.2)) && zeroMod (c.2 * (1 - t) - (a.2 * b.2 + a.1 * b.1))

/-- Projective doubling. -/
def dbl (t : Int × Int × Int) : Int × Int × Int :=
  let X := t.1
  let Y := t.2.1
  let Z := t.2.2
  let A := Y ^ 2 - X ^ 2
  let B := 2 * Z ^ 2 - A
  (2 * X * Y * B % (2 ^ 255 - 19), (X ^ 2 + Y ^ 2) * A % (2 ^ 255 - 19), A * B % (2 ^ 255 - 19))

/-- The second point is 32 times the first one. -/
def by32 (a b : Int × Int) : Bool :=
  let t := dbl (dbl (dbl (dbl (dbl (a.1, a.2, 1)))))
  zeroMod (b.1 * t.2.2 - t.1) && zeroMod (b.2 * t.2.2 - t.2.1)

/-- Every entry is the previous one plus `step`. -/
def chainOk (step : Int × Int) : List Pre → Bool
  | [] => true
  | [q] => entryOk q
  | q :: q' :: l => entryOk q && addOk (entryXY q) step (entryXY q') && chainOk step (q' :: l)

def rowOk : List Pre → Bool
  | [] => false
  | q :: l => l.length == 7 && chainOk (entryXY q) (q :: l)

def lastXY (row : List Pre) : Int × Int := entryXY (row.getD 7 Pre.zero)

def headXY (row : List Pre) : Int × Int := entryXY (row.getD 0 Pre.zero)

def rowsOk : List (List Pre) → Bool
  | [] => true
  | [r] => rowOk r
  | r :: r' :: l => rowOk r && by32 (lastXY r) (headXY r') && rowsOk (r' :: l)

theorem rows_ok : rowsOk baseTable = true := by decide +kernel

theorem rows_head : headXY (baseTable.getD 0 []) =
    (15112221349535400772501151409588531511454012693041857206046113283949847762202,
      46316835694926478169428394003475163141307993866256225615783033603165251855960) := by decide +kernel

theorem rows_len : baseTable.length = 32 := rfl

theorem bi_ok : (chainOk (entryXY (baseRow0.getD 1 Pre.zero)) biTable && biTable.length == 8 &&
    (headXY biTable == headXY (baseTable.getD 0 []))) = true := by decide +kernel

/-! ### Lifting the checks -/

theorem getD_lt {α : Type} {l : List α} {i : Nat} (h : i < l.length) (a : α) : l.getD i a = l[i] := by
  rw [List.getD_eq_getElem?_getD, List.getElem?_eq_getElem h, Option.getD_some]

theorem zeroMod_cast {a : Int} (h : zeroMod a = true) : (a : F) = 0 := int_zero (by simpa [zeroMod] using h)

theorem cast_mod (a : Int) : ((a % (2 ^ 255 - 19) : Int) : F) = (a : F) := by
  have h := ZMod.intCast_mod a p
  rwa [show ((p : Nat) : Int) = 2 ^ 255 - 19 by norm_num] at h

/-- Integer coordinates of a point. -/
def IsXY (a : Int × Int) (P : Point) : Prop := (a.1 : F) = P.x ∧ (a.2 : F) = P.y

theorem IsXY.unique {a : Int × Int} {P Q : Point} (h : IsXY a P) (h' : IsXY a Q) : P = Q :=
  Point.ext (h.1.symm.trans h'.1) (h.2.symm.trans h'.2)

theorem limbOk_spec {x b : Int} (h : limbOk x b = true) : -b ≤ x ∧ x ≤ b := by
  simpa [limbOk] using h

theorem feOk_spec {f : Fe} (h : feOk f = true) : f.Small := by
  simp only [feOk, Bool.and_eq_true] at h
  obtain ⟨⟨⟨⟨⟨⟨⟨⟨⟨h0, h1⟩, h2⟩, h3⟩, h4⟩, h5⟩, h6⟩, h7⟩, h8⟩, h9⟩ := h
  exact ⟨limbOk_spec h0, limbOk_spec h1, limbOk_spec h2, limbOk_spec h3, limbOk_spec h4, limbOk_spec h5, limbOk_spec h6,
    limbOk_spec h7, limbOk_spec h8, limbOk_spec h9⟩

theorem entry_point {q : Pre} (h : entryOk q = true) : ∃ P, IsXY (entryXY q) P ∧ q.Bounded ∧ q.Is P := by
  simp only [entryOk, Bool.and_eq_true] at h
  obtain ⟨⟨⟨⟨⟨⟨b1, b2⟩, b3⟩, hc⟩, hp⟩, hm⟩, ht⟩ := h
  have hc := zeroMod_cast hc
  have hp := zeroMod_cast hp
  have hm := zeroMod_cast hm
  have ht := zeroMod_cast ht
  have hd : (feD.toInt : F) = d := feD_spec.2
  generalize entryXY q = a at *
  obtain ⟨x, y⟩ := a
  dsimp only at hc hp hm ht
  simp only [Int.cast_sub, Int.cast_add, Int.cast_neg, Int.cast_mul, Int.cast_pow, Int.cast_one, Int.cast_ofNat, hd] at hc hp hm ht
  have hon : OnCurve (x : F) (y : F) := by unfold OnCurve; linear_combination hc
  refine ⟨⟨x, y, hon⟩, ⟨rfl, rfl⟩, ⟨feOk_spec b1, feOk_spec b2, feOk_spec b3⟩, ?_, ?_, ?_⟩
  · show (q.yPlusX.toInt : F) = (y : F) + x
    linear_combination hp
  · show (q.yMinusX.toInt : F) = (y : F) - x
    linear_combination hm
  · show (q.xy2d.toInt : F) = 2 * d * (x : F) * y
    linear_combination ht

theorem addOk_spec {a b c : Int × Int} {P Q R : Point} (h : addOk a b c = true) (ha : IsXY a P) (hb : IsXY b Q)
    (hc : IsXY c R) : R = P + Q := by
  simp only [addOk, Bool.and_eq_true] at h
  have h1 := zeroMod_cast h.1
  have h2 := zeroMod_cast h.2
  have hd : (feD.toInt : F) = d := feD_spec.2
  simp only [Int.cast_sub, Int.cast_add, Int.cast_one, Int.cast_mul, cast_mod, hd, ha.1, ha.2, hb.1, hb.2, hc.1, hc.2] at h1 h2
  refine Point.ext (mul_right_cancel₀ (denomX P.on Q.on) ?_) (mul_right_cancel₀ (denomY P.on Q.on) ?_)
  · rw [addX_mul]; linear_combination h1
  · rw [addY_mul]; linear_combination h2

/-- Integer projective coordinates of a point. -/
def IsXYZ (t : Int × Int × Int) (P : Point) : Prop :=
  (t.2.2 : F) ≠ 0 ∧ (t.1 : F) = P.x * t.2.2 ∧ (t.2.1 : F) = P.y * t.2.2

theorem dbl_spec {t : Int × Int × Int} {P : Point} (h : IsXYZ t P) : IsXYZ (dbl t) (P + P) := by
  obtain ⟨hz, hx, hy⟩ := h
  have hon := onCurve_eq P.on
  have ax := addX_mul P P
  have ay := addY_mul P P
  obtain ⟨X, Y, Z⟩ := t
  dsimp only at hz hx hy
  have eA : (Y : F) ^ 2 - (X : F) ^ 2 = (1 + d * P.x * P.x * P.y * P.y) * (Z : F) ^ 2 := by
    rw [hx, hy]; linear_combination (Z : F) ^ 2 * hon
  have eB : 2 * (Z : F) ^ 2 - ((Y : F) ^ 2 - (X : F) ^ 2) = (1 - d * P.x * P.x * P.y * P.y) * (Z : F) ^ 2 := by
    rw [eA]; ring
  simp only [IsXYZ, dbl, cast_mod, Int.cast_sub, Int.cast_add, Int.cast_mul, Int.cast_pow, Int.cast_ofNat]
  rw [eB, eA]
  have n1 := denomX P.on P.on
  have n2 := denomY P.on P.on
  refine ⟨?_, ?_, ?_⟩
  · exact mul_ne_zero (mul_ne_zero n1 (pow_ne_zero 2 hz)) (mul_ne_zero n2 (pow_ne_zero 2 hz))
  · rw [hx, hy]
    linear_combination -(1 - d * P.x * P.x * P.y * P.y) * (Z : F) ^ 4 * ax
  · rw [hx, hy]
    linear_combination -(1 + d * P.x * P.x * P.y * P.y) * (Z : F) ^ 4 * ay

theorem by32_spec {a b : Int × Int} {P Q : Point} (h : by32 a b = true) (ha : IsXY a P) (hb : IsXY b Q) : Q = 32 • P := by
  have h0 : IsXYZ (a.1, a.2, 1) P := by
    refine ⟨?_, ?_, ?_⟩
    · show ((1 : Int) : F) ≠ 0; rw [Int.cast_one]; exact one_ne_zero
    · show (a.1 : F) = P.x * ((1 : Int) : F); rw [Int.cast_one, mul_one, ha.1]
    · show (a.2 : F) = P.y * ((1 : Int) : F); rw [Int.cast_one, mul_one, ha.2]
  have h5 := dbl_spec (dbl_spec (dbl_spec (dbl_spec (dbl_spec h0))))
  simp only [by32, Bool.and_eq_true] at h
  generalize dbl (dbl (dbl (dbl (dbl (a.1, a.2, 1))))) = t at h h5
  have h1 := zeroMod_cast h.1
  have h2 := zeroMod_cast h.2
  simp only [Int.cast_sub, Int.cast_mul, hb.1, hb.2] at h1 h2
  obtain ⟨hz, hx, hy⟩ := h5
  have e : Q = (P + P + (P + P) + (P + P + (P + P)) + (P + P + (P + P) + (P + P + (P + P))) +
      (P + P + (P + P) + (P + P + (P + P)) + (P + P + (P + P) + (P + P + (P + P))))) := by
    refine Point.ext (mul_right_cancel₀ hz ?_) (mul_right_cancel₀ hz ?_)
    · rw [← hx]; linear_combination h1
    · rw [← hy]; linear_combination h2
  rw [e]; abel

theorem chain_spec {step : Int × Int} {S : Point} (hS : IsXY step S) : ∀ (l : List Pre) (q : Pre) (P : Point),
    chainOk step (q :: l) = true → IsXY (entryXY q) P → ∀ j, (hj : j < (q :: l).length) →
      IsXY (entryXY ((q :: l)[j])) (P + j • S) ∧ ((q :: l)[j]).Bounded ∧ ((q :: l)[j]).Is (P + j • S) := by
  intro l
  induction l with
  | nil =>
    intro q P h hq j hj
    obtain rfl : j = 0 := by simpa using hj
    obtain ⟨P', h1, h2, h3⟩ := entry_point (show entryOk q = true from h)
    obtain rfl := hq.unique h1
    rw [zero_nsmul, add_zero]
    exact ⟨hq, h2, h3⟩
  | cons q' l ih =>
    intro q P h hq j hj
    simp only [chainOk, Bool.and_eq_true] at h
    obtain ⟨⟨h1, h2⟩, h3⟩ := h
    cases j with
    | zero =>
      obtain ⟨P', h1, h2, h3⟩ := entry_point h1
      obtain rfl := hq.unique h1
      rw [zero_nsmul, add_zero]
      exact ⟨hq, h2, h3⟩
    | succ j =>
      have hE : entryOk q' = true := by
        cases l with
        | nil => exact h3
        | cons a l => simp only [chainOk, Bool.and_eq_true] at h3; exact h3.1.1
      obtain ⟨P', g1, g2, g3⟩ := entry_point hE
      have e := addOk_spec h2 hq hS g1
      have := ih q' P' h3 g1 j (by simpa using hj)
      rw [e] at this
      rw [succ_nsmul', ← add_assoc]
      exact this

/-- Row `r` holds the multiples 1 to 8 of `P`. -/
def RowOf (r : List Pre) (P : Point) : Prop :=
  r.length = 8 ∧ ∀ j, (hj : j < r.length) → r[j].Bounded ∧ r[j].Is ((j + 1) • P) ∧ IsXY (entryXY r[j]) ((j + 1) • P)

theorem row_spec {r : List Pre} {P : Point} (h : rowOk r = true) (hP : IsXY (headXY r) P) : RowOf r P := by
  cases r with
  | nil => simp [rowOk] at h
  | cons q l =>
    simp only [rowOk, Bool.and_eq_true, beq_iff_eq] at h
    refine ⟨by simp [h.1], fun j hj => ?_⟩
    have := chain_spec hP l q P h.2 hP j hj
    rw [succ_nsmul']
    exact ⟨this.2.1, this.2.2, this.1⟩

theorem row_last {r : List Pre} {P : Point} (h : RowOf r P) : IsXY (lastXY r) (8 • P) := by
  have h7 : 7 < r.length := by rw [h.1]; norm_num
  have := (h.2 7 h7).2.2
  unfold lastXY
  rw [getD_lt h7]
  exact this

theorem rowOk_of_rows {r : List Pre} {l : List (List Pre)} (h : rowsOk (r :: l) = true) : rowOk r = true := by
  cases l with
  | nil => exact h
  | cons r' l => simp only [rowsOk, Bool.and_eq_true] at h; exact h.1.1

theorem headXY_point {r : List Pre} (h : rowOk r = true) : ∃ P, IsXY (headXY r) P := by
  cases r with
  | nil => simp [rowOk] at h
  | cons q l =>
    simp only [rowOk, Bool.and_eq_true] at h
    have hE : entryOk q = true := by
      cases l with
      | nil => exact h.2
      | cons a l => have := h.2; simp only [chainOk, Bool.and_eq_true] at this; exact this.1.1
    obtain ⟨P, h1, _⟩ := entry_point hE
    exact ⟨P, h1⟩

theorem rows_spec : ∀ (l : List (List Pre)) (r : List Pre) (P : Point), rowsOk (r :: l) = true → IsXY (headXY r) P →
    ∀ i, (hi : i < (r :: l).length) → RowOf ((r :: l)[i]) (256 ^ i • P) := by
  intro l
  induction l with
  | nil =>
    intro r P h hP i hi
    obtain rfl : i = 0 := by simpa using hi
    rw [pow_zero, one_nsmul]
    exact row_spec h hP
  | cons r' l ih =>
    intro r P h hP i hi
    have hr := row_spec (rowOk_of_rows h) hP
    cases i with
    | zero => rw [pow_zero, one_nsmul]; exact hr
    | succ i =>
      simp only [rowsOk, Bool.and_eq_true] at h
      obtain ⟨Q, hQ⟩ := headXY_point (rowOk_of_rows h.2)
      have e := by32_spec h.1.2 (row_last hr) hQ
      have := ih r' Q h.2 hQ i (by simpa using hi)
      rw [e, smul_smul, smul_smul, mul_assoc] at this
      rw [pow_succ, show 256 ^ i * 256 = 256 ^ i * (32 * 8) from rfl]
      exact this

theorem base_xy : IsXY (headXY (baseTable.getD 0 [])) base := by
  rw [rows_head]
  refine ⟨?_, ?_⟩
  · show ((15112221349535400772501151409588531511454012693041857206046113283949847762202 : Int) : F) = baseX
    unfold baseX; norm_cast
  · show ((46316835694926478169428394003475163141307993866256225615783033603165251855960 : Int) : F) = baseY
    unfold baseY; norm_cast

/-- `base[i][j]` is (j+1) 256^i B. -/
theorem baseTable_spec (i j : Nat) (hi : i < 32) (hj : j < 8) :
    ((baseTable.getD i []).getD j Pre.zero).Bounded ∧
    ((baseTable.getD i []).getD j Pre.zero).Is (((j + 1) * 256 ^ i) • base) := by
  have h := rows_spec (baseTable.tail) (baseTable.getD 0 []) base rows_ok base_xy i hi
  have hi' : i < baseTable.length := hi
  rw [getD_lt hi']
  change RowOf baseTable[i] _ at h
  have hj' : j < baseTable[i].length := by rw [h.1]; exact hj
  rw [getD_lt hj']
  obtain ⟨h1, h2, _⟩ := h.2 j hj'
  rw [smul_smul] at h2
  exact ⟨h1, h2⟩

/-- `bi[j]` is (2j+1) B. -/
theorem biTable_spec (j : Nat) (hj : j < biTable.length) : biTable[j].Bounded ∧ biTable[j].Is ((2 * j + 1) • base) := by
  have hb := bi_ok
  simp only [Bool.and_eq_true, beq_iff_eq] at hb
  have hS : IsXY (entryXY (baseRow0.getD 1 Pre.zero)) (2 • base) := by
    have h := rows_spec (baseTable.tail) (baseTable.getD 0 []) base rows_ok base_xy 0 (by decide)
    have := (h.2 1 (by rw [h.1]; norm_num)).2.2
    have e : (1 + 1) • 256 ^ 0 • base = 2 • base := by rw [pow_zero, one_nsmul]
    exact e ▸ this
  have h := chain_spec hS biTable.tail (biTable.getD 0 Pre.zero) base hb.1.1 (by rw [show entryXY (biTable.getD 0 Pre.zero) = headXY biTable from rfl, hb.2]; exact base_xy) j hj
  rw [smul_smul] at h
  rw [add_comm, add_nsmul, one_nsmul, mul_comm]
  exact ⟨h.2.1, h.2.2⟩

end Verif.Ed
