/-
What the statements of selectPoint, GeScalarMultBase, FromBytes, ToBytes, ScMulAdd and ScReduce compute, with the package
variables at their initial values, is what the model says.
-/
import Verif.Source.EdScalarMult
import Verif.Source.EdDecode
import Verif.Source.EdScalar

namespace Verif.Src.EdSrc

open Verif.Ed

/-! ### `selectPoint` and `GeScalarMultBase` -/

theorem w32_toInt (x : Int) : w32 x = (BitVec.ofInt 32 x).toInt := by
  rw [BitVec.toInt_ofInt]; rfl

theorem w32_of_range {x : Int} (h : -2^31 ≤ x) (h' : x < 2^31) : w32 x = x := by
  unfold w32
  rw [Int.bmod_eq_of_le] <;> omega

theorem w32_vec (v : BitVec 32) : Int.bmod v.toInt (2^32) = v.toInt := by
  have h1 := BitVec.le_toInt v
  have h2 := BitVec.toInt_lt (x := v)
  rw [Int.bmod_eq_of_le] <;> omega

theorem xor32_vec (x y : Int) : xor32 x y = (BitVec.ofInt 32 x ^^^ BitVec.ofInt 32 y).toInt := w32_vec _

theorem and32_vec (x y : Int) : and32 x y = (BitVec.ofInt 32 x &&& BitVec.ofInt 32 y).toInt := w32_vec _

theorem w32_low (x : Int) : -2^31 ≤ w32 x := by
  rw [w32_toInt]; have := BitVec.le_toInt (BitVec.ofInt 32 x); omega

theorem w32_high (x : Int) : w32 x < 2^31 := by
  rw [w32_toInt]; have := BitVec.toInt_lt (x := BitVec.ofInt 32 x); omega

theorem rawEqual_eq (b c : Int) : rawEqual b c = equal b c := by
  unfold rawEqual equal
  rw [xor32_vec, toInt_emod (k := 32) (by decide), BitVec.setWidth_eq]
  generalize BitVec.ofInt 32 b ^^^ BitVec.ofInt 32 c = v
  have e : ((v.toNat : Int) - 1) % 2^32 = ((v - 1).toNat : Int) := by
    rw [BitVec.toNat_sub]
    have h := v.isLt
    rw [show (1 : BitVec 32).toNat = 1 from rfl]
    omega
  rw [e, BitVec.toInt_eq_toNat_bmod, BitVec.toNat_ushiftRight, Nat.shiftRight_eq_div_pow]
  unfold w32 sar
  congr 1

theorem rawNegative_eq {b : Int} (h : -2^31 ≤ b) (h' : b < 2^31) : rawNegative b = negative b := by
  unfold rawNegative negative
  rw [and32_vec, BitVec.sshiftRight_eq]
  congr 2
  rw [← w32_toInt, w32_of_range h h', Int.shiftRight_eq_div_pow]
  rfl

theorem negative_range (b : Int) : -2^31 ≤ negative b ∧ negative b < 2^31 := by
  unfold negative
  generalize (BitVec.ofInt 32 b).sshiftRight 31 &&& 1 = v
  have h1 := BitVec.le_toInt v
  have h2 := BitVec.toInt_lt (x := v)
  omega

theorem rawAbs_eq (b n : Int) : w32 (b - w32 (and32 (w32 (-n)) b * 2^1)) = absOf b n := by
  unfold absOf
  rw [w32_toInt]
  congr 1
  rw [Int.sub_eq_add_neg, BitVec.ofInt_add, BitVec.ofInt_neg, ← BitVec.sub_eq_add_neg]
  congr 1
  unfold w32
  rw [ofInt_bmod, BitVec.ofInt_mul, and32_vec, BitVec.ofInt_toInt, ofInt_bmod, BitVec.ofInt_neg]
  generalize -BitVec.ofInt 32 n &&& BitVec.ofInt 32 b = v
  rw [show BitVec.ofInt 32 (2^1) = BitVec.twoPow 32 1 by decide, BitVec.mul_twoPow_eq_shiftLeft]

/-- The table in const.go:34. -/
def basePoints (i j : Nat) : Pre := (baseTable.getD i []).getD j Pre.zero

/-- The first five variables as they are initialised. -/
def init5 : G5 := ⟨feZero, feD, feD2, feSqrtM1, basePoints⟩

theorem rawSelect_eq (pos : Fin 32) {b : Int} (h : -2^31 ≤ b) (h' : b < 2^31) :
    rawSelect feZero (init5.row pos) b = selectPoint pos b := by
  unfold rawSelect selectPoint
  simp only [rawNegative_eq h h', rawAbs_eq, rawEqual_eq]
  have e : (List.range 8).foldl (fun t i => preCMove t ((init5.row pos).getD i Pre.zero) (equal (absOf b (negative b)) (w32 (i + 1))))
      (⟨oneOf feZero, oneOf feZero, feZero⟩ : Pre) =
      (List.finRange 8).foldl (fun t i => preCMove t (baseEntry pos i) (equal (absOf b (negative b)) (i.val + 1))) Pre.zero := by
    rw [← List.map_coe_finRange_eq_range, List.foldl_map]
    refine congrArg (fun f => List.foldl f Pre.zero (List.finRange 8)) ?_
    funext t i
    rw [w32_of_range (by omega) (by omega)]
    refine congrArg (fun q => preCMove t q _) ?_
    unfold G5.row baseEntry
    rw [List.getD_eq_getElem?_getD, List.getElem?_map, List.getElem?_range i.isLt]
    rfl
  rw [e]

theorem w8_small (x : UInt8) (h : x.toNat < 128) : w8 (x.toNat : Int) = x.toNat := by
  unfold w8
  rw [Int.bmod_eq_of_le] <;> omega

theorem and15_lt (x : UInt8) : (x &&& 15).toNat < 128 := by
  rw [UInt8.toNat_and]
  exact Nat.lt_of_le_of_lt Nat.and_le_right (by decide)

theorem rawNibbles_eq (a : Arr 32) : rawNibbles (intsOf a) = nibbles a := by
  have e : ∀ f : Int → List Int, (List.range 32).flatMap (fun i => f (intsOf a i)) = a.toList.flatMap fun v => f v.toNat := by
    intro f
    have := congrArg (List.flatMap f) (intsOf_map a)
    rwa [List.flatMap_map, List.flatMap_map] at this
  unfold rawNibbles nibbles
  rw [e fun x => [w8 (and8 x 15), w8 (and8 (sar x 4) 15)]]
  congr 1
  funext v
  have e1 : and8 (v.toNat : Int) 15 = ((v &&& 15).toNat : Int) := and8_eq v 15
  have e2 : and8 (sar (v.toNat : Int) 4) 15 = (((v >>> 4) &&& 15).toNat : Int) := by
    rw [sar_u8 v 4 (by decide)]
    exact and8_eq (v >>> 4) 15
  rw [e1, e2, w8_small _ (and15_lt _), w8_small _ (and15_lt _)]

/-- The result of an int8 expression. -/
theorem w8_range (x : Int) : -2^31 ≤ w8 x ∧ w8 x < 2^31 := by
  unfold w8
  have h1 := Int.le_bmod (x := x) (m := 2^8) (by decide)
  have h2 := Int.bmod_lt (x := x) (m := 2^8) (by decide)
  omega

theorem recode_range (l : List Int) : ∀ c, ∀ x ∈ recode c l, -2^31 ≤ x ∧ x < 2^31 := by
  induction l with
  | nil => intro c x h; cases h
  | cons y ys ih =>
    intro c x h
    cases ys with
    | nil =>
      simp only [recode, List.mem_singleton] at h
      subst h
      exact w8_range _
    | cons z zs =>
      simp only [recode, List.mem_cons] at h
      rcases h with h | h
      · subst h
        exact w8_range _
      · exact ih _ x h

theorem getD_range_of {l : List Int} (h : ∀ x ∈ l, -2^31 ≤ x ∧ x < 2^31) (i : Nat) :
    -2^31 ≤ l.getD i 0 ∧ l.getD i 0 < 2^31 := by
  rw [List.getD_eq_getElem?_getD]
  cases e : l[i]? with
  | none => simp
  | some x => exact h x (List.mem_of_getElem? e)

theorem rawAddDigits_model {d : Nat → Int} (h : ∀ i, -2^31 ≤ d i ∧ d i < 2^31) (x : Ext) :
    rawAddDigits init5 d x = addDigits d x := by
  unfold rawAddDigits addDigits
  rw [← List.map_coe_finRange_eq_range, List.foldl_map]
  refine congrArg (fun f => List.foldl f x (List.finRange 32)) ?_
  funext t i
  rw [w32_of_range (h _).1 (h _).2]
  exact congrArg (fun q => (geMixedAdd t q).toExt) (rawSelect_eq i (h _).1 (h _).2)

theorem rawScalarMultBase_eq (a : Arr 32) : rawScalarMultBase init5 (intsOf a) = geScalarMultBase a := by
  unfold rawScalarMultBase geScalarMultBase
  rw [rawNibbles_eq]
  have h := getD_range_of (recode_range (nibbles a) 0)
  simp only [rawAddDigits_model (d := fun pos => (recode 0 (nibbles a)).getD (2 * pos + 1) 0) fun i => h _,
    rawAddDigits_model (d := fun pos => (recode 0 (nibbles a)).getD (2 * pos) 0) fun i => h _]
  rfl

/-! ### `FromBytes` and `ToBytes` -/

def init4 : G4 := ⟨feZero, feD, feD2, feSqrtM1⟩

theorem u8_natCast (x : UInt8) : u8 (x.toNat : Int) = x.toNat := by
  have := x.toNat_lt
  unfold u8
  omega

theorem one_iff (x : UInt8) : (x.toNat : Int) = 1 ↔ x = 1 := by
  constructor
  · intro h
    exact UInt8.toNat_inj.1 (by simpa using Int.ofNat_inj.1 h)
  · intro h; subst h; rfl

theorem natCast_iff (x y : UInt8) : (x.toNat : Int) = y.toNat ↔ x = y :=
  ⟨fun h => UInt8.toNat_inj.1 (Int.ofNat_inj.1 h), fun h => by rw [h]⟩

theorem rawFinish_eq (s : Arr 32) (X Y Z : Fe) :
    rawFinish (intsOf s 31) X Y Z =
      (let neg := feIsNegative X
       let X := neg.2
       let X := if neg.1 ≠ s[31] >>> 7 then feNeg X else X
       (⟨X, Y, Z, feMul X Y⟩ : Ext)) := by
  unfold rawFinish
  have e : (rawIsNegative X ≠ sar (intsOf s 31) 7) = ((feIsNegative X).1 ≠ s[31] >>> 7) := by
    rw [rawIsNegative_eq, intsOf_get s 31 (by decide), sar_u8 _ 7 (by decide)]
    exact propext (not_congr (natCast_iff _ (s[31] >>> 7)))
  simp only [e]
  rfl

/-- `rawRoot` from the decoded ordinate. -/
def rootFrom (c : G4) (Y : Fe) : Root :=
  let Z := oneOf c.zero
  let u := feSquare Y
  let v := feMul u c.d
  let u := feSub u Z
  let v := feAdd v Z
  let v3 := feSquare v
  let v3 := feMul v3 v
  let X := feSquare v3
  let X := feMul X v
  let X := feMul X u
  let X := fePow22523 X
  let X := feMul X v3
  let X := feMul X u
  let vxx := feSquare X
  let vxx := feMul vxx v
  ⟨Y, Z, u, v, v3, X, vxx⟩

def finishOf (s : Arr 32) (X Y Z : Fe) : Ext :=
  let neg := feIsNegative X
  let X := neg.2
  let X := if neg.1 ≠ s[31] >>> 7 then feNeg X else X
  ⟨X, Y, Z, feMul X Y⟩

theorem rawRoot_eq (s : Arr 32) : rawRoot init4 (intsOf s) = rootFrom init4 (feFromBytes s) := by
  have e : rawRoot init4 (intsOf s) = rootFrom init4 (rawFromBytes (intsOf s)) := rfl
  rw [e, rawFromBytes_eq]

theorem extFromBytes_eq (s : Arr 32) : extFromBytes s =
    if (feIsNonZero (feSub (rootFrom init4 (feFromBytes s)).vxx (rootFrom init4 (feFromBytes s)).u)).1 = 1 then
      if (feIsNonZero (feAdd (rootFrom init4 (feFromBytes s)).vxx (rootFrom init4 (feFromBytes s)).u)).1 = 1 then none
      else some (finishOf s (feToBytes (feMul (rootFrom init4 (feFromBytes s)).X feSqrtM1)).2 (rootFrom init4 (feFromBytes s)).Y
        (rootFrom init4 (feFromBytes s)).Z)
    else some (finishOf s (rootFrom init4 (feFromBytes s)).X (rootFrom init4 (feFromBytes s)).Y (rootFrom init4 (feFromBytes s)).Z) := rfl

theorem rawDecode_eq (p : Ext) (s : Arr 32) : rawDecode init4 p (intsOf s) =
    if (feIsNonZero (feSub (rootFrom init4 (feFromBytes s)).vxx (rootFrom init4 (feFromBytes s)).u)).1 = 1 then
      if (feIsNonZero (feAdd (rootFrom init4 (feFromBytes s)).vxx (rootFrom init4 (feFromBytes s)).u)).1 = 1 then
        (⟨(rootFrom init4 (feFromBytes s)).X, (rootFrom init4 (feFromBytes s)).Y, (rootFrom init4 (feFromBytes s)).Z, p.T⟩, false)
      else (finishOf s (feToBytes (feMul (rootFrom init4 (feFromBytes s)).X feSqrtM1)).2 (rootFrom init4 (feFromBytes s)).Y
        (rootFrom init4 (feFromBytes s)).Z, true)
    else (finishOf s (rootFrom init4 (feFromBytes s)).X (rootFrom init4 (feFromBytes s)).Y (rootFrom init4 (feFromBytes s)).Z, true) := by
  unfold rawDecode
  rw [rawRoot_eq]
  simp only [rawIsNonZero_eq, one_iff, rawFinish_eq]
  rfl

/-- On success the point and the result are those of the model. -/
theorem rawDecode_some {p x : Ext} {s : Arr 32} (h : extFromBytes s = some x) : rawDecode init4 p (intsOf s) = (x, true) := by
  rw [extFromBytes_eq] at h
  rw [rawDecode_eq]
  split at h
  · next c1 =>
    split at h
    · cases h
    · next c2 =>
      rw [if_pos c1, if_neg c2]
      cases h
      rfl
  · next c1 =>
    rw [if_neg c1]
    cases h
    rfl

/-- On failure the result is false. -/
theorem rawDecode_none {p : Ext} {s : Arr 32} (h : extFromBytes s = none) : (rawDecode init4 p (intsOf s)).2 = false := by
  rw [extFromBytes_eq] at h
  rw [rawDecode_eq]
  split at h
  · next c1 =>
    split at h
    · next c2 =>
      rw [if_pos c1, if_pos c2]
    · cases h
  · cases h

/-- `ToBytes`: the bytes are those of the model. -/
theorem rawBytesOf_eq (X Y Z : Fe) : ∀ i < 32, rawBytesOf X Y Z i = intsOf (bytesOf X Y Z) i := by
  intro i hi
  unfold rawBytesOf bytesOf
  dsimp only
  rw [rawBytes_eq, rawIsNegative_eq]
  split
  · next h =>
    subst h
    rw [intsOf_get _ _ (by decide), intsOf_get _ _ (by decide)]
    generalize (feIsNegative (feMul X (feInvert Z))).1 = n
    have e : u8 ((n.toNat : Int) * 2^7) = ((n <<< 7).toNat : Int) := by
      unfold u8
      rw [UInt8.toNat_shiftLeft, Nat.shiftLeft_eq]
      simp
    rw [e, xor8_eq]
    simp
  · next h =>
    rw [intsOf_get _ _ hi, intsOf_get _ _ hi]
    simp
    rw [Vector.getElem_set_ne]
    omega

/-! ### `ScMulAdd` and `ScReduce` -/

theorem load4_lt {n : Nat} (a : Arr n) (i : Nat) : load4 a i < 2^32 := by
  unfold load4
  have h := (a.toList.getD i 0).toNat_lt
  have h' := (a.toList.getD (i + 1) 0).toNat_lt
  have h'' := (a.toList.getD (i + 2) 0).toNat_lt
  have h4 := (a.toList.getD (i + 3) 0).toNat_lt
  refine Nat.or_lt_two_pow (Nat.or_lt_two_pow (Nat.or_lt_two_pow (by omega) ?_) ?_) ?_ <;> rw [Nat.shiftLeft_eq] <;> omega

theorem sar_nat (x k : Nat) : sar (x : Int) k = ((x >>> k : Nat) : Int) := by
  unfold sar
  rw [Nat.shiftRight_eq_div_pow]
  push_cast
  rfl

theorem mask_eq {x : Nat} (h : x < 2^63) : and64 2097151 (x : Int) = ((x &&& 2097151 : Nat) : Int) := by
  rw [Nat.and_comm]
  exact and64_nat 2097151 x (by decide) h

theorem mask3 {n : Nat} (a : Arr n) (i : Nat) : and64 2097151 (rawLoad3 (intsOf a) i) = ((load3 a i &&& 2097151 : Nat) : Int) := by
  rw [rawLoad3_eq, mask_eq (by have := load3_lt a i; omega)]

theorem mask3s {n : Nat} (a : Arr n) (i k : Nat) :
    and64 2097151 (sar (rawLoad3 (intsOf a) i) k) = (((load3 a i >>> k) &&& 2097151 : Nat) : Int) := by
  rw [rawLoad3_eq, sar_nat, mask_eq]
  have := load3_lt a i
  have := Nat.shiftRight_le (load3 a i) k
  omega

theorem mask4s {n : Nat} (a : Arr n) (i k : Nat) :
    and64 2097151 ((load4 a i >>> k : Nat) : Int) = (((load4 a i >>> k) &&& 2097151 : Nat) : Int) := by
  rw [mask_eq]
  have := load4_lt a i
  have := Nat.shiftRight_le (load4 a i) k
  omega

theorem top4 {n : Nat} (a : Arr n) (i k : Nat) : sar (rawLoad4 (intsOf a) i) k = ((load4 a i >>> k : Nat) : Int) := by
  rw [rawLoad4_eq, sar_nat]

theorem rawLimbs12_eq (a : Arr 32) : rawLimbs12 (intsOf a) = limbs12 a := by
  funext i
  unfold rawLimbs12 limbs12
  split <;> simp only [mask3, mask3s, mask4s, top4]

theorem rawLimbs24_eq (a : Arr 64) : rawLimbs24 (intsOf a) = limbs24 a := by
  funext i
  unfold rawLimbs24 limbs24
  split <;> simp only [mask3, mask3s, mask4s, top4]

theorem rawMulLimbs_eq (a b c : Regs) : rawMulLimbs a b c = mulLimbs a b c := by
  funext i
  unfold rawMulLimbs mulLimbs
  split <;> simp only [w64_addr, w64_addl]

theorem ofInt_bmod64 (x : Int) : BitVec.ofInt 64 (Int.bmod x (2^64)) = BitVec.ofInt 64 x := by
  apply BitVec.eq_of_toInt_eq
  simp [BitVec.toInt_ofInt]

theorem byteOr64_eq (x y : Int) : ((byteOr x y).toNat : Int) = u8 (or64 x (w64 y)) := by
  show ((BitVec.ofInt 8 x ||| BitVec.ofInt 8 y).toNat : Int) =
    Int.bmod (BitVec.ofInt 64 x ||| BitVec.ofInt 64 (Int.bmod y (2^64))).toInt (2^64) % 2^8
  rw [ofInt_bmod64]
  generalize e : BitVec.ofInt 64 x ||| BitVec.ofInt 64 y = v
  have e1 : Int.bmod v.toInt (2^64) = v.toInt := by
    have h1 := BitVec.le_toInt v
    have h2 := BitVec.toInt_lt (x := v)
    rw [Int.bmod_eq_of_le] <;> omega
  rw [e1, toInt_emod (k := 8) (by decide), ← e, BitVec.setWidth_or, setWidth_ofInt (by decide), setWidth_ofInt (by decide)]

theorem rawScPack_eq (s : Regs) : rawScPack s = (scPack s).toList.map fun x => (x.toNat : Int) := by
  unfold rawScPack scPack
  simp only [Vector.toList_mk, List.map_cons, List.map_nil, byteOf_eq, byteOr64_eq]

theorem packed (s : Regs) : (fun i => (rawScPack s).getD i 0) = intsOf (scPack s) := by
  funext i
  unfold intsOf
  rw [rawScPack_eq, List.getD_eq_getElem?_getD, List.getD_eq_getElem?_getD, List.getElem?_map]
  cases (scPack s).toList[i]? <;> rfl

theorem rawScMulAdd_eq (a b c : Arr 32) : rawScMulAdd (intsOf a) (intsOf b) (intsOf c) = intsOf (scMulAdd a b c) := by
  unfold rawScMulAdd
  rw [packed, rawLimbs12_eq, rawLimbs12_eq, rawLimbs12_eq, rawMulLimbs_eq]
  unfold maOps scMulAdd scFinish
  simp only [runOps_append]

theorem rawScReduce_eq (a : Arr 64) : rawScReduce (intsOf a) = intsOf (scReduce a) := by
  unfold rawScReduce
  rw [packed, rawLimbs24_eq]
  unfold srOps scReduce scFinish
  simp only [runOps_append]

end Verif.Src.EdSrc
