/-
C49, C50, C53-C55, C60-C62: the field arithmetic of internal/edwards25519, the decoding of points, and `Public.ToBox`.

The bounds are those of the comments in edwards25519.go; `11 * 2 ^ 26 / 10` is 1.1*2^26 rounded down.
-/
import Verif.Lemmas.FromBytes

namespace Verif.Props
open Ed

/-! ### C53: multiplication and squaring -/

/-- A field element whose limbs reach the documented bound 1.1*2^26, 1.1*2^25 in absolute value. -/
def feExtreme : Fe :=
  ⟨73819750, -36909875, 73819750, 36909875, -73819750, 36909875, 73819750, -36909875, 73819750, 36909875⟩

theorem modEq_of_val {f : Fe} {a : Int} (h : f.val = (a : F)) : f.toInt ≡ a [ZMOD p] :=
  (ZMod.intCast_eq_intCast_iff _ _ _).1 h

theorem val_of_modEq {f : Fe} {a : Int} (h : f.toInt ≡ a [ZMOD p]) : f.val = (a : F) :=
  (ZMod.intCast_eq_intCast_iff _ _ _).2 h

/-- C53: `FeMul` computes the product modulo 2^255 - 19, in limbs within the documented bounds, for all limbs within the
documented bounds. -/
theorem C53_mul (f g : Fe) (hf : f.Within (11 * 2 ^ 26 / 10) (11 * 2 ^ 25 / 10))
    (hg : g.Within (11 * 2 ^ 26 / 10) (11 * 2 ^ 25 / 10)) :
    (feMul f g).Within (11 * 2 ^ 25 / 10) (11 * 2 ^ 24 / 10) ∧ (feMul f g).toInt ≡ f.toInt * g.toInt [ZMOD p] := by
  obtain ⟨h1, h2⟩ := feMul_val (hf.mono (by norm_num) (by norm_num)) (hg.mono (by norm_num) (by norm_num))
  refine ⟨h1.mono (by norm_num) (by norm_num), modEq_of_val ?_⟩
  rw [h2]; push_cast; rfl

example : feExtreme.Within (11 * 2 ^ 26 / 10) (11 * 2 ^ 25 / 10) := by constructor <;> decide

/-- C53: `FeSquare` computes the square. -/
theorem C53_square (f : Fe) (hf : f.Within (11 * 2 ^ 26 / 10) (11 * 2 ^ 25 / 10)) :
    (feSquare f).Within (11 * 2 ^ 25 / 10) (11 * 2 ^ 24 / 10) ∧ (feSquare f).toInt ≡ f.toInt ^ 2 [ZMOD p] := by
  obtain ⟨h1, h2⟩ := feSquare_val (hf.mono (by norm_num) (by norm_num))
  refine ⟨h1.mono (by norm_num) (by norm_num), modEq_of_val ?_⟩
  rw [h2]; push_cast; rfl

/-- C53: `FeSquare2` computes twice the square. -/
theorem C53_square2 (f : Fe) (hf : f.Within (165 * 2 ^ 26 / 100) (165 * 2 ^ 25 / 100)) :
    (feSquare2 f).Within (101 * 2 ^ 25 / 100) (101 * 2 ^ 24 / 100) ∧ (feSquare2 f).toInt ≡ 2 * f.toInt ^ 2 [ZMOD p] := by
  obtain ⟨h1, h2⟩ := feSquare2_val (hf.mono (by norm_num) (by norm_num))
  refine ⟨h1.mono (by norm_num) (by norm_num), modEq_of_val ?_⟩
  rw [h2]; push_cast; rfl

example : feExtreme.Within (165 * 2 ^ 26 / 100) (165 * 2 ^ 25 / 100) := by constructor <;> decide

/-! ### C54: inversion -/

/-- C54: `FeInvert` inverts every element that is not zero modulo 2^255 - 19. -/
theorem C54_invert (z : Fe) (hz : z.Within (11 * 2 ^ 26 / 10) (11 * 2 ^ 25 / 10)) (h0 : ¬ (p : Int) ∣ z.toInt) :
    (feInvert z).Within (11 * 2 ^ 25 / 10) (11 * 2 ^ 24 / 10) ∧ z.toInt * (feInvert z).toInt ≡ 1 [ZMOD p] := by
  obtain ⟨h1, h2⟩ := feInvert_val (z := z) (hz.mono (by norm_num) (by norm_num))
  refine ⟨h1.mono (by norm_num) (by norm_num), (ZMod.intCast_eq_intCast_iff _ _ _).1 ?_⟩
  have h3 : z.val ≠ 0 := fun h => h0 ((ZMod.intCast_zmod_eq_zero_iff_dvd _ _).1 h)
  push_cast
  show z.val * (feInvert z).val = 1
  rw [h2, mul_inv_cancel₀ h3]

example : feExtreme.Within (11 * 2 ^ 26 / 10) (11 * 2 ^ 25 / 10) ∧ ¬ (p : Int) ∣ feExtreme.toInt := by
  refine ⟨by constructor <;> decide, by decide +kernel⟩

/-- C54: `FeInvert` maps every representation of zero to zero. -/
theorem C54_invert_zero (z : Fe) (hz : z.Within (11 * 2 ^ 26 / 10) (11 * 2 ^ 25 / 10)) (h0 : (p : Int) ∣ z.toInt) :
    (feInvert z).toInt ≡ 0 [ZMOD p] := by
  obtain ⟨h1, h2⟩ := feInvert_val (z := z) (hz.mono (by norm_num) (by norm_num))
  have h3 : z.val = 0 := (ZMod.intCast_zmod_eq_zero_iff_dvd _ _).2 h0
  refine modEq_of_val ?_
  rw [h2, h3]; simp

/-- The limbs of 2^255 - 19 itself: a representation of zero that is not all zero. -/
def fePrime : Fe := ⟨-19, 0, 0, 0, 0, 0, 0, 0, 0, 33554432⟩

example : fePrime.Within (11 * 2 ^ 26 / 10) (11 * 2 ^ 25 / 10) ∧ (p : Int) ∣ fePrime.toInt ∧ fePrime ≠ feZero := by
  refine ⟨by constructor <;> decide, by decide +kernel, by decide⟩

/-- C54: `fePow22523` raises to the power 2^252 - 3. -/
theorem C54_pow (z : Fe) (hz : z.Within (11 * 2 ^ 26 / 10) (11 * 2 ^ 25 / 10)) :
    (fePow22523 z).Within (11 * 2 ^ 25 / 10) (11 * 2 ^ 24 / 10) ∧
    (fePow22523 z).toInt ≡ z.toInt ^ (2 ^ 252 - 3) [ZMOD p] := by
  obtain ⟨h1, h2⟩ := fePow22523_pow (z := z) (hz.mono (by norm_num) (by norm_num))
  refine ⟨h1.mono (by norm_num) (by norm_num), modEq_of_val ?_⟩
  rw [h2, Int.cast_pow]; rfl

/-! ### C55: serialisation -/

/-- C55: `FeToBytes` writes the little-endian encoding of the residue in 0 .. 2^255 - 20, and leaves that residue in its
argument. The limbs may be four times the documented bound. -/
theorem C55_toBytes (f : Fe) (hf : f.Within (2 ^ 27) (2 ^ 26)) :
    (leNat (feToBytes f).1.toList : Int) = f.toInt % p ∧ (feToBytes f).2.toInt = f.toInt % p :=
  ⟨by rw [feToBytes_num hf, val_eq_emod], by rw [feToBytes_toInt hf, val_eq_emod]⟩

example : feExtreme.Within (2 ^ 27) (2 ^ 26) := by constructor <;> decide

/-- C55: two representations of the same residue have the same encoding. -/
theorem C55_canonical (f g : Fe) (hf : f.Within (2 ^ 27) (2 ^ 26)) (hg : g.Within (2 ^ 27) (2 ^ 26)) :
    (feToBytes f).1 = (feToBytes g).1 ↔ f.toInt ≡ g.toInt [ZMOD p] := by
  have h1 := (C55_toBytes f hf).1
  have h2 := (C55_toBytes g hg).1
  constructor
  · intro h; rw [h] at h1; exact h1.symm.trans h2
  · intro h
    have h3 : leNat (feToBytes f).1.toList = leNat (feToBytes g).1.toList := by
      have h : f.toInt % (p : Int) = g.toInt % (p : Int) := h
      rw [← h1, ← h2] at h; exact_mod_cast h
    have h4 := leNat_inj (by simp) h3
    exact Vector.toList_inj.1 h4

example : (feToBytes fePrime).1 = (feToBytes feZero).1 :=
  (C55_canonical _ _ (by constructor <;> decide) (by constructor <;> decide)).2 (by decide +kernel)

/-- C55: decoding and encoding reduces the low 255 bits modulo 2^255 - 19. -/
theorem C55_fromBytes (s : Arr 32) :
    (feFromBytes s).Within (11 * 2 ^ 25 / 10) (11 * 2 ^ 24 / 10) ∧
    leNat (feToBytes (feFromBytes s)).1.toList = leNat s.toList % 2 ^ 255 % p := by
  obtain ⟨h1, h2⟩ := feFromBytes_spec s
  refine ⟨h1.mono (by norm_num) (by norm_num), ?_⟩
  rw [feToBytes_num h1.wide, h2, ZMod.val_natCast]

/-- C55: hence decoding and encoding restores every string that encodes a number below 2^255 - 19. -/
theorem C55_roundtrip (s : Arr 32) (hs : leNat s.toList < p) : (feToBytes (feFromBytes s)).1 = s := by
  refine Vector.toList_inj.1 (leNat_inj (by simp) ?_)
  rw [(C55_fromBytes s).2, Nat.mod_eq_of_lt (a := leNat s.toList) (by unfold p at hs; omega), Nat.mod_eq_of_lt hs]

example : leNat (Vector.replicate 32 (100 : UInt8)).toList < p := by decide +kernel

/-- C55: `FeIsNegative` is the parity of the residue. -/
theorem C55_isNegative (f : Fe) (hf : f.Within (2 ^ 27) (2 ^ 26)) :
    ((feIsNegative f).1.toNat : Int) = f.toInt % p % 2 ∧ (feIsNegative f).2.toInt = f.toInt % p := by
  refine ⟨?_, (C55_toBytes f hf).2⟩
  rw [feIsNegative_num hf, Int.natCast_mod, val_eq_emod]; rfl

/-- C55: `FeIsNonZero` is 0 for every representation of zero and 1 otherwise. -/
theorem C55_isNonZero (f : Fe) (hf : f.Within (2 ^ 27) (2 ^ 26)) :
    ((feIsNonZero f).1 = if (p : Int) ∣ f.toInt then 0 else 1) ∧ (feIsNonZero f).2.toInt = f.toInt % p := by
  refine ⟨?_, (C55_toBytes f hf).2⟩
  rw [feIsNonZero_eq hf]
  exact if_congr (ZMod.intCast_zmod_eq_zero_iff_dvd _ _) rfl rfl

/-! ### C61: addition, subtraction, negation -/

/-- C61: `FeAdd` adds, for limbs within 1.1*2^25, 1.1*2^24. -/
theorem C61_add (f g : Fe) (hf : f.Within (11 * 2 ^ 25 / 10) (11 * 2 ^ 24 / 10))
    (hg : g.Within (11 * 2 ^ 25 / 10) (11 * 2 ^ 24 / 10)) :
    (feAdd f g).Within (11 * 2 ^ 26 / 10) (11 * 2 ^ 25 / 10) ∧ (feAdd f g).toInt ≡ f.toInt + g.toInt [ZMOD p] := by
  obtain ⟨h1, h2⟩ := feAdd_spec hf hg (by norm_num) (by norm_num)
  refine ⟨h1.mono (by norm_num) (by norm_num), modEq_of_val ?_⟩
  rw [h2]; push_cast; rfl

/-- C61: `FeSub` subtracts. -/
theorem C61_sub (f g : Fe) (hf : f.Within (11 * 2 ^ 25 / 10) (11 * 2 ^ 24 / 10))
    (hg : g.Within (11 * 2 ^ 25 / 10) (11 * 2 ^ 24 / 10)) :
    (feSub f g).Within (11 * 2 ^ 26 / 10) (11 * 2 ^ 25 / 10) ∧ (feSub f g).toInt ≡ f.toInt - g.toInt [ZMOD p] := by
  obtain ⟨h1, h2⟩ := feSub_spec hf hg (by norm_num) (by norm_num)
  refine ⟨h1.mono (by norm_num) (by norm_num), modEq_of_val ?_⟩
  rw [h2]; push_cast; rfl

/-- C61: `FeNeg` negates and keeps any bounds below 2^31. -/
theorem C61_neg (f : Fe) (e o : Int) (hf : f.Within e o) (he : e < 2 ^ 31) (ho : o < 2 ^ 31) :
    (feNeg f).Within e o ∧ (feNeg f).toInt ≡ -f.toInt [ZMOD p] := by
  obtain ⟨h1, h2⟩ := feNeg_spec hf he ho
  refine ⟨h1, modEq_of_val ?_⟩
  rw [h2]; push_cast; rfl

example : (⟨36909875, -18454937, 3, 4, 5, 6, 7, 8, -36909875, 18454937⟩ : Fe).Within (11 * 2 ^ 25 / 10) (11 * 2 ^ 24 / 10) := by
  constructor <;> decide

/-! ### C62: conditional move -/

/-- Every limb is an int32. -/
def IsInt32 (f : Fe) : Prop := f.Within (2 ^ 31 - 1) (2 ^ 31 - 1)

theorem cmoveLimb_zero {x y : Int} (hx : -2 ^ 31 ≤ x ∧ x < 2 ^ 31) : cmoveLimb x y (-(BitVec.ofInt 32 0)) = x := by
  unfold cmoveLimb
  rw [show (-(BitVec.ofInt 32 0)) = 0#32 from rfl, BitVec.zero_and, BitVec.xor_zero, BitVec.toInt_ofInt]
  exact Int.bmod_eq_of_le (by omega) (by omega)

theorem cmoveLimb_one {x y : Int} (hy : -2 ^ 31 ≤ y ∧ y < 2 ^ 31) : cmoveLimb x y (-(BitVec.ofInt 32 1)) = y := by
  unfold cmoveLimb
  rw [show (-(BitVec.ofInt 32 1)) = BitVec.allOnes 32 from rfl, BitVec.allOnes_and, ← BitVec.xor_assoc, BitVec.xor_self,
    BitVec.zero_xor, BitVec.toInt_ofInt]
  exact Int.bmod_eq_of_le (by omega) (by omega)

/-- C62: `FeCMove` keeps its first argument for 0 and takes the second for 1. -/
theorem C62_cmove (f g : Fe) (hf : IsInt32 f) (hg : IsInt32 g) : feCMove f g 0 = f ∧ feCMove f g 1 = g := by
  obtain ⟨f0, f1, f2, f3, f4, f5, f6, f7, f8, f9⟩ := hf
  obtain ⟨g0, g1, g2, g3, g4, g5, g6, g7, g8, g9⟩ := hg
  constructor
  · unfold feCMove
    dsimp only
    rw [cmoveLimb_zero (by omega), cmoveLimb_zero (by omega), cmoveLimb_zero (by omega), cmoveLimb_zero (by omega),
      cmoveLimb_zero (by omega), cmoveLimb_zero (by omega), cmoveLimb_zero (by omega), cmoveLimb_zero (by omega),
      cmoveLimb_zero (by omega), cmoveLimb_zero (by omega)]
  · unfold feCMove
    dsimp only
    rw [cmoveLimb_one (by omega), cmoveLimb_one (by omega), cmoveLimb_one (by omega), cmoveLimb_one (by omega),
      cmoveLimb_one (by omega), cmoveLimb_one (by omega), cmoveLimb_one (by omega), cmoveLimb_one (by omega),
      cmoveLimb_one (by omega), cmoveLimb_one (by omega)]

example : IsInt32 feExtreme ∧ IsInt32 feD := by constructor <;> constructor <;> decide

/-! ### C60: decoding of points -/

/-- C60: a successfully decoded element is the affine point (x, y), with Z = 1 and T = xy, that has the encoded y and lies on the
curve; x has the encoded sign unless x = 0. -/
theorem C60_decode (s : Arr 32) (A : Ext) (h : extFromBytes s = some A) :
    A.Y.val = yOf s ∧ A.Z.val = 1 ∧ A.T.val = A.X.val * A.Y.val ∧ OnCurve A.X.val A.Y.val ∧
    (A.X.val ≠ 0 → A.X.val.val % 2 = leNat s.toList / 2 ^ 255) := by
  have hd := (extFromBytes_spec s).1 A h
  exact ⟨hd.y, hd.z, hd.t, hd.curve, hd.sign⟩

/-- C60: the decoded x is the only one: any point of the curve with the encoded y and the encoded sign is the decoded one. -/
theorem C60_unique (s : Arr 32) (x : F) (hx : OnCurve x (yOf s)) (hs : x.val % 2 = leNat s.toList / 2 ^ 255) :
    ∃ A, extFromBytes s = some A ∧ A.X.val = x := by
  have hsq := exists_onCurve_iff.1 ⟨x, hx⟩
  obtain ⟨A, hA⟩ : ∃ A, extFromBytes s = some A := by
    cases h : extFromBytes s with
    | some A => exact ⟨A, rfl⟩
    | none => exact absurd hsq ((extFromBytes_spec s).2.1 h)
  refine ⟨A, hA, ?_⟩
  have hd := (extFromBytes_spec s).1 A hA
  have h1 := onCurve_iff.1 hd.curve
  rw [hd.y] at h1
  have h2 : A.X.val ^ 2 = x ^ 2 := mul_right_cancel₀ (denom_ne (yOf s)) (h1.trans (onCurve_iff.1 hx).symm)
  rcases sq_eq_sq_iff_eq_or_eq_neg.1 h2 with h | h
  · exact h
  · by_cases h0 : x = 0
    · rw [h, h0, neg_zero]
    · have h3 := hd.sign (by rw [h]; exact neg_ne_zero.2 h0)
      rw [h, neg_parity h0, ← hs] at h3
      omega

/-- The encoding of the base point: y = 4/5, x even. -/
def baseEnc : Arr 32 := ⟨#[0x58, 0x66, 0x66, 0x66, 0x66, 0x66, 0x66, 0x66, 0x66, 0x66, 0x66, 0x66, 0x66, 0x66, 0x66, 0x66,
  0x66, 0x66, 0x66, 0x66, 0x66, 0x66, 0x66, 0x66, 0x66, 0x66, 0x66, 0x66, 0x66, 0x66, 0x66, 0x66], rfl⟩

/-- The even x-coordinate of the base point. -/
def baseX : F := ((15112221349535400772501151409588531511454012693041857206046113283949847762202 : Nat) : F)

theorem baseEnc_y : yOf baseEnc = 4 / 5 := by
  have h5 : (5 : F) ≠ 0 := by
    have h : ((5 : Nat) : F) ≠ 0 := by
      rw [Ne, ZMod.natCast_eq_zero_iff]; decide +kernel
    exact_mod_cast h
  rw [eq_div_iff h5, yOf, show leNat baseEnc.toList % 2 ^ 255 = 46316835694926478169428394003475163141307993866256225615783033603165251855960 by decide +kernel, ← sub_eq_zero]
  have h : ((46316835694926478169428394003475163141307993866256225615783033603165251855960 * 5 - 4 : Int) : F) = 0 := int_zero (by decide +kernel)
  push_cast at h ⊢; exact h

theorem base_onCurve : OnCurve baseX (yOf baseEnc) := by
  rw [onCurve_iff, yOf, show leNat baseEnc.toList % 2 ^ 255 = 46316835694926478169428394003475163141307993866256225615783033603165251855960 by decide +kernel, ← feD_spec.2, baseX, Fe.val,
    ← sub_eq_zero]
  have h : ((15112221349535400772501151409588531511454012693041857206046113283949847762202 ^ 2 * (feD.toInt * 46316835694926478169428394003475163141307993866256225615783033603165251855960 ^ 2 + 1) - (46316835694926478169428394003475163141307993866256225615783033603165251855960 ^ 2 - 1) : Int) : F) = 0 := int_zero (by decide +kernel)
  push_cast at h ⊢; exact h

example : OnCurve baseX (yOf baseEnc) ∧ baseX.val % 2 = leNat baseEnc.toList / 2 ^ 255 := by
  refine ⟨base_onCurve, ?_⟩
  rw [baseX, ZMod.val_natCast_of_lt (by norm_num)]
  decide +kernel

/-! ### C49, C50: `Public.ToBox` -/

theorem toBoxBytes_none {key : Arr 32} (h : extFromBytes key = none) :
    Public.toBoxBytes key = .err .invalidPublicKey := by
  exact congrArg Public.boxOfPoint h

theorem toBoxBytes_some {key : Arr 32} {A : Ext} (h : extFromBytes key = some A) :
    Public.toBoxBytes key = .ok (feToBytes (feMul (feAdd feOne A.Y) (feInvert (feSub feOne A.Y)))).1 := by
  exact congrArg Public.boxOfPoint h

/-- C50: `ToBox` fails exactly when no point of the curve has the encoded y-coordinate, that is, when
(y^2 - 1)/(d y^2 + 1) is not a square; the error is then "invalid public key", and there is no other way to fail. -/
theorem C50_rejects (pub : Public) :
    (pub.toBox = .err .invalidPublicKey ↔ ¬ ∃ x, OnCurve x (yOf pub.key)) ∧
    ((∃ x, OnCurve x (yOf pub.key)) ↔ IsSquare ((yOf pub.key ^ 2 - 1) / (d * yOf pub.key ^ 2 + 1))) ∧
    ((∃ x, OnCurve x (yOf pub.key)) → ∃ k, pub.toBox = .ok k) := by
  have h := (extFromBytes_spec pub.key).2
  rw [← exists_onCurve_iff] at h
  refine ⟨?_, exists_onCurve_iff, ?_⟩
  · rw [← h]
    constructor
    · intro he
      cases hA : extFromBytes pub.key with
      | none => rfl
      | some A => exact absurd ((toBoxBytes_some hA).symm.trans he) (by simp)
    · exact toBoxBytes_none
  · intro hx
    cases he : extFromBytes pub.key with
    | none => exact absurd hx (h.1 he)
    | some A => exact ⟨_, toBoxBytes_some he⟩

/-- C49: what `ToBox` returns is the encoding, below 2^255 - 19, of (1+y)/(1-y). -/
theorem C49_montgomery (pub : Public) (k : Arr 32) (h : pub.toBox = .ok k) :
    leNat k.toList < p ∧ (leNat k.toList : F) = (1 + yOf pub.key) / (1 - yOf pub.key) := by
  have hs := (extFromBytes_spec pub.key).1
  cases he : extFromBytes pub.key with
  | none => exact absurd ((toBoxBytes_none he).symm.trans h) (by simp)
  | some A =>
    have hd := hs A he
    have hk := Res.ok.inj ((toBoxBytes_some he).symm.trans h)
    obtain ⟨b1, v1⟩ := feSub_spec feOne_spec.1 hd.hY (by norm_num) (by norm_num)
    obtain ⟨b2, v2⟩ := feAdd_spec feOne_spec.1 hd.hY (by norm_num) (by norm_num)
    obtain ⟨b3, v3⟩ := feInvert_val (b1.mono (by norm_num) (by norm_num))
    obtain ⟨b4, v4⟩ := feMul_val (b2.mono (by norm_num) (by norm_num)) b3.ok
    have hn := feToBytes_num b4.wide
    rw [hk] at hn
    rw [hn]
    refine ⟨ZMod.val_lt _, ?_⟩
    rw [ZMod.natCast_zmod_val, v4, v3, v2, v1, hd.y, feOne_spec.2, div_eq_mul_inv]

/-- C49: for y = 1, where 1 - y has no inverse, `ToBox` returns 32 zero bytes. -/
theorem C49_one (pub : Public) (h : yOf pub.key = 1) : pub.toBox = .ok (Vector.replicate 32 0) := by
  obtain ⟨k, hk⟩ := (C50_rejects pub).2.2 ⟨0, by rw [h, OnCurve]; ring⟩
  obtain ⟨h1, h2⟩ := C49_montgomery pub k hk
  rw [hk]
  congr 1
  rw [h, sub_self, div_zero, ZMod.natCast_eq_zero_iff] at h2
  refine Vector.toList_inj.1 (leNat_inj (by simp) ?_)
  rw [Nat.eq_zero_of_dvd_of_lt h2 h1]
  decide +kernel

/-- The public key that is the base point. -/
def basePub : Public := ⟨Vector.replicate 2 0, Vector.replicate 8 0, baseEnc⟩

/-- C49: the base point converts to u = 9, the X25519 base point. -/
theorem C49_base : ∃ k, basePub.toBox = .ok k ∧ leNat k.toList = 9 := by
  obtain ⟨k, hk⟩ := (C50_rejects basePub).2.2 ⟨baseX, base_onCurve⟩
  refine ⟨k, hk, ?_⟩
  obtain ⟨h1, h2⟩ := C49_montgomery basePub k hk
  have h5 : (5 : F) ≠ 0 := by
    have h : ((5 : Nat) : F) ≠ 0 := by
      rw [Ne, ZMod.natCast_eq_zero_iff]; decide +kernel
    exact_mod_cast h
  have h3 : (leNat k.toList : F) = ((9 : Nat) : F) := by
    rw [h2, show yOf basePub.key = 4 / 5 from baseEnc_y]
    have : (1 : F) - 4 / 5 = 1 / 5 := by field_simp; norm_num
    rw [this]; field_simp; norm_num
  have h4 := congrArg ZMod.val h3
  rw [ZMod.val_natCast_of_lt h1, ZMod.val_natCast_of_lt (by norm_num)] at h4
  exact h4

end Verif.Props
