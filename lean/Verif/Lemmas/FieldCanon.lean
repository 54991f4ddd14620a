/-
`FeToBytes`, `FeIsNegative` and `FeIsNonZero` on field values; square roots in the field.
-/
import Verif.Lemmas.FieldBytes
import Verif.Lemmas.AllBytes
import Mathlib.NumberTheory.LegendreSymbol.Basic

namespace Verif.Ed

/-- Bounds under which `FeToBytes` is exact. -/
abbrev Fe.Wide (f : Fe) : Prop := f.Within (2 ^ 27) (2 ^ 26)

theorem Fe.Small.wide {f : Fe} (h : f.Small) : f.Wide := h.mono (by norm_num) (by norm_num)
theorem Fe.Ok.wide {f : Fe} (h : f.Ok) : f.Wide := h.mono (by norm_num) (by norm_num)

theorem Fe.Digits.within {f : Fe} (h : f.Digits) : f.Within (2 ^ 26) (2 ^ 25) := by
  obtain ⟨h0, h1, h2, h3, h4, h5, h6, h7, h8, h9⟩ := h
  constructor <;> constructor <;> omega

theorem Fe.Digits.ok {f : Fe} (h : f.Digits) : f.Ok := h.within.mono (by norm_num) (by norm_num)

theorem val_eq_emod (f : Fe) : ((f.val.val : Nat) : Int) = f.toInt % (p : Nat) := ZMod.val_intCast f.toInt

theorem feToBytes_num {f : Fe} (hf : f.Wide) : leNat (feToBytes f).1.toList = f.val.val := by
  obtain ⟨hd, he⟩ := feReduce_spec hf
  have h1 := fePack_spec hd
  rw [he, ← val_eq_emod] at h1
  exact_mod_cast h1

theorem feToBytes_val {f : Fe} (hf : f.Wide) : (feToBytes f).2.Digits ∧ (feToBytes f).2.val = f.val := by
  obtain ⟨hd, he⟩ := feReduce_spec hf
  refine ⟨hd, ?_⟩
  show ((feReduce f).toInt : F) = (f.toInt : F)
  rw [he, ZMod.intCast_eq_intCast_iff]
  exact Int.mod_modEq _ _

theorem feToBytes_toInt {f : Fe} (hf : f.Wide) : (feToBytes f).2.toInt = (f.val.val : Nat) := by
  rw [val_eq_emod]; exact (feReduce_spec hf).2

theorem leNat_head {b : UInt8} {l : Bytes} : leNat (b :: l) = b.toNat + 256 * leNat l := rfl

theorem and_one_toNat : ∀ b : UInt8, (b &&& 1).toNat = b.toNat % 2 := forall_byte (by decide +kernel)

theorem leNat_mod_two (l : Bytes) (h : 0 < l.length) : leNat l % 2 = l[0].toNat % 2 := by
  match l, h with
  | b :: l, _ => rw [leNat_head, List.getElem_cons_zero]; omega

theorem feIsNegative_num {f : Fe} (hf : f.Wide) : (feIsNegative f).1.toNat = f.val.val % 2 := by
  have h := feToBytes_num hf
  unfold feIsNegative
  dsimp only
  generalize (feToBytes f).1 = v at h ⊢
  rw [and_one_toNat, ← h, ← Vector.getElem_toList (by simp)]
  exact (leNat_mod_two _ _).symm

theorem foldOr_eq (l : Bytes) : ∀ a : UInt8, l.foldl (fun x b => x ||| b) a = 0 ↔ a = 0 ∧ leNat l = 0 := by
  induction l with
  | nil => intro a; simp [leNat]
  | cons b l ih =>
    intro a
    rw [List.foldl_cons, ih, leNat_head, UInt8.or_eq_zero_iff]
    have : b = 0 ↔ b.toNat = 0 := by rw [← UInt8.toNat_inj]; rfl
    rw [this, and_assoc]
    constructor
    · rintro ⟨h1, h2, h3⟩; exact ⟨h1, by omega⟩
    · rintro ⟨h1, h2⟩; exact ⟨h1, by omega, by omega⟩

theorem fold_bit : ∀ x : UInt8, ((x ||| x >>> 4) ||| (x ||| x >>> 4) >>> 2 ||| ((x ||| x >>> 4) ||| (x ||| x >>> 4) >>> 2) >>> 1) &&& 1 =
    if x = 0 then 0 else 1 := forall_byte (by decide +kernel)

theorem feIsNonZero_eq {f : Fe} (hf : f.Wide) : (feIsNonZero f).1 = if f.val = 0 then 0 else 1 := by
  have h := feToBytes_num hf
  unfold feIsNonZero
  dsimp only
  rw [fold_bit]
  have : (f.val = 0) ↔ (feToBytes f).1.toList.foldl (fun x b => x ||| b) 0 = 0 := by
    rw [foldOr_eq, h]; simp [ZMod.val_eq_zero]
  simp only [this]

/-! ### Constants -/

theorem n121666 : (121666 : F) ≠ 0 := by
  have h : ((121666 : Nat) : F) ≠ 0 := by
    rw [Ne, ZMod.natCast_eq_zero_iff]
    exact fun h => absurd (Nat.le_of_dvd (by norm_num) h) (by norm_num)
  exact_mod_cast h

theorem int_zero {a : Int} (h : a % (2 ^ 255 - 19) = 0) : (a : F) = 0 := by
  rw [ZMod.intCast_zmod_eq_zero_iff_dvd]
  exact Int.dvd_of_emod_eq_zero (by rw [show ((p : Nat) : Int) = 2 ^ 255 - 19 by norm_num]; exact h)

theorem feD_spec : feD.Small ∧ feD.val = d := by
  refine ⟨by constructor <;> norm_num [feD], ?_⟩
  rw [d, eq_div_iff n121666, ← sub_eq_zero]
  have h : ((feD.toInt * 121666 - -121665 : Int) : F) = 0 := int_zero (by decide +kernel)
  rw [Fe.val]; push_cast at h; exact h

theorem feSqrtM1_spec : feSqrtM1.Small ∧ feSqrtM1.val ^ 2 = -1 := by
  refine ⟨by constructor <;> norm_num [feSqrtM1], ?_⟩
  rw [← sub_eq_zero]
  have h : ((feSqrtM1.toInt ^ 2 - -1 : Int) : F) = 0 := int_zero (by decide +kernel)
  rw [Fe.val]; push_cast at h ⊢; exact h

/-- `d` is not a square. -/
theorem d_nonsquare : ¬ IsSquare d := by
  have hd : d = ((37095705934669439343138083508754565189542113879843219016388785533085940283555 : Nat) : F) := by
    rw [d, div_eq_iff n121666, ← sub_eq_zero]
    have h : ((-121665 - (37095705934669439343138083508754565189542113879843219016388785533085940283555 : Nat) * 121666 : Int) : F) = 0 :=
      int_zero (by decide +kernel)
    push_cast at h ⊢; exact h
  rw [hd]
  generalize hn : 37095705934669439343138083508754565189542113879843219016388785533085940283555 = n
  have hp : ∀ e, (n : F) ^ e = ((n ^ e % p : Nat) : F) := by
    intro e; rw [ZMod.natCast_mod]; push_cast; rfl
  have hpow : n ^ (p / 2) % p = p - 1 := by
    rw [← powMod_eq p 255 n (p / 2) (by norm_num), ← hn]; decide +kernel
  intro hs
  by_cases h0 : (n : F) = 0
  · have h1 := hp (p / 2)
    rw [hpow, h0, zero_pow (by norm_num)] at h1
    have h2 := congrArg ZMod.val h1
    rw [ZMod.val_natCast_of_lt (by norm_num), ZMod.val_zero] at h2
    norm_num at h2
  · have h1 := (ZMod.euler_criterion p h0).1 hs
    rw [hp, hpow] at h1
    have h2 := congrArg ZMod.val h1
    rw [ZMod.val_natCast_of_lt (by norm_num), ZMod.val_one] at h2
    norm_num at h2

/-- The denominator of the curve equation never vanishes. -/
theorem denom_ne (y : F) : d * y ^ 2 + 1 ≠ 0 := by
  intro h
  have hy : y ≠ 0 := by rintro rfl; simp at h
  refine d_nonsquare ⟨feSqrtM1.val / y, ?_⟩
  have h2 := feSqrtM1_spec.2
  field_simp
  linear_combination h - h2

/-- Euler's criterion in the shape needed for the square root. -/
theorem sqrt_cases {u v x : F} (hv : v ≠ 0) (hx : x = (u * v ^ 7) ^ (2 ^ 252 - 3) * v ^ 3 * u) :
    (IsSquare (u / v) ↔ x ^ 2 * v = u ∨ x ^ 2 * v = -u) := by
  have hE : x ^ 2 * v = u * (u * v ^ 7) ^ (2 ^ 253 - 5) := by
    have e : (2 ^ 253 - 5 : Nat) = (2 ^ 252 - 3) * 2 + 1 := by norm_num
    rw [e, pow_succ _ ((2 ^ 252 - 3) * 2), pow_mul, hx]
    generalize (u * v ^ 7) ^ (2 ^ 252 - 3) = t
    ring
  constructor
  · rintro ⟨s, hs⟩
    have hu : u = s * s * v := by rw [← hs]; field_simp
    have hw : u * v ^ 7 = (s * v ^ 4) ^ 2 := by rw [hu]; ring
    by_cases h0 : s = 0
    · left; rw [hE, hu, h0]; ring
    · have hn : s * v ^ 4 ≠ 0 := mul_ne_zero h0 (pow_ne_zero _ hv)
      rw [hE, hw, ← pow_mul, show 2 * (2 ^ 253 - 5) = p / 2 by norm_num]
      rcases ZMod.pow_div_two_eq_neg_one_or_one p hn with h | h
      · left; rw [h, mul_one]
      · right; rw [h]; ring
  · rintro (h | h)
    · exact ⟨x, by rw [← h]; field_simp⟩
    · refine ⟨x * feSqrtM1.val, ?_⟩
      have h2 := feSqrtM1_spec.2
      field_simp
      linear_combination h - x ^ 2 * v * h2

end Verif.Ed
