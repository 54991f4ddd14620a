/-
Model of the scalar multiplications in signify/internal/edwards25519/edwards25519.go, lines 845-1014.
-/
import Verif.Model.Tables

namespace Verif.Ed

/-- The value of an integer after truncation to int8. -/
def w8 (x : Int) : Int := Int.bmod x (2 ^ 8)

/-! ### `GeScalarMultBase` -/

/-- edwards25519.go:932-936 `equal` on int32. -/
def equal (b c : Int) : Int := (((BitVec.ofInt 32 b ^^^ BitVec.ofInt 32 c) - 1) >>> 31).toInt

/-- edwards25519.go:939-941 `negative` on int32; `>>` on int32 is arithmetic. -/
def negative (b : Int) : Int := ((BitVec.ofInt 32 b).sshiftRight 31 &&& 1).toInt

/-- edwards25519.go:943-947 `PreComputedGroupElementCMove`. -/
def preCMove (t u : Pre) (b : Int) : Pre :=
  ⟨feCMove t.yPlusX u.yPlusX b, feCMove t.yMinusX u.yMinusX b, feCMove t.xy2d u.xy2d b⟩

/-- `base[pos][i]`. Both indices are in range in all uses, so the default values are never used. -/
def baseEntry (pos : Fin 32) (i : Fin 8) : Pre := (baseTable.getD pos.val []).getD i.val Pre.zero

/-- edwards25519.go:952 `bAbs := b - (((-bNegative) & b) << 1)` on int32. -/
def absOf (b bNegative : Int) : Int :=
  (BitVec.ofInt 32 b - ((-(BitVec.ofInt 32 bNegative) &&& BitVec.ofInt 32 b) <<< 1)).toInt

/-- edwards25519.go:949-962 `selectPoint`. -/
def selectPoint (pos : Fin 32) (b : Int) : Pre :=
  let bNegative := negative b
  let bAbs := absOf b bNegative
  let t := (List.finRange 8).foldl (fun t i => preCMove t (baseEntry pos i) (equal bAbs (i.val + 1))) Pre.zero
  let minusT : Pre := ⟨t.yMinusX, t.yPlusX, feNeg t.xy2d⟩
  preCMove t minusT bNegative

/-- edwards25519.go:973-976: the 64 nibbles of the scalar. -/
def nibbles (a : Arr 32) : List Int :=
  a.toList.flatMap fun (v : UInt8) => [((v &&& 15).toNat : Int), (((v >>> 4) &&& 15).toNat : Int)]

/-- edwards25519.go:980-986: the signed digits. Every step is on int8. -/
def recode : Int → List Int → List Int
  | _, [] => []
  | carry, [x] => [w8 (x + carry)]
  | carry, x :: y :: xs =>
    let x := w8 (x + carry)
    let carry := sar (w8 (x + 8)) 4
    w8 (x - w8 (carry * 2 ^ 4)) :: recode carry (y :: xs)

/-- edwards25519.go:992-996 and 1009-1013: one pass over every second digit; `pos` is `i/2`. -/
def addDigits (digit : Nat → Int) (h : Ext) : Ext :=
  (List.finRange 32).foldl (fun h pos => (geMixedAdd h (selectPoint pos (digit pos.val))).toExt) h

/-- edwards25519.go:970-1014 `GeScalarMultBase`. -/
def geScalarMultBase (a : Arr 32) : Ext :=
  let e := recode 0 (nibbles a)
  let h := addDigits (fun pos => e.getD (2 * pos + 1) 0) Ext.zero
  let s := h.double.toProj
  let s := s.double.toProj
  let s := s.double.toProj
  let h := s.double.toExt
  addDigits (fun pos => e.getD (2 * pos) 0) h

/-! ### `slide` -/

/-- An array `[256]int8`; only indices below 256 are used. -/
abbrev Digits := Nat → Int

/-- Store at an index. -/
def Digits.set (r : Digits) (i : Nat) (v : Int) : Digits := fun j => if j = i then v else r j

/-- edwards25519.go:847: bit `i` of the scalar. -/
def bitOf (a : Arr 32) (i : Nat) : Int := ((1 &&& (a.toList.getD (i / 8) 0 >>> UInt8.ofNat (i % 8))).toNat : Int)

/-- edwards25519.go:859-865: the loop `for k := i + b; k < 256; k++`, with `n = 256 - k` iterations left. -/
def slideCarry : Nat → Nat → Digits → Digits
  | 0, _, r => r
  | n + 1, k, r => if r k = 0 then r.set k 1 else slideCarry n (k + 1) (r.set k 0)

/-- edwards25519.go:852-870: the loop over `b`, with `n = 7 - b` iterations left. -/
def slideInner (i : Nat) : Nat → Nat → Digits → Digits
  | 0, _, r => r
  | n + 1, b, r =>
    if i + b < 256 then
      if r (i + b) ≠ 0 then
        if w8 (r i + w8 (r (i + b) * 2 ^ b)) ≤ 15 then
          slideInner i n (b + 1) ((r.set i (w8 (r i + w8 (r (i + b) * 2 ^ b)))).set (i + b) 0)
        else if w8 (r i - w8 (r (i + b) * 2 ^ b)) ≥ -15 then
          slideInner i n (b + 1) (slideCarry (256 - (i + b)) (i + b) (r.set i (w8 (r i - w8 (r (i + b) * 2 ^ b)))))
        else r
      else slideInner i n (b + 1) r
    else r

/-- edwards25519.go:850-872: the outer loop, with `n = 256 - i` iterations left. -/
def slideOuter : Nat → Nat → Digits → Digits
  | 0, _, r => r
  | n + 1, i, r => slideOuter n (i + 1) (if r i ≠ 0 then slideInner i 6 1 r else r)

/-- edwards25519.go:845-873 `slide`. -/
def slide (a : Arr 32) : Digits := slideOuter 256 0 fun i => if i < 256 then bitOf a i else 0

/-! ### `GeDoubleScalarMultVartime` -/

/-- edwards25519.go:893-897: the next odd multiples; `n` are left to compute. -/
def oddMultiples (A2 : Ext) : Nat → Cached → List Cached
  | 0, c => [c]
  | n + 1, c => c :: oddMultiples A2 n (geAdd A2 c).toExt.toCached

/-- edwards25519.go:901-905: the loop `for i = 255; i >= 0; i--` that skips leading zeros; the result is `i + 1`. -/
def topDigit (a b : Digits) : Nat → Nat
  | 0 => 0
  | i + 1 => if a i ≠ 0 ∨ b i ≠ 0 then i + 1 else topDigit a b i

/-- Table access by `x/2` for `x > 0`; an index out of range panics. -/
def tableAt {α : Type} (t : List α) (x : Int) : Res α :=
  match t[(x / 2).toNat]? with
  | some c => .ok c
  | none => .panic

/-- edwards25519.go:910-916: add the multiple of A for digit `x`. -/
def addOwn (Ai : List Cached) (x : Int) (t : Comp) : Res Comp :=
  if x > 0 then do let c ← tableAt Ai x; pure (geAdd t.toExt c)
  else if x < 0 then do let c ← tableAt Ai (w8 (-x)); pure (geSub t.toExt c)
  else pure t

/-- edwards25519.go:918-924: add the multiple of the base point for digit `y`. -/
def addBase (y : Int) (t : Comp) : Res Comp :=
  if y > 0 then do let c ← tableAt biTable y; pure (geMixedAdd t.toExt c)
  else if y < 0 then do let c ← tableAt biTable (w8 (-y)); pure (geMixedSub t.toExt c)
  else pure t

/-- edwards25519.go:908-926: the body of the loop for digit `x` of the first scalar and `y` of the second one. -/
def doubleStep (Ai : List Cached) (x y : Int) (r : Proj) : Res Proj := do
  let t ← addOwn Ai x r.double
  let t ← addBase y t
  pure t.toProj

/-- edwards25519.go:907-927: the loop from digit `i - 1` down. -/
def doubleLoop (Ai : List Cached) (a b : Digits) : Nat → Proj → Res Proj
  | 0, r => .ok r
  | i + 1, r => do
    let r ← doubleStep Ai (a i) (b i) r
    doubleLoop Ai a b i r

/-- edwards25519.go:879-928 `GeDoubleScalarMultVartime`. -/
def geDoubleScalarMultVartime (a : Arr 32) (A : Ext) (b : Arr 32) : Res Proj :=
  let aSlide := slide a
  let bSlide := slide b
  let A2 := A.double.toExt
  let Ai := oddMultiples A2 7 A.toCached
  doubleLoop Ai aSlide bSlide (topDigit aSlide bSlide 256) Proj.zero

end Verif.Ed
