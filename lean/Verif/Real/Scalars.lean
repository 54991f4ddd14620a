/-
The scalar functions of `Model/Scalar.lean` and `Model/ScalarMult.lean` with arrays in place of functions as stores, so that they can
be run, and the proof that they are the same functions.
-/
import Verif.Model.Scalar
import Verif.Model.ScalarMult
import Verif.Spec.Assembled

namespace Verif.Real
open Ed

/-- The store that an array stands for. -/
def at0 (a : Array Int) : Nat → Int := fun i => a.getD i 0

/-- Assignment. -/
def put (a : Array Int) (i : Nat) (v : Int) : Array Int := a.setIfInBounds i v

@[simp] theorem put_size (a : Array Int) (i : Nat) (v : Int) : (put a i v).size = a.size := by simp [put]

theorem at0_put_regs {a : Array Int} {i : Nat} (h : i < a.size) (v : Int) : at0 (put a i v) = Regs.set (at0 a) i v := by
  funext j
  unfold at0 put Regs.set
  by_cases hj : j = i
  · subst hj; simp [h]
  · rw [if_neg hj]
    simp only [Array.getD_eq_getD_getElem?]
    rw [Array.getElem?_setIfInBounds_ne (Ne.symm hj)]

theorem at0_put_digits {a : Array Int} {i : Nat} (h : i < a.size) (v : Int) : at0 (put a i v) = Digits.set (at0 a) i v :=
  at0_put_regs h v

/-! ### `ScMulAdd`, `ScReduce` -/

def carryA (c : Int) (i : Nat) (a : Array Int) : Array Int :=
  let a := put a (i + 1) (w64 (at0 a (i + 1) + c))
  put a i (w64 (at0 a i - w64 (c * 2 ^ 21)))

def runA : ScOp → Array Int → Array Int
  | .round i, s => carryA (sar (w64 (at0 s i + 2 ^ 20)) 21) i s
  | .floor i, s => carryA (sar (at0 s i) 21) i s
  | .fold k, s =>
    let s := put s (k - 12) (w64 (at0 s (k - 12) + w64 (at0 s k * 666643)))
    let s := put s (k - 11) (w64 (at0 s (k - 11) + w64 (at0 s k * 470296)))
    let s := put s (k - 10) (w64 (at0 s (k - 10) + w64 (at0 s k * 654183)))
    let s := put s (k - 9) (w64 (at0 s (k - 9) - w64 (at0 s k * 997805)))
    let s := put s (k - 8) (w64 (at0 s (k - 8) + w64 (at0 s k * 136657)))
    let s := put s (k - 7) (w64 (at0 s (k - 7) - w64 (at0 s k * 683901)))
    put s k 0

/-- Only the 24 variables occur. -/
def inRange : ScOp → Bool
  | .round i => i + 1 < 24
  | .floor i => i + 1 < 24
  | .fold k => k < 24

theorem carryA_size (c : Int) (i : Nat) (a : Array Int) : (carryA c i a).size = a.size := by simp [carryA]

theorem runA_size (op : ScOp) (a : Array Int) : (runA op a).size = a.size := by
  cases op <;> simp [runA, carryA_size]

theorem carryA_spec (c : Int) {i : Nat} {a : Array Int} (h : i + 1 < a.size) : at0 (carryA c i a) = carryBy c i (at0 a) := by
  unfold carryA carryBy
  dsimp only
  rw [at0_put_regs (by rw [put_size]; omega), at0_put_regs h]

theorem runA_spec (op : ScOp) (a : Array Int) (hs : a.size = 24) (h : inRange op = true) : at0 (runA op a) = op.run (at0 a) := by
  cases op with
  | round i => exact carryA_spec _ (by simp [inRange] at h; omega)
  | floor i => exact carryA_spec _ (by simp [inRange] at h; omega)
  | fold k =>
    have hk : k < 24 := by simpa [inRange] using h
    unfold runA ScOp.run
    dsimp only
    rw [at0_put_regs (by simp only [put_size]; omega), at0_put_regs (by simp only [put_size]; omega),
      at0_put_regs (by simp only [put_size]; omega), at0_put_regs (by simp only [put_size]; omega),
      at0_put_regs (by simp only [put_size]; omega), at0_put_regs (by simp only [put_size]; omega),
      at0_put_regs (by omega)]

def runOpsA (l : List ScOp) (a : Array Int) : Array Int := l.foldl (fun s op => runA op s) a

theorem runOpsA_spec (l : List ScOp) : ∀ a : Array Int, a.size = 24 → l.all inRange = true →
    (runOpsA l a).size = 24 ∧ at0 (runOpsA l a) = runOps l (at0 a) := by
  induction l with
  | nil => intro a hs _; exact ⟨hs, rfl⟩
  | cons op l ih =>
    intro a hs h
    simp only [List.all_cons, Bool.and_eq_true] at h
    have := ih (runA op a) (by rw [runA_size, hs]) h.2
    rw [runA_spec op a hs h.1] at this
    exact this

/-- The first 24 values of a store. -/
def tabulate (s : Regs) : Array Int := Array.ofFn fun i : Fin 24 => s i.val

theorem at0_tabulate {s : Regs} (h : ∀ i, 24 ≤ i → s i = 0) : at0 (tabulate s) = s := by
  funext i
  unfold at0 tabulate
  by_cases hi : i < 24
  · simp [hi]
  · simp [hi, h i (by omega)]

def scFinishA (a : Array Int) : Arr 32 :=
  scPack (at0 (runOpsA carry11 (runOpsA [.fold 12] (runOpsA carry12 (runOpsA (foldHigh ++ reduceLow) a)))))

theorem scFinishA_spec {a : Array Int} (hs : a.size = 24) : scFinishA a = scFinish (at0 a) := by
  unfold scFinishA scFinish
  obtain ⟨h1, e1⟩ := runOpsA_spec (foldHigh ++ reduceLow) a hs (by decide)
  obtain ⟨h2, e2⟩ := runOpsA_spec carry12 _ h1 (by decide)
  obtain ⟨h3, e3⟩ := runOpsA_spec [.fold 12] _ h2 (by decide)
  obtain ⟨h4, e4⟩ := runOpsA_spec carry11 _ h3 (by decide)
  rw [e4, e3, e2, e1]

def scReduceA (s : Arr 64) : Arr 32 := scFinishA (tabulate (limbs24 s))

theorem limbs24_high (s : Arr 64) (i : Nat) (h : 24 ≤ i) : limbs24 s i = 0 := by
  match i, h with
  | i + 24, _ => rfl

theorem scReduceA_spec (s : Arr 64) : scReduceA s = scReduce s := by
  unfold scReduceA scReduce
  rw [scFinishA_spec (by simp [tabulate]), at0_tabulate (limbs24_high s)]

def scMulAddA (a b c : Arr 32) : Arr 32 :=
  let x := tabulate (limbs12 a)
  let y := tabulate (limbs12 b)
  let z := tabulate (limbs12 c)
  scFinishA (runOpsA mulCarries (tabulate (mulLimbs (at0 x) (at0 y) (at0 z))))

theorem limbs12_high (s : Arr 32) (i : Nat) (h : 24 ≤ i) : limbs12 s i = 0 := by
  match i, h with
  | i + 24, _ => rfl

theorem mulLimbs_high (a b c : Regs) (i : Nat) (h : 24 ≤ i) : mulLimbs a b c i = 0 := by
  match i, h with
  | i + 24, _ => rfl

theorem scMulAddA_spec (a b c : Arr 32) : scMulAddA a b c = scMulAdd a b c := by
  unfold scMulAddA scMulAdd
  dsimp only
  rw [at0_tabulate (limbs12_high a), at0_tabulate (limbs12_high b), at0_tabulate (limbs12_high c)]
  obtain ⟨h1, e1⟩ := runOpsA_spec mulCarries (tabulate (mulLimbs (limbs12 a) (limbs12 b) (limbs12 c))) (by simp [tabulate]) (by decide)
  rw [scFinishA_spec h1, e1, at0_tabulate (mulLimbs_high _ _ _)]

/-! ### `slide` -/

def slideCarryA : Nat → Nat → Array Int → Array Int
  | 0, _, r => r
  | n + 1, k, r => if at0 r k = 0 then put r k 1 else slideCarryA n (k + 1) (put r k 0)

theorem slideCarryA_spec (n : Nat) : ∀ k r, k + n ≤ r.size →
    (slideCarryA n k r).size = r.size ∧ at0 (slideCarryA n k r) = slideCarry n k (at0 r) := by
  induction n with
  | zero => intro k r _; exact ⟨rfl, rfl⟩
  | succ n ih =>
    intro k r h
    unfold slideCarryA slideCarry
    split
    · exact ⟨put_size _ _ _, at0_put_digits (by omega) _⟩
    · have := ih (k + 1) (put r k 0) (by rw [put_size]; omega)
      rw [put_size, at0_put_digits (by omega)] at this
      exact this

def slideInnerA (i : Nat) : Nat → Nat → Array Int → Array Int
  | 0, _, r => r
  | n + 1, b, r =>
    if i + b < 256 then
      if at0 r (i + b) ≠ 0 then
        if w8 (at0 r i + w8 (at0 r (i + b) * 2 ^ b)) ≤ 15 then
          slideInnerA i n (b + 1) (put (put r i (w8 (at0 r i + w8 (at0 r (i + b) * 2 ^ b)))) (i + b) 0)
        else if w8 (at0 r i - w8 (at0 r (i + b) * 2 ^ b)) ≥ -15 then
          slideInnerA i n (b + 1) (slideCarryA (256 - (i + b)) (i + b) (put r i (w8 (at0 r i - w8 (at0 r (i + b) * 2 ^ b)))))
        else r
      else slideInnerA i n (b + 1) r
    else r

theorem slideInnerA_spec (i n : Nat) : ∀ b r, r.size = 256 →
    (slideInnerA i n b r).size = 256 ∧ at0 (slideInnerA i n b r) = slideInner i n b (at0 r) := by
  induction n with
  | zero => intro b r h; exact ⟨h, rfl⟩
  | succ n ih =>
    intro b r h
    unfold slideInnerA slideInner
    split
    · next hb =>
      split
      · split
        · have := ih (b + 1) (put (put r i (w8 (at0 r i + w8 (at0 r (i + b) * 2 ^ b)))) (i + b) 0) (by simp [h])
          rw [at0_put_digits (by simp [h]; omega), at0_put_digits (by omega)] at this
          exact this
        · split
          · obtain ⟨h1, e1⟩ := slideCarryA_spec (256 - (i + b)) (i + b) (put r i (w8 (at0 r i - w8 (at0 r (i + b) * 2 ^ b))))
              (by simp [h]; omega)
            have := ih (b + 1) _ (h1.trans (by simp [h]))
            rw [e1, at0_put_digits (by omega)] at this
            exact this
          · exact ⟨h, rfl⟩
      · exact ih (b + 1) r h
    · exact ⟨h, rfl⟩

def slideOuterA : Nat → Nat → Array Int → Array Int
  | 0, _, r => r
  | n + 1, i, r => slideOuterA n (i + 1) (if at0 r i ≠ 0 then slideInnerA i 6 1 r else r)

theorem slideOuterA_spec (n : Nat) : ∀ i r, r.size = 256 → at0 (slideOuterA n i r) = slideOuter n i (at0 r) := by
  induction n with
  | zero => intro i r _; rfl
  | succ n ih =>
    intro i r h
    unfold slideOuterA slideOuter
    split
    · obtain ⟨h1, e1⟩ := slideInnerA_spec i 6 1 r h
      rw [ih _ _ h1, e1]
    · exact ih _ _ h

def slideA (a : Arr 32) : Array Int := slideOuterA 256 0 (Array.ofFn fun i : Fin 256 => bitOf a i.val)

theorem slideA_spec (a : Arr 32) : at0 (slideA a) = slide a := by
  have e : at0 (Array.ofFn fun i : Fin 256 => bitOf a i.val) = fun i => if i < 256 then bitOf a i else 0 := by
    funext i
    unfold at0
    by_cases hi : i < 256 <;> simp [hi]
  unfold slideA slide
  rw [slideOuterA_spec 256 0 _ (by simp), e]

def doubleScalarA (a : Arr 32) (A : Ext) (b : Arr 32) : Res Proj :=
  let x := slideA a
  let y := slideA b
  doubleLoop (oddMultiples A.double.toExt 7 A.toCached) (at0 x) (at0 y) (topDigit (at0 x) (at0 y) 256) Proj.zero

theorem doubleScalarA_spec (a : Arr 32) (A : Ext) (b : Arr 32) : doubleScalarA a A b = geDoubleScalarMultVartime a A b := by
  unfold doubleScalarA geDoubleScalarMultVartime
  dsimp only
  rw [slideA_spec, slideA_spec]

/-! ### Ed25519 -/

def signA (sha512 : Bytes → Arr 64) (seed pub : Arr 32) (m : Bytes) : Arr 64 :=
  let r := scReduceA (sha512 ((sha512 seed.toList).toList.drop 32 ++ m))
  let R := (geScalarMultBase r).toBytes
  let k := scReduceA (sha512 (R.toList ++ pub.toList ++ m))
  let S := scMulAddA k (asmSecret sha512 seed) r
  copyZ 64 (R.toList ++ S.toList)

theorem signA_spec (sha : Bytes → Arr 64) (seed pub : Arr 32) (m : Bytes) : signA sha seed pub m = asmSign sha seed pub m := by
  unfold signA asmSign
  simp only [scReduceA_spec, scMulAddA_spec]

def checkA (sha512 : Bytes → Arr 64) (A : Ext) (pub : Arr 32) (m : Bytes) (sig : Arr 64) : Res Bool :=
  let A : Ext := ⟨feNeg A.X, A.Y, A.Z, feNeg A.T⟩
  let k := scReduceA (sha512 (sig.toList.take 32 ++ pub.toList ++ m))
  let S : Arr 32 := copyZ 32 (sig.toList.drop 32)
  if scMinimal S = false then .ok false
  else do
    let r ← doubleScalarA k A S
    pure (decide (r.toBytes.toList = sig.toList.take 32))

def verifyA (sha512 : Bytes → Arr 64) (pub : Arr 32) (m : Bytes) (sig : Arr 64) : Res Bool :=
  ifDecoded (extFromBytes pub) fun A => checkA sha512 A pub m sig

theorem verifyA_spec (sha : Bytes → Arr 64) (pub : Arr 32) (m : Bytes) (sig : Arr 64) :
    verifyA sha pub m sig = asmVerify sha pub m sig := by
  have e : (fun A => checkA sha A pub m sig) = fun A => asmCheck sha A pub m sig := by
    funext A
    unfold checkA asmCheck
    simp only [scReduceA_spec, doubleScalarA_spec]
  unfold verifyA asmVerify
  rw [e]

end Verif.Real
