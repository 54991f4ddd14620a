/-
`ScMulAdd` and `ScReduce`, edwards25519.go:1026-1773: the source computes what the model says.
-/
import Verif.Source.EdBase
import Verif.Model.Scalar

namespace Verif.Src.EdSrc

open Verif.Ed

variable {ω : Type}

/-- The names `s0` ... `s23`. -/
def sNames : List Id :=
  [id!"s0", id!"s1", id!"s2", id!"s3", id!"s4", id!"s5", id!"s6", id!"s7", id!"s8", id!"s9", id!"s10", id!"s11", id!"s12", id!"s13", id!"s14", id!"s15", id!"s16", id!"s17", id!"s18", id!"s19", id!"s20", id!"s21", id!"s22", id!"s23"] 

def sName (i : Nat) : Expr := .id (sNames.getD i 0)

def carryAt (i : Nat) : Expr := .idx (.id id!"carry") (.num i)

/-- The statements of an operation of the model. -/
def opStmts : ScOp → List Stmt
  | .round i => [.assign [carryAt i] [.bin .shr (.bin .add (sName i) (.bin .shl (.num 1) (.num 20))) (.num 21)],
      .opAssign .add (sName (i + 1)) (carryAt i), .opAssign .sub (sName i) (.bin .shl (carryAt i) (.num 21))]
  | .floor i => [.assign [carryAt i] [.bin .shr (sName i) (.num 21)],
      .opAssign .add (sName (i + 1)) (carryAt i), .opAssign .sub (sName i) (.bin .shl (carryAt i) (.num 21))]
  | .fold k => [.opAssign .add (sName (k - 12)) (.bin .mul (sName k) (.num 666643)),
      .opAssign .add (sName (k - 11)) (.bin .mul (sName k) (.num 470296)),
      .opAssign .add (sName (k - 10)) (.bin .mul (sName k) (.num 654183)),
      .opAssign .sub (sName (k - 9)) (.bin .mul (sName k) (.num 997805)),
      .opAssign .add (sName (k - 8)) (.bin .mul (sName k) (.num 136657)),
      .opAssign .sub (sName (k - 7)) (.bin .mul (sName k) (.num 683901)), .assign [sName k] [.num 0]]

/-- What is stored in the array `carry`. -/
def opCarried : ScOp → Regs → (Nat → Int) → Nat → Int
  | .round i, s, c => fun j => if j = i then sar (w64 (s i + 2 ^ 20)) 21 else c j
  | .floor i, s, c => fun j => if j = i then sar (s i) 21 else c j
  | .fold _, _, c => c

/-- The registers in memory. -/
def regVals (s : Regs) : List Val := (List.range 24).map fun i => .int .int64 (s i)

/-- The bytes stored at the end, edwards25519.go:1417-1448 and 1741-1772. -/
def rawScPack (s : Regs) : List Int :=
  [
    u8 (sar (s 0) 0),
    u8 (sar (s 0) 8),
    u8 (or64 (sar (s 0) 16) (w64 (s 1 * 2^5))),
    u8 (sar (s 1) 3),
    u8 (sar (s 1) 11),
    u8 (or64 (sar (s 1) 19) (w64 (s 2 * 2^2))),
    u8 (sar (s 2) 6),
    u8 (or64 (sar (s 2) 14) (w64 (s 3 * 2^7))),
    u8 (sar (s 3) 1),
    u8 (sar (s 3) 9),
    u8 (or64 (sar (s 3) 17) (w64 (s 4 * 2^4))),
    u8 (sar (s 4) 4),
    u8 (sar (s 4) 12),
    u8 (or64 (sar (s 4) 20) (w64 (s 5 * 2^1))),
    u8 (sar (s 5) 7),
    u8 (or64 (sar (s 5) 15) (w64 (s 6 * 2^6))),
    u8 (sar (s 6) 2),
    u8 (sar (s 6) 10),
    u8 (or64 (sar (s 6) 18) (w64 (s 7 * 2^3))),
    u8 (sar (s 7) 5),
    u8 (sar (s 7) 13),
    u8 (sar (s 8) 0),
    u8 (sar (s 8) 8),
    u8 (or64 (sar (s 8) 16) (w64 (s 9 * 2^5))),
    u8 (sar (s 9) 3),
    u8 (sar (s 9) 11),
    u8 (or64 (sar (s 9) 19) (w64 (s 10 * 2^2))),
    u8 (sar (s 10) 6),
    u8 (or64 (sar (s 10) 14) (w64 (s 11 * 2^7))),
    u8 (sar (s 11) 1),
    u8 (sar (s 11) 9),
    u8 (sar (s 11) 17)]

def limb (k : Nat) (x : Int) : Int := and64 2097151 (sar x k)

/-- edwards25519.go:1027-1038. -/
def rawLimbs12 (a : Nat → Int) : Regs
  | 0 => and64 2097151 (rawLoad3 a 0)
  | 1 => and64 2097151 (sar (rawLoad4 a 2) 5)
  | 2 => and64 2097151 (sar (rawLoad3 a 5) 2)
  | 3 => and64 2097151 (sar (rawLoad4 a 7) 7)
  | 4 => and64 2097151 (sar (rawLoad4 a 10) 4)
  | 5 => and64 2097151 (sar (rawLoad3 a 13) 1)
  | 6 => and64 2097151 (sar (rawLoad4 a 15) 6)
  | 7 => and64 2097151 (sar (rawLoad3 a 18) 3)
  | 8 => and64 2097151 (rawLoad3 a 21)
  | 9 => and64 2097151 (sar (rawLoad4 a 23) 5)
  | 10 => and64 2097151 (sar (rawLoad3 a 26) 2)
  | 11 => sar (rawLoad4 a 28) 7
  | _ => 0

/-- edwards25519.go:1458-1481. -/
def rawLimbs24 (a : Nat → Int) : Regs
  | 0 => and64 2097151 (rawLoad3 a 0)
  | 1 => and64 2097151 (sar (rawLoad4 a 2) 5)
  | 2 => and64 2097151 (sar (rawLoad3 a 5) 2)
  | 3 => and64 2097151 (sar (rawLoad4 a 7) 7)
  | 4 => and64 2097151 (sar (rawLoad4 a 10) 4)
  | 5 => and64 2097151 (sar (rawLoad3 a 13) 1)
  | 6 => and64 2097151 (sar (rawLoad4 a 15) 6)
  | 7 => and64 2097151 (sar (rawLoad3 a 18) 3)
  | 8 => and64 2097151 (rawLoad3 a 21)
  | 9 => and64 2097151 (sar (rawLoad4 a 23) 5)
  | 10 => and64 2097151 (sar (rawLoad3 a 26) 2)
  | 11 => and64 2097151 (sar (rawLoad4 a 28) 7)
  | 12 => and64 2097151 (sar (rawLoad4 a 31) 4)
  | 13 => and64 2097151 (sar (rawLoad3 a 34) 1)
  | 14 => and64 2097151 (sar (rawLoad4 a 36) 6)
  | 15 => and64 2097151 (sar (rawLoad3 a 39) 3)
  | 16 => and64 2097151 (rawLoad3 a 42)
  | 17 => and64 2097151 (sar (rawLoad4 a 44) 5)
  | 18 => and64 2097151 (sar (rawLoad3 a 47) 2)
  | 19 => and64 2097151 (sar (rawLoad4 a 49) 7)
  | 20 => and64 2097151 (sar (rawLoad4 a 52) 4)
  | 21 => and64 2097151 (sar (rawLoad3 a 55) 1)
  | 22 => and64 2097151 (sar (rawLoad4 a 57) 6)
  | 23 => sar (rawLoad4 a 60) 3
  | _ => 0

/-- edwards25519.go:1065-1088. -/
def rawMulLimbs (a b c : Regs) : Regs
  | 0 => w64 (c 0 + w64 (a 0 * b 0))
  | 1 => w64 (w64 (c 1 + w64 (a 0 * b 1)) + w64 (a 1 * b 0))
  | 2 => w64 (w64 (w64 (c 2 + w64 (a 0 * b 2)) + w64 (a 1 * b 1)) + w64 (a 2 * b 0))
  | 3 => w64 (w64 (w64 (w64 (c 3 + w64 (a 0 * b 3)) + w64 (a 1 * b 2)) + w64 (a 2 * b 1)) + w64 (a 3 * b 0))
  | 4 => w64 (w64 (w64 (w64 (w64 (c 4 + w64 (a 0 * b 4)) + w64 (a 1 * b 3)) + w64 (a 2 * b 2)) + w64 (a 3 * b 1)) + w64 (a 4 * b 0))
  | 5 => w64 (w64 (w64 (w64 (w64 (w64 (c 5 + w64 (a 0 * b 5)) + w64 (a 1 * b 4)) + w64 (a 2 * b 3)) + w64 (a 3 * b 2)) + w64 (a 4 * b 1)) + w64 (a 5 * b 0))
  | 6 => w64 (w64 (w64 (w64 (w64 (w64 (w64 (c 6 + w64 (a 0 * b 6)) + w64 (a 1 * b 5)) + w64 (a 2 * b 4)) + w64 (a 3 * b 3)) + w64 (a 4 * b 2)) + w64 (a 5 * b 1)) + w64 (a 6 * b 0))
  | 7 => w64 (w64 (w64 (w64 (w64 (w64 (w64 (w64 (c 7 + w64 (a 0 * b 7)) + w64 (a 1 * b 6)) + w64 (a 2 * b 5)) + w64 (a 3 * b 4)) + w64 (a 4 * b 3)) + w64 (a 5 * b 2)) + w64 (a 6 * b 1)) + w64 (a 7 * b 0))
  | 8 => w64 (w64 (w64 (w64 (w64 (w64 (w64 (w64 (w64 (c 8 + w64 (a 0 * b 8)) + w64 (a 1 * b 7)) + w64 (a 2 * b 6)) + w64 (a 3 * b 5)) + w64 (a 4 * b 4)) + w64 (a 5 * b 3)) + w64 (a 6 * b 2)) + w64 (a 7 * b 1)) + w64 (a 8 * b 0))
  | 9 => w64 (w64 (w64 (w64 (w64 (w64 (w64 (w64 (w64 (w64 (c 9 + w64 (a 0 * b 9)) + w64 (a 1 * b 8)) + w64 (a 2 * b 7)) + w64 (a 3 * b 6)) + w64 (a 4 * b 5)) + w64 (a 5 * b 4)) + w64 (a 6 * b 3)) + w64 (a 7 * b 2)) + w64 (a 8 * b 1)) + w64 (a 9 * b 0))
  | 10 => w64 (w64 (w64 (w64 (w64 (w64 (w64 (w64 (w64 (w64 (w64 (c 10 + w64 (a 0 * b 10)) + w64 (a 1 * b 9)) + w64 (a 2 * b 8)) + w64 (a 3 * b 7)) + w64 (a 4 * b 6)) + w64 (a 5 * b 5)) + w64 (a 6 * b 4)) + w64 (a 7 * b 3)) + w64 (a 8 * b 2)) + w64 (a 9 * b 1)) + w64 (a 10 * b 0))
  | 11 => w64 (w64 (w64 (w64 (w64 (w64 (w64 (w64 (w64 (w64 (w64 (w64 (c 11 + w64 (a 0 * b 11)) + w64 (a 1 * b 10)) + w64 (a 2 * b 9)) + w64 (a 3 * b 8)) + w64 (a 4 * b 7)) + w64 (a 5 * b 6)) + w64 (a 6 * b 5)) + w64 (a 7 * b 4)) + w64 (a 8 * b 3)) + w64 (a 9 * b 2)) + w64 (a 10 * b 1)) + w64 (a 11 * b 0))
  | 12 => w64 (w64 (w64 (w64 (w64 (w64 (w64 (w64 (w64 (w64 (w64 (a 1 * b 11) + w64 (a 2 * b 10)) + w64 (a 3 * b 9)) + w64 (a 4 * b 8)) + w64 (a 5 * b 7)) + w64 (a 6 * b 6)) + w64 (a 7 * b 5)) + w64 (a 8 * b 4)) + w64 (a 9 * b 3)) + w64 (a 10 * b 2)) + w64 (a 11 * b 1))
  | 13 => w64 (w64 (w64 (w64 (w64 (w64 (w64 (w64 (w64 (w64 (a 2 * b 11) + w64 (a 3 * b 10)) + w64 (a 4 * b 9)) + w64 (a 5 * b 8)) + w64 (a 6 * b 7)) + w64 (a 7 * b 6)) + w64 (a 8 * b 5)) + w64 (a 9 * b 4)) + w64 (a 10 * b 3)) + w64 (a 11 * b 2))
  | 14 => w64 (w64 (w64 (w64 (w64 (w64 (w64 (w64 (w64 (a 3 * b 11) + w64 (a 4 * b 10)) + w64 (a 5 * b 9)) + w64 (a 6 * b 8)) + w64 (a 7 * b 7)) + w64 (a 8 * b 6)) + w64 (a 9 * b 5)) + w64 (a 10 * b 4)) + w64 (a 11 * b 3))
  | 15 => w64 (w64 (w64 (w64 (w64 (w64 (w64 (w64 (a 4 * b 11) + w64 (a 5 * b 10)) + w64 (a 6 * b 9)) + w64 (a 7 * b 8)) + w64 (a 8 * b 7)) + w64 (a 9 * b 6)) + w64 (a 10 * b 5)) + w64 (a 11 * b 4))
  | 16 => w64 (w64 (w64 (w64 (w64 (w64 (w64 (a 5 * b 11) + w64 (a 6 * b 10)) + w64 (a 7 * b 9)) + w64 (a 8 * b 8)) + w64 (a 9 * b 7)) + w64 (a 10 * b 6)) + w64 (a 11 * b 5))
  | 17 => w64 (w64 (w64 (w64 (w64 (w64 (a 6 * b 11) + w64 (a 7 * b 10)) + w64 (a 8 * b 9)) + w64 (a 9 * b 8)) + w64 (a 10 * b 7)) + w64 (a 11 * b 6))
  | 18 => w64 (w64 (w64 (w64 (w64 (a 7 * b 11) + w64 (a 8 * b 10)) + w64 (a 9 * b 9)) + w64 (a 10 * b 8)) + w64 (a 11 * b 7))
  | 19 => w64 (w64 (w64 (w64 (a 8 * b 11) + w64 (a 9 * b 10)) + w64 (a 10 * b 9)) + w64 (a 11 * b 8))
  | 20 => w64 (w64 (w64 (a 9 * b 11) + w64 (a 10 * b 10)) + w64 (a 11 * b 9))
  | 21 => w64 (w64 (a 10 * b 11) + w64 (a 11 * b 10))
  | 22 => w64 (a 11 * b 11)
  | _ => 0

/-- The memory during `ScMulAdd`. -/
def maPre (a b c : Nat → Int) (A B C : Regs) (o carry : Nat → Int) : List Val :=
  [encInts .uint8 32 o, encInts .uint8 32 a, encInts .uint8 32 b, encInts .uint8 32 c, P 0, P 1, P 2, P 3] ++
    ((List.range 12).map fun i => .int .int64 (A i)) ++ ((List.range 12).map fun i => .int .int64 (B i)) ++
    ((List.range 12).map fun i => .int .int64 (C i)) ++ [encInts .int64 23 carry]

def maMem (a b c : Nat → Int) (A B C : Regs) (o carry : Nat → Int) (s : Regs) : List Val := maPre a b c A B C o carry ++ regVals s

/-- The names in scope. -/
def maEnv : Env :=
  [(id!"s23", .var ⟨68, []⟩), (id!"s22", .var ⟨67, []⟩), (id!"s21", .var ⟨66, []⟩), (id!"s20", .var ⟨65, []⟩), (id!"s19", .var ⟨64, []⟩), (id!"s18", .var ⟨63, []⟩), (id!"s17", .var ⟨62, []⟩), (id!"s16", .var ⟨61, []⟩), (id!"s15", .var ⟨60, []⟩), (id!"s14", .var ⟨59, []⟩), (id!"s13", .var ⟨58, []⟩), (id!"s12", .var ⟨57, []⟩), (id!"s11", .var ⟨56, []⟩), (id!"s10", .var ⟨55, []⟩), (id!"s9", .var ⟨54, []⟩), (id!"s8", .var ⟨53, []⟩), (id!"s7", .var ⟨52, []⟩), (id!"s6", .var ⟨51, []⟩), (id!"s5", .var ⟨50, []⟩), (id!"s4", .var ⟨49, []⟩), (id!"s3", .var ⟨48, []⟩), (id!"s2", .var ⟨47, []⟩), (id!"s1", .var ⟨46, []⟩), (id!"s0", .var ⟨45, []⟩), (id!"carry", .var ⟨44, []⟩), (id!"c11", .var ⟨43, []⟩), (id!"c10", .var ⟨42, []⟩), (id!"c9", .var ⟨41, []⟩), (id!"c8", .var ⟨40, []⟩), (id!"c7", .var ⟨39, []⟩), (id!"c6", .var ⟨38, []⟩), (id!"c5", .var ⟨37, []⟩), (id!"c4", .var ⟨36, []⟩), (id!"c3", .var ⟨35, []⟩), (id!"c2", .var ⟨34, []⟩), (id!"c1", .var ⟨33, []⟩), (id!"c0", .var ⟨32, []⟩), (id!"b11", .var ⟨31, []⟩), (id!"b10", .var ⟨30, []⟩), (id!"b9", .var ⟨29, []⟩), (id!"b8", .var ⟨28, []⟩), (id!"b7", .var ⟨27, []⟩), (id!"b6", .var ⟨26, []⟩), (id!"b5", .var ⟨25, []⟩), (id!"b4", .var ⟨24, []⟩), (id!"b3", .var ⟨23, []⟩), (id!"b2", .var ⟨22, []⟩), (id!"b1", .var ⟨21, []⟩), (id!"b0", .var ⟨20, []⟩), (id!"a11", .var ⟨19, []⟩), (id!"a10", .var ⟨18, []⟩), (id!"a9", .var ⟨17, []⟩), (id!"a8", .var ⟨16, []⟩), (id!"a7", .var ⟨15, []⟩), (id!"a6", .var ⟨14, []⟩), (id!"a5", .var ⟨13, []⟩), (id!"a4", .var ⟨12, []⟩), (id!"a3", .var ⟨11, []⟩), (id!"a2", .var ⟨10, []⟩), (id!"a1", .var ⟨9, []⟩), (id!"a0", .var ⟨8, []⟩), (id!"c", .var ⟨7, []⟩), (id!"b", .var ⟨6, []⟩), (id!"a", .var ⟨5, []⟩), (id!"s", .var ⟨4, []⟩)]

set_option maxRecDepth 10000 in
theorem ma_round (a b cc : Nat → Int) (A B C : Regs) (o c : Nat → Int) (s : Regs) (w : ω) (i : Nat) (h0 : 0 ≤ i) (hi : i < 23) :
    execsEnv (interp (progs 0) 30) ⟨pkg, maEnv⟩ (opStmts (.round i)) ⟨maMem a b cc A B C o c s, 4, [], w⟩ =
      .ok (maEnv, .next) ⟨maMem a b cc A B C o (opCarried (.round i) s c) (ScOp.run (.round i) s), 4, [], w⟩ := by
  match i, h0, hi with
  | 0, _, _ => krfl
  | 1, _, _ => krfl
  | 2, _, _ => krfl
  | 3, _, _ => krfl
  | 4, _, _ => krfl
  | 5, _, _ => krfl
  | 6, _, _ => krfl
  | 7, _, _ => krfl
  | 8, _, _ => krfl
  | 9, _, _ => krfl
  | 10, _, _ => krfl
  | 11, _, _ => krfl
  | 12, _, _ => krfl
  | 13, _, _ => krfl
  | 14, _, _ => krfl
  | 15, _, _ => krfl
  | 16, _, _ => krfl
  | 17, _, _ => krfl
  | 18, _, _ => krfl
  | 19, _, _ => krfl
  | 20, _, _ => krfl
  | 21, _, _ => krfl
  | 22, _, _ => krfl
  | n + 23, _, h => exact absurd h (by omega)

set_option maxRecDepth 10000 in
theorem ma_floor (a b cc : Nat → Int) (A B C : Regs) (o c : Nat → Int) (s : Regs) (w : ω) (i : Nat) (h0 : 0 ≤ i) (hi : i < 12) :
    execsEnv (interp (progs 0) 30) ⟨pkg, maEnv⟩ (opStmts (.floor i)) ⟨maMem a b cc A B C o c s, 4, [], w⟩ =
      .ok (maEnv, .next) ⟨maMem a b cc A B C o (opCarried (.floor i) s c) (ScOp.run (.floor i) s), 4, [], w⟩ := by
  match i, h0, hi with
  | 0, _, _ => krfl
  | 1, _, _ => krfl
  | 2, _, _ => krfl
  | 3, _, _ => krfl
  | 4, _, _ => krfl
  | 5, _, _ => krfl
  | 6, _, _ => krfl
  | 7, _, _ => krfl
  | 8, _, _ => krfl
  | 9, _, _ => krfl
  | 10, _, _ => krfl
  | 11, _, _ => krfl
  | n + 12, _, h => exact absurd h (by omega)

set_option maxRecDepth 10000 in
theorem ma_fold (a b cc : Nat → Int) (A B C : Regs) (o c : Nat → Int) (s : Regs) (w : ω) (i : Nat) (h0 : 12 ≤ i) (hi : i < 24) :
    execsEnv (interp (progs 0) 30) ⟨pkg, maEnv⟩ (opStmts (.fold i)) ⟨maMem a b cc A B C o c s, 4, [], w⟩ =
      .ok (maEnv, .next) ⟨maMem a b cc A B C o (opCarried (.fold i) s c) (ScOp.run (.fold i) s), 4, [], w⟩ := by
  match i, h0, hi with
  | 12, _, _ => krfl
  | 13, _, _ => krfl
  | 14, _, _ => krfl
  | 15, _, _ => krfl
  | 16, _, _ => krfl
  | 17, _, _ => krfl
  | 18, _, _ => krfl
  | 19, _, _ => krfl
  | 20, _, _ => krfl
  | 21, _, _ => krfl
  | 22, _, _ => krfl
  | 23, _, _ => krfl
  | n + 24, _, h => exact absurd h (by omega)

/-- The memory during `ScReduce`. -/
def srMem (a : Nat → Int) (o carry : Nat → Int) (s : Regs) : List Val :=
  [encInts .uint8 32 o, encInts .uint8 64 a, P 0, P 1] ++ regVals s ++ [encInts .int64 17 carry]

/-- The names in scope. -/
def srEnv : Env :=
  [(id!"carry", .var ⟨28, []⟩), (id!"s23", .var ⟨27, []⟩), (id!"s22", .var ⟨26, []⟩), (id!"s21", .var ⟨25, []⟩), (id!"s20", .var ⟨24, []⟩), (id!"s19", .var ⟨23, []⟩), (id!"s18", .var ⟨22, []⟩), (id!"s17", .var ⟨21, []⟩), (id!"s16", .var ⟨20, []⟩), (id!"s15", .var ⟨19, []⟩), (id!"s14", .var ⟨18, []⟩), (id!"s13", .var ⟨17, []⟩), (id!"s12", .var ⟨16, []⟩), (id!"s11", .var ⟨15, []⟩), (id!"s10", .var ⟨14, []⟩), (id!"s9", .var ⟨13, []⟩), (id!"s8", .var ⟨12, []⟩), (id!"s7", .var ⟨11, []⟩), (id!"s6", .var ⟨10, []⟩), (id!"s5", .var ⟨9, []⟩), (id!"s4", .var ⟨8, []⟩), (id!"s3", .var ⟨7, []⟩), (id!"s2", .var ⟨6, []⟩), (id!"s1", .var ⟨5, []⟩), (id!"s0", .var ⟨4, []⟩), (id!"s", .var ⟨3, []⟩), (id!"out", .var ⟨2, []⟩)]

set_option maxRecDepth 10000 in
theorem sr_round (a : Nat → Int) (o c : Nat → Int) (s : Regs) (w : ω) (i : Nat) (h0 : 0 ≤ i) (hi : i < 17) :
    execsEnv (interp (progs 0) 30) ⟨pkg, srEnv⟩ (opStmts (.round i)) ⟨srMem a o c s, 2, [], w⟩ =
      .ok (srEnv, .next) ⟨srMem a o (opCarried (.round i) s c) (ScOp.run (.round i) s), 2, [], w⟩ := by
  match i, h0, hi with
  | 0, _, _ => krfl
  | 1, _, _ => krfl
  | 2, _, _ => krfl
  | 3, _, _ => krfl
  | 4, _, _ => krfl
  | 5, _, _ => krfl
  | 6, _, _ => krfl
  | 7, _, _ => krfl
  | 8, _, _ => krfl
  | 9, _, _ => krfl
  | 10, _, _ => krfl
  | 11, _, _ => krfl
  | 12, _, _ => krfl
  | 13, _, _ => krfl
  | 14, _, _ => krfl
  | 15, _, _ => krfl
  | 16, _, _ => krfl
  | n + 17, _, h => exact absurd h (by omega)

set_option maxRecDepth 10000 in
theorem sr_floor (a : Nat → Int) (o c : Nat → Int) (s : Regs) (w : ω) (i : Nat) (h0 : 0 ≤ i) (hi : i < 12) :
    execsEnv (interp (progs 0) 30) ⟨pkg, srEnv⟩ (opStmts (.floor i)) ⟨srMem a o c s, 2, [], w⟩ =
      .ok (srEnv, .next) ⟨srMem a o (opCarried (.floor i) s c) (ScOp.run (.floor i) s), 2, [], w⟩ := by
  match i, h0, hi with
  | 0, _, _ => krfl
  | 1, _, _ => krfl
  | 2, _, _ => krfl
  | 3, _, _ => krfl
  | 4, _, _ => krfl
  | 5, _, _ => krfl
  | 6, _, _ => krfl
  | 7, _, _ => krfl
  | 8, _, _ => krfl
  | 9, _, _ => krfl
  | 10, _, _ => krfl
  | 11, _, _ => krfl
  | n + 12, _, h => exact absurd h (by omega)

set_option maxRecDepth 10000 in
theorem sr_fold (a : Nat → Int) (o c : Nat → Int) (s : Regs) (w : ω) (i : Nat) (h0 : 12 ≤ i) (hi : i < 24) :
    execsEnv (interp (progs 0) 30) ⟨pkg, srEnv⟩ (opStmts (.fold i)) ⟨srMem a o c s, 2, [], w⟩ =
      .ok (srEnv, .next) ⟨srMem a o (opCarried (.fold i) s c) (ScOp.run (.fold i) s), 2, [], w⟩ := by
  match i, h0, hi with
  | 12, _, _ => krfl
  | 13, _, _ => krfl
  | 14, _, _ => krfl
  | 15, _, _ => krfl
  | 16, _, _ => krfl
  | 17, _, _ => krfl
  | 18, _, _ => krfl
  | 19, _, _ => krfl
  | 20, _, _ => krfl
  | 21, _, _ => krfl
  | 22, _, _ => krfl
  | 23, _, _ => krfl
  | n + 24, _, h => exact absurd h (by omega)

/-- Several lists of statements. -/
theorem execsEnv_append {I : Interp ω} {c : Ctx} {ss ss' : List Stmt} {s t : St ω} {env : Env} {r : R ω (Env × Ctl)}
    (h : execsEnv I c ss s = .ok (env, .next) t) (k : execsEnv I { c with env := env } ss' t = r) :
    execsEnv I c (ss ++ ss') s = r := by
  induction ss generalizing c s with
  | nil => cases h; exact k
  | cons x xs ih =>
    unfold execsEnv at h
    change M.bind _ _ s = _ at h
    unfold M.bind at h
    cases e : I.stmt c x s with
    | ok a u =>
      rw [e] at h
      show execsEnv I c (x :: (xs ++ ss')) s = r
      unfold execsEnv
      rw [M.bind_ok e]
      rcases a with ⟨env', ctl⟩
      cases ctl with
      | next => exact ih h k
      | _ => cases h
    | panic u => rw [e] at h; cases h
    | crash u => rw [e] at h; cases h
    | stuck => rw [e] at h; cases h

/-- The operations that there are. -/
def legal (n : Nat) : ScOp → Bool
  | .round i => i < n
  | .floor i => i < 12
  | .fold k => 12 ≤ k && k < 24

theorem ma_ops (a b cc : Nat → Int) (A B C : Regs) (o : Nat → Int) (w : ω) (l : List ScOp) (hl : l.all (legal 23) = true)
    (c : Nat → Int) (s : Regs) :
    ∃ c', execsEnv (interp (progs 0) 30) ⟨pkg, maEnv⟩ (l.flatMap opStmts) ⟨maMem a b cc A B C o c s, 4, [], w⟩ =
      .ok (maEnv, .next) ⟨maMem a b cc A B C o c' (runOps l s), 4, [], w⟩ := by
  induction l generalizing c s with
  | nil => exact ⟨c, rfl⟩
  | cons op l ih =>
    simp only [List.all_cons, Bool.and_eq_true] at hl
    obtain ⟨c', e⟩ := ih hl.2 (opCarried op s c) (op.run s)
    refine ⟨c', execsEnv_append ?_ e⟩
    have h := hl.1
    cases op with
    | round i => exact ma_round a b cc A B C o c s w i (Nat.zero_le _) (by simpa [legal] using h)
    | floor i => exact ma_floor a b cc A B C o c s w i (Nat.zero_le _) (by simpa [legal] using h)
    | fold i =>
      simp only [legal, Bool.and_eq_true, decide_eq_true_eq] at h
      exact ma_fold a b cc A B C o c s w i h.1 h.2

theorem sr_ops (a : Nat → Int) (o : Nat → Int) (w : ω) (l : List ScOp) (hl : l.all (legal 17) = true) (c : Nat → Int) (s : Regs) :
    ∃ c', execsEnv (interp (progs 0) 30) ⟨pkg, srEnv⟩ (l.flatMap opStmts) ⟨srMem a o c s, 2, [], w⟩ =
      .ok (srEnv, .next) ⟨srMem a o c' (runOps l s), 2, [], w⟩ := by
  induction l generalizing c s with
  | nil => exact ⟨c, rfl⟩
  | cons op l ih =>
    simp only [List.all_cons, Bool.and_eq_true] at hl
    obtain ⟨c', e⟩ := ih hl.2 (opCarried op s c) (op.run s)
    refine ⟨c', execsEnv_append ?_ e⟩
    have h := hl.1
    cases op with
    | round i => exact sr_round a o c s w i (Nat.zero_le _) (by simpa [legal] using h)
    | floor i => exact sr_floor a o c s w i (Nat.zero_le _) (by simpa [legal] using h)
    | fold i =>
      simp only [legal, Bool.and_eq_true, decide_eq_true_eq] at h
      exact sr_fold a o c s w i h.1 h.2

/-- All operations of `ScMulAdd`. -/
def maOps : List ScOp := mulCarries ++ ((foldHigh ++ reduceLow) ++ (carry12 ++ ([.fold 12] ++ carry11)))

/-- The operations of `ScReduce` after the declaration of `carry`. -/
def srOps : List ScOp := reduceLow ++ (carry12 ++ ([.fold 12] ++ carry11))

theorem runOps_append (l l' : List ScOp) (s : Regs) : runOps (l ++ l') s = runOps l' (runOps l s) := List.foldl_append

set_option maxRecDepth 100000 in
theorem ma_body : edwards.ScMulAdd.body.drop 61 = maOps.flatMap opStmts ++ edwards.ScMulAdd.body.drop 366 := by krfl

set_option maxRecDepth 100000 in
theorem sr_body : edwards.ScReduce.body.drop 67 = srOps.flatMap opStmts ++ edwards.ScReduce.body.drop 261 := by krfl

def maEnv0 : Env := maEnv.drop 24

set_option maxRecDepth 100000 in
theorem ma_start (o a b c : Nat → Int) (w : ω) :
    execsEnv (interp (progs 0) 30) ⟨pkg, maEnv.drop 61⟩ (edwards.ScMulAdd.body.take 37)
      ⟨[encInts .uint8 32 o, encInts .uint8 32 a, encInts .uint8 32 b, encInts .uint8 32 c, P 0, P 1, P 2, P 3], 4, [], w⟩ =
      .ok (maEnv0, .next) ⟨maPre a b c (rawLimbs12 a) (rawLimbs12 b) (rawLimbs12 c) o fun _ => 0, 4, [], w⟩ := by
  krfl

set_option maxRecDepth 100000 in
theorem ma_mul (o a b c : Nat → Int) (A B C : Regs) (carry : Nat → Int) (w : ω) :
    execsEnv (interp (progs 0) 60) ⟨pkg, maEnv0⟩ ((edwards.ScMulAdd.body.drop 37).take 24)
      ⟨maPre a b c A B C o carry, 4, [], w⟩ = .ok (maEnv, .next) ⟨maMem a b c A B C o carry (rawMulLimbs A B C), 4, [], w⟩ := by
  krfl

set_option maxRecDepth 100000 in
theorem ma_pack (o a b c : Nat → Int) (A B C : Regs) (carry : Nat → Int) (s : Regs) (w : ω) :
    execs (interp (progs 0) 60) ⟨pkg, maEnv⟩ (edwards.ScMulAdd.body.drop 366) ⟨maMem a b c A B C o carry s, 4, [], w⟩ =
      .ok .next ⟨maMem a b c A B C (fun i => (rawScPack s).getD i 0) carry s, 4, [], w⟩ := by
  krfl

def srEnv0 : Env := srEnv.drop 1

/-- The memory before the declaration of `carry`. -/
def srMem0 (a : Nat → Int) (o : Nat → Int) (s : Regs) : List Val := [encInts .uint8 32 o, encInts .uint8 64 a, P 0, P 1] ++ regVals s

set_option maxRecDepth 100000 in
theorem sr_start (o a : Nat → Int) (w : ω) :
    execsEnv (interp (progs 0) 30) ⟨pkg, srEnv.drop 25⟩ (edwards.ScReduce.body.take 24)
      ⟨[encInts .uint8 32 o, encInts .uint8 64 a, P 0, P 1], 2, [], w⟩ =
      .ok (srEnv0, .next) ⟨srMem0 a o (rawLimbs24 a), 2, [], w⟩ := by
  krfl

set_option maxRecDepth 100000 in
theorem sr_fold1 (o a : Nat → Int) (s : Regs) (w : ω) :
    execsEnv (interp (progs 0) 30) ⟨pkg, srEnv0⟩ ((edwards.ScReduce.body.drop 24).take 43)
      ⟨srMem0 a o s, 2, [], w⟩ = .ok (srEnv, .next) ⟨srMem a o (fun _ => 0) (runOps foldHigh s), 2, [], w⟩ := by
  krfl

set_option maxRecDepth 100000 in
theorem sr_pack (o a : Nat → Int) (carry : Nat → Int) (s : Regs) (w : ω) :
    execs (interp (progs 0) 60) ⟨pkg, srEnv⟩ (edwards.ScReduce.body.drop 261) ⟨srMem a o carry s, 2, [], w⟩ =
      .ok .next ⟨srMem a (fun i => (rawScPack s).getD i 0) carry s, 2, [], w⟩ := by
  krfl

/-- What `ScMulAdd` stores. -/
def rawScMulAdd (a b c : Nat → Int) : Nat → Int := fun i =>
  (rawScPack (runOps maOps (rawMulLimbs (rawLimbs12 a) (rawLimbs12 b) (rawLimbs12 c)))).getD i 0

/-- What `ScReduce` stores. -/
def rawScReduce (a : Nat → Int) : Nat → Int := fun i => (rawScPack (runOps srOps (runOps foldHigh (rawLimbs24 a)))).getD i 0

abbrev B64 := Ints .uint8 64

def sumScMulAdd : G0 → B32 → B32 → B32 → B32 → List Int → Option Effect := fun _ _ a b c =>
  plainly ([(0, encInts .uint8 32 (rawScMulAdd a b c))], [])

def sumScReduce : G0 → B32 → B64 → List Int → Option Effect := fun _ _ a =>
  plainly ([(0, encInts .uint8 32 (rawScReduce a))], [])

theorem execsEnv_more {n m : Nat} (h : n ≤ m) {c : Ctx} {ss : List Stmt} {r : Env × Ctl} {s t : St ω}
    (e : execsEnv (interp (progs 0) n) c ss s = .ok r t) : execsEnv (interp (progs 0) m) c ss s = .ok r t :=
  (execsEnv_mono (interp_mono (.refl _) h) c ss).ok e

set_option maxRecDepth 100000 in
theorem ScMulAdd_right : Right ω 0 (shape4 sumScMulAdd) edwards.ScMulAdd 61 := by
  refine shape4_right ?_ ?_
  · intro c x y z u l e h
    obtain ⟨rfl, rfl⟩ := plainly_some h
    exact plain1 (encInts_plain _ _ _)
  · intro _ o a b c l e w h
    obtain ⟨rfl, rfl⟩ := plainly_some h
    obtain ⟨carry, e1⟩ := ma_ops a b c (rawLimbs12 a) (rawLimbs12 b) (rawLimbs12 c) o w maOps rfl (fun _ => 0)
      (rawMulLimbs (rawLimbs12 a) (rawLimbs12 b) (rawLimbs12 c))
    have e2 : execs (interp (progs 0) 60) ⟨pkg, maEnv⟩ (edwards.ScMulAdd.body.drop 61) _ = _ :=
      ma_body ▸ execs_append (execsEnv_more (by decide) e1) (ma_pack o a b c _ _ _ carry _ w)
    exact (call_of_execs (P := progs 0) (n := 60) (p := pkg) (f := edwards.ScMulAdd) (vs := [P 0, P 1, P 2, P 3]) (rs := [])
      (s := ⟨[encInts .uint8 32 o, encInts .uint8 32 a, encInts .uint8 32 b, encInts .uint8 32 c], 4, [], w⟩)
      (s1 := ⟨[encInts .uint8 32 o, encInts .uint8 32 a, encInts .uint8 32 b, encInts .uint8 32 c, P 0, P 1, P 2, P 3], 4, [], w⟩)
      (env := maEnv.drop 61) (ctl := .next) rfl
      (execs_split 37 (execsEnv_more (by decide) (ma_start o a b c w)) (execs_split 24 (ma_mul o a b c _ _ _ _ w) e2))
      rfl rfl rfl).trans rfl

set_option maxRecDepth 100000 in
theorem ScReduce_right : Right ω 0 (shape2 sumScReduce) edwards.ScReduce 61 := by
  refine shape2_right ?_ ?_
  · intro c x y l e h
    obtain ⟨rfl, rfl⟩ := plainly_some h
    exact plain1 (encInts_plain _ _ _)
  · intro _ o a l e w h
    obtain ⟨rfl, rfl⟩ := plainly_some h
    obtain ⟨carry, e1⟩ := sr_ops a o w srOps rfl (fun _ => 0) (runOps foldHigh (rawLimbs24 a))
    have e2 : execs (interp (progs 0) 60) ⟨pkg, srEnv⟩ (edwards.ScReduce.body.drop 67) _ = _ :=
      sr_body ▸ execs_append (execsEnv_more (by decide) e1) (sr_pack o a carry _ w)
    exact (call_of_execs (P := progs 0) (n := 60) (p := pkg) (f := edwards.ScReduce) (vs := [P 0, P 1]) (rs := [])
      (s := ⟨[encInts .uint8 32 o, encInts .uint8 64 a], 2, [], w⟩)
      (s1 := ⟨[encInts .uint8 32 o, encInts .uint8 64 a, P 0, P 1], 2, [], w⟩)
      (env := srEnv.drop 25) (ctl := .next) rfl
      (execs_split 24 (execsEnv_more (by decide) (sr_start o a w))
        (execs_split 43 (execsEnv_more (by decide) (sr_fold1 o a _ w)) e2))
      rfl rfl rfl).trans rfl

end Verif.Src.EdSrc
