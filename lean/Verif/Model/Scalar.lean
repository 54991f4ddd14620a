/-
Model of the scalar arithmetic in signify/internal/edwards25519/edwards25519.go, lines 1016-1793.

The local variables `s0` ... `s23` are one array of registers. Every assignment truncates to int64; in a sum of products one
truncation at the end gives the same value as the truncations of the intermediate results.
-/
import Verif.Model.Field

namespace Verif.Ed

/-- The variables `s0` ... `s23`. -/
abbrev Regs := Nat → Int

/-- Assignment. -/
def Regs.set (s : Regs) (i : Nat) (v : Int) : Regs := fun j => if j = i then v else s j

/-- The three groups of statements of `ScMulAdd` and `ScReduce`. -/
inductive ScOp where
  /-- edwards25519.go:1090-1092: `carry[i] = (si + (1 << 20)) >> 21; s(i+1) += carry[i]; si -= carry[i] << 21`. -/
  | round (i : Nat)
  /-- edwards25519.go:1338-1340: `carry[i] = si >> 21; s(i+1) += carry[i]; si -= carry[i] << 21`. -/
  | floor (i : Nat)
  /-- edwards25519.go:1161-1167: `s(k-12) += sk * 666643; ...; s(k-7) -= sk * 683901; sk = 0`. -/
  | fold (k : Nat)

/-- The last two statements of a carry. -/
def carryBy (c : Int) (i : Nat) (s : Regs) : Regs :=
  let s := s.set (i + 1) (w64 (s (i + 1) + c))
  s.set i (w64 (s i - w64 (c * 2 ^ 21)))

/-- Execution of one group of statements. -/
def ScOp.run : ScOp → Regs → Regs
  | .round i, s => carryBy (sar (w64 (s i + 2 ^ 20)) 21) i s
  | .floor i, s => carryBy (sar (s i) 21) i s
  | .fold k, s =>
    let s := s.set (k - 12) (w64 (s (k - 12) + w64 (s k * 666643)))
    let s := s.set (k - 11) (w64 (s (k - 11) + w64 (s k * 470296)))
    let s := s.set (k - 10) (w64 (s (k - 10) + w64 (s k * 654183)))
    let s := s.set (k - 9) (w64 (s (k - 9) - w64 (s k * 997805)))
    let s := s.set (k - 8) (w64 (s (k - 8) + w64 (s k * 136657)))
    let s := s.set (k - 7) (w64 (s (k - 7) - w64 (s k * 683901)))
    s.set k 0

def runOps (l : List ScOp) (s : Regs) : Regs := l.foldl (fun s op => op.run s) s

/-- edwards25519.go:1090-1159: the carries after the product. -/
def mulCarries : List ScOp :=
  [.round 0, .round 2, .round 4, .round 6, .round 8, .round 10, .round 12, .round 14, .round 16, .round 18, .round 20, .round 22,
   .round 1, .round 3, .round 5, .round 7, .round 9, .round 11, .round 13, .round 15, .round 17, .round 19, .round 21]

/-- edwards25519.go:1161-1207 and 1483-1529. -/
def foldHigh : List ScOp := [.fold 23, .fold 22, .fold 21, .fold 20, .fold 19, .fold 18]

/-- edwards25519.go:1209-1336 and 1533-1660, up to the first complete carry. -/
def reduceLow : List ScOp :=
  [.round 6, .round 8, .round 10, .round 12, .round 14, .round 16, .round 7, .round 9, .round 11, .round 13, .round 15,
   .fold 17, .fold 16, .fold 15, .fold 14, .fold 13, .fold 12,
   .round 0, .round 2, .round 4, .round 6, .round 8, .round 10, .round 1, .round 3, .round 5, .round 7, .round 9, .round 11,
   .fold 12]

/-- edwards25519.go:1338-1373 and 1662-1697. -/
def carry12 : List ScOp :=
  [.floor 0, .floor 1, .floor 2, .floor 3, .floor 4, .floor 5, .floor 6, .floor 7, .floor 8, .floor 9, .floor 10, .floor 11]

/-- edwards25519.go:1383-1415 and 1707-1739. -/
def carry11 : List ScOp :=
  [.floor 0, .floor 1, .floor 2, .floor 3, .floor 4, .floor 5, .floor 6, .floor 7, .floor 8, .floor 9, .floor 10]

/-- edwards25519.go:1417-1448 and 1741-1772: the bytes. -/
def scPack (s : Regs) : Arr 32 :=
  #v[
    byteOf (sar (s 0) 0), byteOf (sar (s 0) 8), byteOr (sar (s 0) 16) (s 1 * 2^5), byteOf (sar (s 1) 3),
    byteOf (sar (s 1) 11), byteOr (sar (s 1) 19) (s 2 * 2^2), byteOf (sar (s 2) 6), byteOr (sar (s 2) 14) (s 3 * 2^7),
    byteOf (sar (s 3) 1), byteOf (sar (s 3) 9), byteOr (sar (s 3) 17) (s 4 * 2^4), byteOf (sar (s 4) 4),
    byteOf (sar (s 4) 12), byteOr (sar (s 4) 20) (s 5 * 2^1), byteOf (sar (s 5) 7), byteOr (sar (s 5) 15) (s 6 * 2^6),
    byteOf (sar (s 6) 2), byteOf (sar (s 6) 10), byteOr (sar (s 6) 18) (s 7 * 2^3), byteOf (sar (s 7) 5),
    byteOf (sar (s 7) 13), byteOf (sar (s 8) 0), byteOf (sar (s 8) 8), byteOr (sar (s 8) 16) (s 9 * 2^5),
    byteOf (sar (s 9) 3), byteOf (sar (s 9) 11), byteOr (sar (s 9) 19) (s 10 * 2^2), byteOf (sar (s 10) 6),
    byteOr (sar (s 10) 14) (s 11 * 2^7), byteOf (sar (s 11) 1), byteOf (sar (s 11) 9), byteOf (sar (s 11) 17)]

/-- edwards25519.go:1161-1448 and 1483-1772: what `ScMulAdd` and `ScReduce` have in common. -/
def scFinish (s : Regs) : Arr 32 :=
  scPack (runOps carry11 (runOps [.fold 12] (runOps carry12 (runOps (foldHigh ++ reduceLow) s))))

/-- edwards25519.go:1027-1038: the limbs of a 32 byte number; lines 1039-1062 are the same for `b` and `c`. -/
def limbs12 (a : Arr 32) : Regs
  | 0 => ((load3 a 0 &&& 2097151 : Nat) : Int)
  | 1 => ((((load4 a 2) >>> 5) &&& 2097151 : Nat) : Int)
  | 2 => ((((load3 a 5) >>> 2) &&& 2097151 : Nat) : Int)
  | 3 => ((((load4 a 7) >>> 7) &&& 2097151 : Nat) : Int)
  | 4 => ((((load4 a 10) >>> 4) &&& 2097151 : Nat) : Int)
  | 5 => ((((load3 a 13) >>> 1) &&& 2097151 : Nat) : Int)
  | 6 => ((((load4 a 15) >>> 6) &&& 2097151 : Nat) : Int)
  | 7 => ((((load3 a 18) >>> 3) &&& 2097151 : Nat) : Int)
  | 8 => ((load3 a 21 &&& 2097151 : Nat) : Int)
  | 9 => ((((load4 a 23) >>> 5) &&& 2097151 : Nat) : Int)
  | 10 => ((((load3 a 26) >>> 2) &&& 2097151 : Nat) : Int)
  | 11 => (((load4 a 28) >>> 7 : Nat) : Int)
  | _ => 0

/-- edwards25519.go:1065-1088. -/
def mulLimbs (a b c : Regs) : Regs
  | 0 => w64 (c 0 + a 0 * b 0)
  | 1 => w64 (c 1 + a 0 * b 1 + a 1 * b 0)
  | 2 => w64 (c 2 + a 0 * b 2 + a 1 * b 1 + a 2 * b 0)
  | 3 => w64 (c 3 + a 0 * b 3 + a 1 * b 2 + a 2 * b 1 + a 3 * b 0)
  | 4 => w64 (c 4 + a 0 * b 4 + a 1 * b 3 + a 2 * b 2 + a 3 * b 1 + a 4 * b 0)
  | 5 => w64 (c 5 + a 0 * b 5 + a 1 * b 4 + a 2 * b 3 + a 3 * b 2 + a 4 * b 1 + a 5 * b 0)
  | 6 => w64 (c 6 + a 0 * b 6 + a 1 * b 5 + a 2 * b 4 + a 3 * b 3 + a 4 * b 2 + a 5 * b 1 + a 6 * b 0)
  | 7 => w64 (c 7 + a 0 * b 7 + a 1 * b 6 + a 2 * b 5 + a 3 * b 4 + a 4 * b 3 + a 5 * b 2 + a 6 * b 1 + a 7 * b 0)
  | 8 => w64 (c 8 + a 0 * b 8 + a 1 * b 7 + a 2 * b 6 + a 3 * b 5 + a 4 * b 4 + a 5 * b 3 + a 6 * b 2 + a 7 * b 1 + a 8 * b 0)
  | 9 => w64 (c 9 + a 0 * b 9 + a 1 * b 8 + a 2 * b 7 + a 3 * b 6 + a 4 * b 5 + a 5 * b 4 + a 6 * b 3 + a 7 * b 2 + a 8 * b 1 + a 9 * b 0)
  | 10 => w64 (c 10 + a 0 * b 10 + a 1 * b 9 + a 2 * b 8 + a 3 * b 7 + a 4 * b 6 + a 5 * b 5 + a 6 * b 4 + a 7 * b 3 + a 8 * b 2 + a 9 * b 1 + a 10 * b 0)
  | 11 => w64 (c 11 + a 0 * b 11 + a 1 * b 10 + a 2 * b 9 + a 3 * b 8 + a 4 * b 7 + a 5 * b 6 + a 6 * b 5 + a 7 * b 4 + a 8 * b 3 + a 9 * b 2 + a 10 * b 1 + a 11 * b 0)
  | 12 => w64 (a 1 * b 11 + a 2 * b 10 + a 3 * b 9 + a 4 * b 8 + a 5 * b 7 + a 6 * b 6 + a 7 * b 5 + a 8 * b 4 + a 9 * b 3 + a 10 * b 2 + a 11 * b 1)
  | 13 => w64 (a 2 * b 11 + a 3 * b 10 + a 4 * b 9 + a 5 * b 8 + a 6 * b 7 + a 7 * b 6 + a 8 * b 5 + a 9 * b 4 + a 10 * b 3 + a 11 * b 2)
  | 14 => w64 (a 3 * b 11 + a 4 * b 10 + a 5 * b 9 + a 6 * b 8 + a 7 * b 7 + a 8 * b 6 + a 9 * b 5 + a 10 * b 4 + a 11 * b 3)
  | 15 => w64 (a 4 * b 11 + a 5 * b 10 + a 6 * b 9 + a 7 * b 8 + a 8 * b 7 + a 9 * b 6 + a 10 * b 5 + a 11 * b 4)
  | 16 => w64 (a 5 * b 11 + a 6 * b 10 + a 7 * b 9 + a 8 * b 8 + a 9 * b 7 + a 10 * b 6 + a 11 * b 5)
  | 17 => w64 (a 6 * b 11 + a 7 * b 10 + a 8 * b 9 + a 9 * b 8 + a 10 * b 7 + a 11 * b 6)
  | 18 => w64 (a 7 * b 11 + a 8 * b 10 + a 9 * b 9 + a 10 * b 8 + a 11 * b 7)
  | 19 => w64 (a 8 * b 11 + a 9 * b 10 + a 10 * b 9 + a 11 * b 8)
  | 20 => w64 (a 9 * b 11 + a 10 * b 10 + a 11 * b 9)
  | 21 => w64 (a 10 * b 11 + a 11 * b 10)
  | 22 => w64 (a 11 * b 11)
  | _ => 0

/-- edwards25519.go:1026-1449 `ScMulAdd`; the result is what is stored in `*s`. -/
def scMulAdd (a b c : Arr 32) : Arr 32 :=
  scFinish (runOps mulCarries (mulLimbs (limbs12 a) (limbs12 b) (limbs12 c)))

/-- edwards25519.go:1458-1481. -/
def limbs24 (a : Arr 64) : Regs
  | 0 => ((load3 a 0 &&& 2097151 : Nat) : Int)
  | 1 => ((((load4 a 2) >>> 5) &&& 2097151 : Nat) : Int)
  | 2 => ((((load3 a 5) >>> 2) &&& 2097151 : Nat) : Int)
  | 3 => ((((load4 a 7) >>> 7) &&& 2097151 : Nat) : Int)
  | 4 => ((((load4 a 10) >>> 4) &&& 2097151 : Nat) : Int)
  | 5 => ((((load3 a 13) >>> 1) &&& 2097151 : Nat) : Int)
  | 6 => ((((load4 a 15) >>> 6) &&& 2097151 : Nat) : Int)
  | 7 => ((((load3 a 18) >>> 3) &&& 2097151 : Nat) : Int)
  | 8 => ((load3 a 21 &&& 2097151 : Nat) : Int)
  | 9 => ((((load4 a 23) >>> 5) &&& 2097151 : Nat) : Int)
  | 10 => ((((load3 a 26) >>> 2) &&& 2097151 : Nat) : Int)
  | 11 => ((((load4 a 28) >>> 7) &&& 2097151 : Nat) : Int)
  | 12 => ((((load4 a 31) >>> 4) &&& 2097151 : Nat) : Int)
  | 13 => ((((load3 a 34) >>> 1) &&& 2097151 : Nat) : Int)
  | 14 => ((((load4 a 36) >>> 6) &&& 2097151 : Nat) : Int)
  | 15 => ((((load3 a 39) >>> 3) &&& 2097151 : Nat) : Int)
  | 16 => ((load3 a 42 &&& 2097151 : Nat) : Int)
  | 17 => ((((load4 a 44) >>> 5) &&& 2097151 : Nat) : Int)
  | 18 => ((((load3 a 47) >>> 2) &&& 2097151 : Nat) : Int)
  | 19 => ((((load4 a 49) >>> 7) &&& 2097151 : Nat) : Int)
  | 20 => ((((load4 a 52) >>> 4) &&& 2097151 : Nat) : Int)
  | 21 => ((((load3 a 55) >>> 1) &&& 2097151 : Nat) : Int)
  | 22 => ((((load4 a 57) >>> 6) &&& 2097151 : Nat) : Int)
  | 23 => (((load4 a 60) >>> 3 : Nat) : Int)
  | _ => 0

/-- edwards25519.go:1457-1773 `ScReduce`. -/
def scReduce (s : Arr 64) : Arr 32 := scFinish (limbs24 s)

/-- edwards25519.go:1776 `order`. -/
def orderWord : Nat → Nat
  | 0 => 0x5812631a5cf5d3ed
  | 1 => 0x14def9dea2f79cd6
  | 2 => 0
  | _ => 0x1000000000000000

/-- `binary.LittleEndian.Uint64(scalar[i*8:])`: eight bytes, written as two groups of four. -/
def word (a : Arr 32) (i : Nat) : Nat := load4 a (i * 8) ||| load4 a (i * 8 + 4) <<< 32

/-- edwards25519.go:1781-1790: the loop, at index `i`. -/
def scMinimalFrom (a : Arr 32) : Nat → Bool
  | 0 => if word a 0 > orderWord 0 then false else if word a 0 < orderWord 0 then true else false
  | i + 1 =>
    if word a (i + 1) > orderWord (i + 1) then false
    else if word a (i + 1) < orderWord (i + 1) then true
    else scMinimalFrom a i

/-- edwards25519.go:1780-1793 `ScMinimal`. -/
def scMinimal (a : Arr 32) : Bool := scMinimalFrom a 3

end Verif.Ed
