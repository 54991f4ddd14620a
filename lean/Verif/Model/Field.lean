/-
Model of signify/internal/edwards25519/edwards25519.go, lines 12-621 (field arithmetic), and of the field constants in
const.go. Limbs are integers in the range of int32/int64; every Go operation that could overflow is wrapped by `w32`
or `w64`. Addition, subtraction and multiplication modulo 2^64 are ring operations, so one wrap around a
sum of products equals a wrap around every single operation; shifts, comparisons and conversions are applied to wrapped
values only. Left shifts are multiplications by powers of two. Pointers: a function that stores into its first argument
returns the new value; the places where the code passes overlapping pointers read all limbs before writing any.
-/
import Verif.Model.Go

namespace Verif.Ed

/-- The value of an integer after truncation to int32. -/
def w32 (x : Int) : Int := Int.bmod x (2^32)

/-- The value of an integer after truncation to int64. -/
def w64 (x : Int) : Int := Int.bmod x (2^64)

/-- Arithmetic shift right. -/
def sar (x : Int) (n : Nat) : Int := x / 2^n

/-- edwards25519.go:12-16 `FieldElement`, `[10]int32`. -/
@[ext] structure Fe where
  (f0 f1 f2 f3 f4 f5 f6 f7 f8 f9 : Int)
  deriving DecidableEq, Repr

/-- edwards25519.go:18-22 `FeZero`. -/
def feZero : Fe := ⟨0, 0, 0, 0, 0, 0, 0, 0, 0, 0⟩

/-- edwards25519.go:24-27 `FeOne`. -/
def feOne : Fe := ⟨1, 0, 0, 0, 0, 0, 0, 0, 0, 0⟩

/-- edwards25519.go:29-40 `FeAdd`. -/
def feAdd (a b : Fe) : Fe :=
  ⟨w32 (a.f0 + b.f0), w32 (a.f1 + b.f1), w32 (a.f2 + b.f2), w32 (a.f3 + b.f3), w32 (a.f4 + b.f4), w32 (a.f5 + b.f5), w32 (a.f6 + b.f6), w32 (a.f7 + b.f7), w32 (a.f8 + b.f8), w32 (a.f9 + b.f9)⟩

/-- edwards25519.go:42-53 `FeSub`. -/
def feSub (a b : Fe) : Fe :=
  ⟨w32 (a.f0 - b.f0), w32 (a.f1 - b.f1), w32 (a.f2 - b.f2), w32 (a.f3 - b.f3), w32 (a.f4 - b.f4), w32 (a.f5 - b.f5), w32 (a.f6 - b.f6), w32 (a.f7 - b.f7), w32 (a.f8 - b.f8), w32 (a.f9 - b.f9)⟩

/-- One limb of `FeCMove`: `f ^= b & (f ^ g)` on int32, with `b` already negated. -/
def cmoveLimb (f g : Int) (b : BitVec 32) : Int :=
  (BitVec.ofInt 32 f ^^^ (b &&& (BitVec.ofInt 32 f ^^^ BitVec.ofInt 32 g))).toInt

/-- edwards25519.go:59-75 `FeCMove`. -/
def feCMove (f g : Fe) (b : Int) : Fe :=
  let m := -(BitVec.ofInt 32 b)
  ⟨cmoveLimb f.f0 g.f0 m, cmoveLimb f.f1 g.f1 m, cmoveLimb f.f2 g.f2 m, cmoveLimb f.f3 g.f3 m, cmoveLimb f.f4 g.f4 m, cmoveLimb f.f5 g.f5 m, cmoveLimb f.f6 g.f6 m, cmoveLimb f.f7 g.f7 m, cmoveLimb f.f8 g.f8 m, cmoveLimb f.f9 g.f9 m⟩

/-- edwards25519.go:77-83 `load3` on `in[i:]`; the value is below 2^24, so int64 never overflows. -/
def load3 {n : Nat} (a : Arr n) (i : Nat) : Nat :=
  (a.toList.getD i 0).toNat ||| (a.toList.getD (i+1) 0).toNat <<< 8 ||| (a.toList.getD (i+2) 0).toNat <<< 16

/-- edwards25519.go:85-92 `load4` on `in[i:]`; the value is below 2^32. -/
def load4 {n : Nat} (a : Arr n) (i : Nat) : Nat :=
  (a.toList.getD i 0).toNat ||| (a.toList.getD (i+1) 0).toNat <<< 8 ||| (a.toList.getD (i+2) 0).toNat <<< 16
    ||| (a.toList.getD (i+3) 0).toNat <<< 24

/-- edwards25519.go:260-347 `FeCombine`. -/
def feCombine (h0 h1 h2 h3 h4 h5 h6 h7 h8 h9 : Int) : Fe :=
  let c0 := sar (w64 (h0 + 2^25)) 26
  let h1 := w64 (h1 + c0)
  let h0 := w64 (h0 - c0 * 2^26)
  let c4 := sar (w64 (h4 + 2^25)) 26
  let h5 := w64 (h5 + c4)
  let h4 := w64 (h4 - c4 * 2^26)
  let c1 := sar (w64 (h1 + 2^24)) 25
  let h2 := w64 (h2 + c1)
  let h1 := w64 (h1 - c1 * 2^25)
  let c5 := sar (w64 (h5 + 2^24)) 25
  let h6 := w64 (h6 + c5)
  let h5 := w64 (h5 - c5 * 2^25)
  let c2 := sar (w64 (h2 + 2^25)) 26
  let h3 := w64 (h3 + c2)
  let h2 := w64 (h2 - c2 * 2^26)
  let c6 := sar (w64 (h6 + 2^25)) 26
  let h7 := w64 (h7 + c6)
  let h6 := w64 (h6 - c6 * 2^26)
  let c3 := sar (w64 (h3 + 2^24)) 25
  let h4 := w64 (h4 + c3)
  let h3 := w64 (h3 - c3 * 2^25)
  let c7 := sar (w64 (h7 + 2^24)) 25
  let h8 := w64 (h8 + c7)
  let h7 := w64 (h7 - c7 * 2^25)
  let c4 := sar (w64 (h4 + 2^25)) 26
  let h5 := w64 (h5 + c4)
  let h4 := w64 (h4 - c4 * 2^26)
  let c8 := sar (w64 (h8 + 2^25)) 26
  let h9 := w64 (h9 + c8)
  let h8 := w64 (h8 - c8 * 2^26)
  let c9 := sar (w64 (h9 + 2^24)) 25
  let h0 := w64 (h0 + c9 * 19)
  let h9 := w64 (h9 - c9 * 2^25)
  let c0 := sar (w64 (h0 + 2^25)) 26
  let h1 := w64 (h1 + c0)
  let h0 := w64 (h0 - c0 * 2^26)
  ⟨w32 h0, w32 h1, w32 h2, w32 h3, w32 h4, w32 h5, w32 h6, w32 h7, w32 h8, w32 h9⟩

/-- edwards25519.go:94-107 `FeFromBytes`. -/
def feFromBytes (src : Arr 32) : Fe :=
  let h0 : Nat := load4 src 0
  let h1 : Nat := (load3 src 4) <<< 6
  let h2 : Nat := (load3 src 7) <<< 5
  let h3 : Nat := (load3 src 10) <<< 3
  let h4 : Nat := (load3 src 13) <<< 2
  let h5 : Nat := load4 src 16
  let h6 : Nat := (load3 src 20) <<< 7
  let h7 : Nat := (load3 src 23) <<< 5
  let h8 : Nat := (load3 src 26) <<< 4
  let h9 : Nat := (load3 src 29 &&& 8388607) <<< 2
  feCombine h0 h1 h2 h3 h4 h5 h6 h7 h8 h9

/-- `byte(x)`. -/
def byteOf (x : Int) : UInt8 := UInt8.ofBitVec (BitVec.ofInt 8 x)

/-- `byte(x | y)`: truncation to 8 bits commutes with the bitwise or. -/
def byteOr (x y : Int) : UInt8 := UInt8.ofBitVec (BitVec.ofInt 8 x ||| BitVec.ofInt 8 y)

/-- edwards25519.go:133-178 of `FeToBytes`: the reduction, which also stores the reduced limbs back into `h`. -/
def feReduce (h : Fe) : Fe :=
  let h0 := h.f0
  let h1 := h.f1
  let h2 := h.f2
  let h3 := h.f3
  let h4 := h.f4
  let h5 := h.f5
  let h6 := h.f6
  let h7 := h.f7
  let h8 := h.f8
  let h9 := h.f9
  let q := sar (w32 (19 * h9 + 2^24)) 25
  let q := sar (w32 (h0 + q)) 26
  let q := sar (w32 (h1 + q)) 25
  let q := sar (w32 (h2 + q)) 26
  let q := sar (w32 (h3 + q)) 25
  let q := sar (w32 (h4 + q)) 26
  let q := sar (w32 (h5 + q)) 25
  let q := sar (w32 (h6 + q)) 26
  let q := sar (w32 (h7 + q)) 25
  let q := sar (w32 (h8 + q)) 26
  let q := sar (w32 (h9 + q)) 25
  let h0 := w32 (h0 + 19 * q)
  let carry0 := sar h0 26
  let h1 := w32 (h1 + carry0)
  let h0 := w32 (h0 - carry0 * 2^26)
  let carry1 := sar h1 25
  let h2 := w32 (h2 + carry1)
  let h1 := w32 (h1 - carry1 * 2^25)
  let carry2 := sar h2 26
  let h3 := w32 (h3 + carry2)
  let h2 := w32 (h2 - carry2 * 2^26)
  let carry3 := sar h3 25
  let h4 := w32 (h4 + carry3)
  let h3 := w32 (h3 - carry3 * 2^25)
  let carry4 := sar h4 26
  let h5 := w32 (h5 + carry4)
  let h4 := w32 (h4 - carry4 * 2^26)
  let carry5 := sar h5 25
  let h6 := w32 (h6 + carry5)
  let h5 := w32 (h5 - carry5 * 2^25)
  let carry6 := sar h6 26
  let h7 := w32 (h7 + carry6)
  let h6 := w32 (h6 - carry6 * 2^26)
  let carry7 := sar h7 25
  let h8 := w32 (h8 + carry7)
  let h7 := w32 (h7 - carry7 * 2^25)
  let carry8 := sar h8 26
  let h9 := w32 (h9 + carry8)
  let h8 := w32 (h8 - carry8 * 2^26)
  let carry9 := sar h9 25
  let h9 := w32 (h9 - carry9 * 2^25)
  ⟨h0, h1, h2, h3, h4, h5, h6, h7, h8, h9⟩

/-- edwards25519.go:187-218 of `FeToBytes`: packing of reduced limbs. Bits shifted out of an int32 on the left are above
bit 8 of the result. -/
def fePack (h : Fe) : Arr 32 :=
  #v[
    byteOf (sar h.f0 0), byteOf (sar h.f0 8),
    byteOf (sar h.f0 16), byteOr (sar h.f0 24) (h.f1 * 2^2),
    byteOf (sar h.f1 6), byteOf (sar h.f1 14),
    byteOr (sar h.f1 22) (h.f2 * 2^3), byteOf (sar h.f2 5),
    byteOf (sar h.f2 13), byteOr (sar h.f2 21) (h.f3 * 2^5),
    byteOf (sar h.f3 3), byteOf (sar h.f3 11),
    byteOr (sar h.f3 19) (h.f4 * 2^6), byteOf (sar h.f4 2),
    byteOf (sar h.f4 10), byteOf (sar h.f4 18),
    byteOf (sar h.f5 0), byteOf (sar h.f5 8),
    byteOf (sar h.f5 16), byteOr (sar h.f5 24) (h.f6 * 2^1),
    byteOf (sar h.f6 7), byteOf (sar h.f6 15),
    byteOr (sar h.f6 23) (h.f7 * 2^3), byteOf (sar h.f7 5),
    byteOf (sar h.f7 13), byteOr (sar h.f7 21) (h.f8 * 2^4),
    byteOf (sar h.f8 4), byteOf (sar h.f8 12),
    byteOr (sar h.f8 20) (h.f9 * 2^6), byteOf (sar h.f9 2),
    byteOf (sar h.f9 10), byteOf (sar h.f9 18)]

/-- edwards25519.go:109-219 `FeToBytes`: the bytes, and the value left in `*h`. -/
def feToBytes (h : Fe) : Arr 32 × Fe := (fePack (feReduce h), feReduce h)

/-- edwards25519.go:221-225 `FeIsNegative`; it also replaces `*f` by its reduced form. -/
def feIsNegative (f : Fe) : UInt8 × Fe :=
  let r := feToBytes f
  (r.1[0] &&& 1, r.2)

/-- edwards25519.go:227-238 `FeIsNonZero`; it also replaces `*f` by its reduced form. -/
def feIsNonZero (f : Fe) : UInt8 × Fe :=
  let r := feToBytes f
  let x := r.1.toList.foldl (fun x b => x ||| b) 0
  let x := x ||| x >>> 4
  let x := x ||| x >>> 2
  let x := x ||| x >>> 1
  (x &&& 1, r.2)

/-- edwards25519.go:240-258 `FeNeg`. -/
def feNeg (f : Fe) : Fe :=
  ⟨w32 (-f.f0), w32 (-f.f1), w32 (-f.f2), w32 (-f.f3), w32 (-f.f4), w32 (-f.f5), w32 (-f.f6), w32 (-f.f7), w32 (-f.f8), w32 (-f.f9)⟩

/-- edwards25519.go:349-427 `FeMul`. -/
def feMul (f g : Fe) : Fe :=
  let f0 := f.f0
  let f1 := f.f1
  let f2 := f.f2
  let f3 := f.f3
  let f4 := f.f4
  let f5 := f.f5
  let f6 := f.f6
  let f7 := f.f7
  let f8 := f.f8
  let f9 := f.f9
  let f1_2 := w32 (2 * f.f1)
  let f3_2 := w32 (2 * f.f3)
  let f5_2 := w32 (2 * f.f5)
  let f7_2 := w32 (2 * f.f7)
  let f9_2 := w32 (2 * f.f9)
  let g0 := g.f0
  let g1 := g.f1
  let g2 := g.f2
  let g3 := g.f3
  let g4 := g.f4
  let g5 := g.f5
  let g6 := g.f6
  let g7 := g.f7
  let g8 := g.f8
  let g9 := g.f9
  let g1_19 := w32 (19 * g.f1)
  let g2_19 := w32 (19 * g.f2)
  let g3_19 := w32 (19 * g.f3)
  let g4_19 := w32 (19 * g.f4)
  let g5_19 := w32 (19 * g.f5)
  let g6_19 := w32 (19 * g.f6)
  let g7_19 := w32 (19 * g.f7)
  let g8_19 := w32 (19 * g.f8)
  let g9_19 := w32 (19 * g.f9)
  let h0 := w64 (f0 * g0 + f1_2 * g9_19 + f2 * g8_19 + f3_2 * g7_19 + f4 * g6_19 + f5_2 * g5_19 + f6 * g4_19 + f7_2 * g3_19 + f8 * g2_19 + f9_2 * g1_19)
  let h1 := w64 (f0 * g1 + f1 * g0 + f2 * g9_19 + f3 * g8_19 + f4 * g7_19 + f5 * g6_19 + f6 * g5_19 + f7 * g4_19 + f8 * g3_19 + f9 * g2_19)
  let h2 := w64 (f0 * g2 + f1_2 * g1 + f2 * g0 + f3_2 * g9_19 + f4 * g8_19 + f5_2 * g7_19 + f6 * g6_19 + f7_2 * g5_19 + f8 * g4_19 + f9_2 * g3_19)
  let h3 := w64 (f0 * g3 + f1 * g2 + f2 * g1 + f3 * g0 + f4 * g9_19 + f5 * g8_19 + f6 * g7_19 + f7 * g6_19 + f8 * g5_19 + f9 * g4_19)
  let h4 := w64 (f0 * g4 + f1_2 * g3 + f2 * g2 + f3_2 * g1 + f4 * g0 + f5_2 * g9_19 + f6 * g8_19 + f7_2 * g7_19 + f8 * g6_19 + f9_2 * g5_19)
  let h5 := w64 (f0 * g5 + f1 * g4 + f2 * g3 + f3 * g2 + f4 * g1 + f5 * g0 + f6 * g9_19 + f7 * g8_19 + f8 * g7_19 + f9 * g6_19)
  let h6 := w64 (f0 * g6 + f1_2 * g5 + f2 * g4 + f3_2 * g3 + f4 * g2 + f5_2 * g1 + f6 * g0 + f7_2 * g9_19 + f8 * g8_19 + f9_2 * g7_19)
  let h7 := w64 (f0 * g7 + f1 * g6 + f2 * g5 + f3 * g4 + f4 * g3 + f5 * g2 + f6 * g1 + f7 * g0 + f8 * g9_19 + f9 * g8_19)
  let h8 := w64 (f0 * g8 + f1_2 * g7 + f2 * g6 + f3_2 * g5 + f4 * g4 + f5_2 * g3 + f6 * g2 + f7_2 * g1 + f8 * g0 + f9_2 * g9_19)
  let h9 := w64 (f0 * g9 + f1 * g8 + f2 * g7 + f3 * g6 + f4 * g5 + f5 * g4 + f6 * g3 + f7 * g2 + f8 * g1 + f9 * g0)
  feCombine h0 h1 h2 h3 h4 h5 h6 h7 h8 h9

/-- edwards25519.go:429-466 `feSquare`: the ten 64-bit sums, passed to `k`. -/
def feSquareSums {α : Type} (f : Fe) (k : Int → Int → Int → Int → Int → Int → Int → Int → Int → Int → α) : α :=
  let f0 := f.f0
  let f1 := f.f1
  let f2 := f.f2
  let f3 := f.f3
  let f4 := f.f4
  let f5 := f.f5
  let f6 := f.f6
  let f7 := f.f7
  let f8 := f.f8
  let f9 := f.f9
  let f0_2 := w32 (2 * f.f0)
  let f1_2 := w32 (2 * f.f1)
  let f2_2 := w32 (2 * f.f2)
  let f3_2 := w32 (2 * f.f3)
  let f4_2 := w32 (2 * f.f4)
  let f5_2 := w32 (2 * f.f5)
  let f6_2 := w32 (2 * f.f6)
  let f7_2 := w32 (2 * f.f7)
  let f5_38 := w64 (38 * f5)
  let f6_19 := w64 (19 * f6)
  let f7_38 := w64 (38 * f7)
  let f8_19 := w64 (19 * f8)
  let f9_38 := w64 (38 * f9)
  let h0 := w64 (f0 * f0 + f1_2 * f9_38 + f2_2 * f8_19 + f3_2 * f7_38 + f4_2 * f6_19 + f5 * f5_38)
  let h1 := w64 (f0_2 * f1 + f2 * f9_38 + f3_2 * f8_19 + f4 * f7_38 + f5_2 * f6_19)
  let h2 := w64 (f0_2 * f2 + f1_2 * f1 + f3_2 * f9_38 + f4_2 * f8_19 + f5_2 * f7_38 + f6 * f6_19)
  let h3 := w64 (f0_2 * f3 + f1_2 * f2 + f4 * f9_38 + f5_2 * f8_19 + f6 * f7_38)
  let h4 := w64 (f0_2 * f4 + f1_2 * f3_2 + f2 * f2 + f5_2 * f9_38 + f6_2 * f8_19 + f7 * f7_38)
  let h5 := w64 (f0_2 * f5 + f1_2 * f4 + f2_2 * f3 + f6 * f9_38 + f7_2 * f8_19)
  let h6 := w64 (f0_2 * f6 + f1_2 * f5_2 + f2_2 * f4 + f3_2 * f3 + f7_2 * f9_38 + f8 * f8_19)
  let h7 := w64 (f0_2 * f7 + f1_2 * f6 + f2_2 * f5 + f3_2 * f4 + f8 * f9_38)
  let h8 := w64 (f0_2 * f8 + f1_2 * f7_2 + f2_2 * f6 + f3_2 * f5_2 + f4 * f4 + f9 * f9_38)
  let h9 := w64 (f0_2 * f9 + f1_2 * f8 + f2_2 * f7 + f3_2 * f6 + f4_2 * f5)
  k h0 h1 h2 h3 h4 h5 h6 h7 h8 h9

/-- edwards25519.go:468-478 `FeSquare`. -/
def feSquare (f : Fe) : Fe := feSquareSums f feCombine

/-- edwards25519.go:480-505 `FeSquare2`. -/
def feSquare2 (f : Fe) : Fe :=
  feSquareSums f fun h0 h1 h2 h3 h4 h5 h6 h7 h8 h9 =>
    feCombine (w64 (h0 + h0)) (w64 (h1 + h1)) (w64 (h2 + h2)) (w64 (h3 + h3)) (w64 (h4 + h4))
      (w64 (h5 + h5)) (w64 (h6 + h6)) (w64 (h7 + h7)) (w64 (h8 + h8)) (w64 (h9 + h9))

/-- `for i = 1; i < n; i++ { FeSquare(&t, &t) }` performs `n - 1` squarings; `sqIter k` performs `k`. -/
def sqIter : Nat → Fe → Fe
  | 0, t => t
  | k + 1, t => sqIter k (feSquare t)

/-- edwards25519.go:507-560 `FeInvert`. -/
def feInvert (z : Fe) : Fe :=
  let t0 := feSquare z
  let t1 := feSquare t0
  let t1 := sqIter 1 t1
  let t1 := feMul z t1
  let t0 := feMul t0 t1
  let t2 := feSquare t0
  let t1 := feMul t1 t2
  let t2 := feSquare t1
  let t2 := sqIter 4 t2
  let t1 := feMul t2 t1
  let t2 := feSquare t1
  let t2 := sqIter 9 t2
  let t2 := feMul t2 t1
  let t3 := feSquare t2
  let t3 := sqIter 19 t3
  let t2 := feMul t3 t2
  let t2 := feSquare t2
  let t2 := sqIter 9 t2
  let t1 := feMul t2 t1
  let t2 := feSquare t1
  let t2 := sqIter 49 t2
  let t2 := feMul t2 t1
  let t3 := feSquare t2
  let t3 := sqIter 99 t3
  let t2 := feMul t3 t2
  let t2 := feSquare t2
  let t2 := sqIter 49 t2
  let t1 := feMul t2 t1
  let t1 := feSquare t1
  let t1 := sqIter 4 t1
  feMul t1 t0

/-- edwards25519.go:562-621 `fePow22523`. -/
def fePow22523 (z : Fe) : Fe :=
  let t0 := feSquare z
  let t0 := sqIter 0 t0
  let t1 := feSquare t0
  let t1 := sqIter 1 t1
  let t1 := feMul z t1
  let t0 := feMul t0 t1
  let t0 := feSquare t0
  let t0 := sqIter 0 t0
  let t0 := feMul t1 t0
  let t1 := feSquare t0
  let t1 := sqIter 4 t1
  let t0 := feMul t1 t0
  let t1 := feSquare t0
  let t1 := sqIter 9 t1
  let t1 := feMul t1 t0
  let t2 := feSquare t1
  let t2 := sqIter 19 t2
  let t1 := feMul t2 t1
  let t1 := feSquare t1
  let t1 := sqIter 9 t1
  let t0 := feMul t1 t0
  let t1 := feSquare t0
  let t1 := sqIter 49 t1
  let t1 := feMul t1 t0
  let t2 := feSquare t1
  let t2 := sqIter 99 t2
  let t1 := feMul t2 t1
  let t1 := feSquare t1
  let t1 := sqIter 49 t1
  let t0 := feMul t1 t0
  let t0 := feSquare t0
  let t0 := sqIter 1 t0
  feMul t0 z

/-- const.go:10-13 `d`. -/
def feD : Fe := ⟨-10913610, 13857413, -15372611, 6949391, 114729, -8787816, -6275908, -3247719, -18696448, -12055116⟩

/-- const.go:15-18 `d2`. -/
def feD2 : Fe := ⟨-21827239, -5839606, -30745221, 13898782, 229458, 15978800, -12551817, -6495438, 29715968, 9444199⟩

/-- const.go:20-23 `SqrtM1`. -/
def feSqrtM1 : Fe := ⟨-32595792, -7943725, 9377950, 3500415, 12389472, -272473, -25146209, -2005654, 326686, 11406482⟩

/-- const.go:25-28 `A`. -/
def feA : Fe := ⟨486662, 0, 0, 0, 0, 0, 0, 0, 0, 0⟩

end Verif.Ed
