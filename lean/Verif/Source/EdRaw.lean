/-
What the statements of field functions in edwards25519.go compute, one operation at a time, and that this is what the
model says.
-/
import Verif.Source.Semantics
import Verif.Model.Group

namespace Verif.Src.EdSrc

open Verif.Ed

/-- Conversion to byte. -/
def u8 (x : Int) : Int := x % 2^8

/-- Bitwise operations on int32, int64 and byte. -/
abbrev or32 (a b : Int) : Int := ITy.int32.bitwise (· ||| ·) a b

abbrev and32 (a b : Int) : Int := ITy.int32.bitwise (· &&& ·) a b

abbrev xor32 (a b : Int) : Int := ITy.int32.bitwise (· ^^^ ·) a b

abbrev or64 (a b : Int) : Int := ITy.int64.bitwise (· ||| ·) a b

abbrev and64 (a b : Int) : Int := ITy.int64.bitwise (· &&& ·) a b

abbrev or8 (a b : Int) : Int := ITy.uint8.bitwise (· ||| ·) a b

abbrev and8 (a b : Int) : Int := ITy.uint8.bitwise (· &&& ·) a b

abbrev xor8 (a b : Int) : Int := ITy.uint8.bitwise (· ^^^ ·) a b

/-- edwards25519.go:63-75 `FeCMove`. -/
def rawCMove (f g : Fe) (b : Int) : Fe :=
  let b := w32 (-b)
  ⟨xor32 f.f0 (and32 b (xor32 f.f0 g.f0)), xor32 f.f1 (and32 b (xor32 f.f1 g.f1)), xor32 f.f2 (and32 b (xor32 f.f2 g.f2)), xor32 f.f3 (and32 b (xor32 f.f3 g.f3)), xor32 f.f4 (and32 b (xor32 f.f4 g.f4)), xor32 f.f5 (and32 b (xor32 f.f5 g.f5)), xor32 f.f6 (and32 b (xor32 f.f6 g.f6)), xor32 f.f7 (and32 b (xor32 f.f7 g.f7)), xor32 f.f8 (and32 b (xor32 f.f8 g.f8)), xor32 f.f9 (and32 b (xor32 f.f9 g.f9))⟩

/-- edwards25519.go:77-83 `load3`. -/
def rawLoad3 (b : Nat → Int) (i : Nat) : Int :=
  or64 (or64 (w64 (b i)) (w64 (w64 (b (i + 1)) * 2^8))) (w64 (w64 (b (i + 2)) * 2^16))

/-- edwards25519.go:85-92 `load4`. -/
def rawLoad4 (b : Nat → Int) (i : Nat) : Int :=
  or64 (or64 (or64 (w64 (b i)) (w64 (w64 (b (i + 1)) * 2^8))) (w64 (w64 (b (i + 2)) * 2^16))) (w64 (w64 (b (i + 3)) * 2^24))

/-- edwards25519.go:260-347 `FeCombine`. -/
def rawCombine (h0 h1 h2 h3 h4 h5 h6 h7 h8 h9 : Int) : Fe :=
  let c0 := (sar (w64 (h0 + (1 * 2^25))) 26)
  let h1 := (w64 (h1 + c0))
  let h0 := (w64 (h0 - (w64 (c0 * 2^26))))
  let c4 := (sar (w64 (h4 + (1 * 2^25))) 26)
  let h5 := (w64 (h5 + c4))
  let h4 := (w64 (h4 - (w64 (c4 * 2^26))))
  let c1 := (sar (w64 (h1 + (1 * 2^24))) 25)
  let h2 := (w64 (h2 + c1))
  let h1 := (w64 (h1 - (w64 (c1 * 2^25))))
  let c5 := (sar (w64 (h5 + (1 * 2^24))) 25)
  let h6 := (w64 (h6 + c5))
  let h5 := (w64 (h5 - (w64 (c5 * 2^25))))
  let c2 := (sar (w64 (h2 + (1 * 2^25))) 26)
  let h3 := (w64 (h3 + c2))
  let h2 := (w64 (h2 - (w64 (c2 * 2^26))))
  let c6 := (sar (w64 (h6 + (1 * 2^25))) 26)
  let h7 := (w64 (h7 + c6))
  let h6 := (w64 (h6 - (w64 (c6 * 2^26))))
  let c3 := (sar (w64 (h3 + (1 * 2^24))) 25)
  let h4 := (w64 (h4 + c3))
  let h3 := (w64 (h3 - (w64 (c3 * 2^25))))
  let c7 := (sar (w64 (h7 + (1 * 2^24))) 25)
  let h8 := (w64 (h8 + c7))
  let h7 := (w64 (h7 - (w64 (c7 * 2^25))))
  let c4 := (sar (w64 (h4 + (1 * 2^25))) 26)
  let h5 := (w64 (h5 + c4))
  let h4 := (w64 (h4 - (w64 (c4 * 2^26))))
  let c8 := (sar (w64 (h8 + (1 * 2^25))) 26)
  let h9 := (w64 (h9 + c8))
  let h8 := (w64 (h8 - (w64 (c8 * 2^26))))
  let c9 := (sar (w64 (h9 + (1 * 2^24))) 25)
  let h0 := (w64 (h0 + (w64 (c9 * 19))))
  let h9 := (w64 (h9 - (w64 (c9 * 2^25))))
  let c0 := (sar (w64 (h0 + (1 * 2^25))) 26)
  let h1 := (w64 (h1 + c0))
  let h0 := (w64 (h0 - (w64 (c0 * 2^26))))
  ⟨w32 h0, w32 h1, w32 h2, w32 h3, w32 h4, w32 h5, w32 h6, w32 h7, w32 h8, w32 h9⟩

/-- edwards25519.go:94-107 `FeFromBytes`. -/
def rawFromBytes (b : Nat → Int) : Fe :=
  let h0 := rawLoad4 b 0
  let h1 := w64 (rawLoad3 b 4 * 2^6)
  let h2 := w64 (rawLoad3 b 7 * 2^5)
  let h3 := w64 (rawLoad3 b 10 * 2^3)
  let h4 := w64 (rawLoad3 b 13 * 2^2)
  let h5 := rawLoad4 b 16
  let h6 := w64 (rawLoad3 b 20 * 2^7)
  let h7 := w64 (rawLoad3 b 23 * 2^5)
  let h8 := w64 (rawLoad3 b 26 * 2^4)
  let h9 := w64 (and64 (rawLoad3 b 29) 8388607 * 2^2)
  rawCombine h0 h1 h2 h3 h4 h5 h6 h7 h8 h9

/-- edwards25519.go:133-178 of `FeToBytes`. -/
def rawReduce (h : Fe) : Fe :=
  let h0 := h.f0
  let h1 := h.f1
  let h2 := h.f2
  let h3 := h.f3
  let h4 := h.f4
  let h5 := h.f5
  let h6 := h.f6
  let h7 := h.f7
  let h8 := h.f8
  let h9 := h.f9
  let q := sar (w32 (w32 (19 * h9) + 1 * 2^24)) 25
  let q := sar (w32 (h0 + q)) 26
  let q := sar (w32 (h1 + q)) 25
  let q := sar (w32 (h2 + q)) 26
  let q := sar (w32 (h3 + q)) 25
  let q := sar (w32 (h4 + q)) 26
  let q := sar (w32 (h5 + q)) 25
  let q := sar (w32 (h6 + q)) 26
  let q := sar (w32 (h7 + q)) 25
  let q := sar (w32 (h8 + q)) 26
  let q := sar (w32 (h9 + q)) 25
  let h0 := w32 (h0 + w32 (19 * q))
  let carry0 := sar h0 26
  let h1 := w32 (h1 + carry0)
  let h0 := w32 (h0 - w32 (carry0 * 2^26))
  let carry1 := sar h1 25
  let h2 := w32 (h2 + carry1)
  let h1 := w32 (h1 - w32 (carry1 * 2^25))
  let carry2 := sar h2 26
  let h3 := w32 (h3 + carry2)
  let h2 := w32 (h2 - w32 (carry2 * 2^26))
  let carry3 := sar h3 25
  let h4 := w32 (h4 + carry3)
  let h3 := w32 (h3 - w32 (carry3 * 2^25))
  let carry4 := sar h4 26
  let h5 := w32 (h5 + carry4)
  let h4 := w32 (h4 - w32 (carry4 * 2^26))
  let carry5 := sar h5 25
  let h6 := w32 (h6 + carry5)
  let h5 := w32 (h5 - w32 (carry5 * 2^25))
  let carry6 := sar h6 26
  let h7 := w32 (h7 + carry6)
  let h6 := w32 (h6 - w32 (carry6 * 2^26))
  let carry7 := sar h7 25
  let h8 := w32 (h8 + carry7)
  let h7 := w32 (h7 - w32 (carry7 * 2^25))
  let carry8 := sar h8 26
  let h9 := w32 (h9 + carry8)
  let h8 := w32 (h8 - w32 (carry8 * 2^26))
  let carry9 := sar h9 25
  let h9 := w32 (h9 - w32 (carry9 * 2^25))
  ⟨h0, h1, h2, h3, h4, h5, h6, h7, h8, h9⟩

/-- edwards25519.go:187-218 of `FeToBytes`. -/
def rawPack (h : Fe) : List Int :=
  [u8 (sar h.f0 0), u8 (sar h.f0 8), u8 (sar h.f0 16), u8 (or32 (sar h.f0 24) (w32 (h.f1 * 2^2))),
    u8 (sar h.f1 6), u8 (sar h.f1 14), u8 (or32 (sar h.f1 22) (w32 (h.f2 * 2^3))), u8 (sar h.f2 5),
    u8 (sar h.f2 13), u8 (or32 (sar h.f2 21) (w32 (h.f3 * 2^5))), u8 (sar h.f3 3), u8 (sar h.f3 11),
    u8 (or32 (sar h.f3 19) (w32 (h.f4 * 2^6))), u8 (sar h.f4 2), u8 (sar h.f4 10), u8 (sar h.f4 18),
    u8 (sar h.f5 0), u8 (sar h.f5 8), u8 (sar h.f5 16), u8 (or32 (sar h.f5 24) (w32 (h.f6 * 2^1))),
    u8 (sar h.f6 7), u8 (sar h.f6 15), u8 (or32 (sar h.f6 23) (w32 (h.f7 * 2^3))), u8 (sar h.f7 5),
    u8 (sar h.f7 13), u8 (or32 (sar h.f7 21) (w32 (h.f8 * 2^4))), u8 (sar h.f8 4), u8 (sar h.f8 12),
    u8 (or32 (sar h.f8 20) (w32 (h.f9 * 2^6))), u8 (sar h.f9 2), u8 (sar h.f9 10), u8 (sar h.f9 18)]

/-- The bytes that `FeToBytes` stores. -/
def rawBytes (h : Fe) : Nat → Int := fun i => (rawPack (rawReduce h)).getD i 0

/-- edwards25519.go:221-225 `FeIsNegative`. -/
def rawIsNegative (h : Fe) : Int := and8 (rawBytes h 0) 1

/-- edwards25519.go:227-238 `FeIsNonZero`. -/
def rawIsNonZero (h : Fe) : Int :=
  let x := (List.range 32).foldl (fun x i => or8 x (rawBytes h i)) 0
  let x := or8 x (sar x 4)
  let x := or8 x (sar x 2)
  let x := or8 x (sar x 1)
  w32 (and8 x 1)

/-- edwards25519.go:376-427 `FeMul`. -/
def rawMul (f g : Fe) : Fe :=
  let f0 := (w64 f.f0)
  let f1 := (w64 f.f1)
  let f2 := (w64 f.f2)
  let f3 := (w64 f.f3)
  let f4 := (w64 f.f4)
  let f5 := (w64 f.f5)
  let f6 := (w64 f.f6)
  let f7 := (w64 f.f7)
  let f8 := (w64 f.f8)
  let f9 := (w64 f.f9)
  let f1_2 := (w64 (w32 (2 * f.f1)))
  let f3_2 := (w64 (w32 (2 * f.f3)))
  let f5_2 := (w64 (w32 (2 * f.f5)))
  let f7_2 := (w64 (w32 (2 * f.f7)))
  let f9_2 := (w64 (w32 (2 * f.f9)))
  let g0 := (w64 g.f0)
  let g1 := (w64 g.f1)
  let g2 := (w64 g.f2)
  let g3 := (w64 g.f3)
  let g4 := (w64 g.f4)
  let g5 := (w64 g.f5)
  let g6 := (w64 g.f6)
  let g7 := (w64 g.f7)
  let g8 := (w64 g.f8)
  let g9 := (w64 g.f9)
  let g1_19 := (w64 (w32 (19 * g.f1)))
  let g2_19 := (w64 (w32 (19 * g.f2)))
  let g3_19 := (w64 (w32 (19 * g.f3)))
  let g4_19 := (w64 (w32 (19 * g.f4)))
  let g5_19 := (w64 (w32 (19 * g.f5)))
  let g6_19 := (w64 (w32 (19 * g.f6)))
  let g7_19 := (w64 (w32 (19 * g.f7)))
  let g8_19 := (w64 (w32 (19 * g.f8)))
  let g9_19 := (w64 (w32 (19 * g.f9)))
  let h0 := (w64 ((w64 ((w64 ((w64 ((w64 ((w64 ((w64 ((w64 ((w64 ((w64 (f0 * g0)) + (w64 (f1_2 * g9_19)))) + (w64 (f2 * g8_19)))) + (w64 (f3_2 * g7_19)))) + (w64 (f4 * g6_19)))) + (w64 (f5_2 * g5_19)))) + (w64 (f6 * g4_19)))) + (w64 (f7_2 * g3_19)))) + (w64 (f8 * g2_19)))) + (w64 (f9_2 * g1_19))))
  let h1 := (w64 ((w64 ((w64 ((w64 ((w64 ((w64 ((w64 ((w64 ((w64 ((w64 (f0 * g1)) + (w64 (f1 * g0)))) + (w64 (f2 * g9_19)))) + (w64 (f3 * g8_19)))) + (w64 (f4 * g7_19)))) + (w64 (f5 * g6_19)))) + (w64 (f6 * g5_19)))) + (w64 (f7 * g4_19)))) + (w64 (f8 * g3_19)))) + (w64 (f9 * g2_19))))
  let h2 := (w64 ((w64 ((w64 ((w64 ((w64 ((w64 ((w64 ((w64 ((w64 ((w64 (f0 * g2)) + (w64 (f1_2 * g1)))) + (w64 (f2 * g0)))) + (w64 (f3_2 * g9_19)))) + (w64 (f4 * g8_19)))) + (w64 (f5_2 * g7_19)))) + (w64 (f6 * g6_19)))) + (w64 (f7_2 * g5_19)))) + (w64 (f8 * g4_19)))) + (w64 (f9_2 * g3_19))))
  let h3 := (w64 ((w64 ((w64 ((w64 ((w64 ((w64 ((w64 ((w64 ((w64 ((w64 (f0 * g3)) + (w64 (f1 * g2)))) + (w64 (f2 * g1)))) + (w64 (f3 * g0)))) + (w64 (f4 * g9_19)))) + (w64 (f5 * g8_19)))) + (w64 (f6 * g7_19)))) + (w64 (f7 * g6_19)))) + (w64 (f8 * g5_19)))) + (w64 (f9 * g4_19))))
  let h4 := (w64 ((w64 ((w64 ((w64 ((w64 ((w64 ((w64 ((w64 ((w64 ((w64 (f0 * g4)) + (w64 (f1_2 * g3)))) + (w64 (f2 * g2)))) + (w64 (f3_2 * g1)))) + (w64 (f4 * g0)))) + (w64 (f5_2 * g9_19)))) + (w64 (f6 * g8_19)))) + (w64 (f7_2 * g7_19)))) + (w64 (f8 * g6_19)))) + (w64 (f9_2 * g5_19))))
  let h5 := (w64 ((w64 ((w64 ((w64 ((w64 ((w64 ((w64 ((w64 ((w64 ((w64 (f0 * g5)) + (w64 (f1 * g4)))) + (w64 (f2 * g3)))) + (w64 (f3 * g2)))) + (w64 (f4 * g1)))) + (w64 (f5 * g0)))) + (w64 (f6 * g9_19)))) + (w64 (f7 * g8_19)))) + (w64 (f8 * g7_19)))) + (w64 (f9 * g6_19))))
  let h6 := (w64 ((w64 ((w64 ((w64 ((w64 ((w64 ((w64 ((w64 ((w64 ((w64 (f0 * g6)) + (w64 (f1_2 * g5)))) + (w64 (f2 * g4)))) + (w64 (f3_2 * g3)))) + (w64 (f4 * g2)))) + (w64 (f5_2 * g1)))) + (w64 (f6 * g0)))) + (w64 (f7_2 * g9_19)))) + (w64 (f8 * g8_19)))) + (w64 (f9_2 * g7_19))))
  let h7 := (w64 ((w64 ((w64 ((w64 ((w64 ((w64 ((w64 ((w64 ((w64 ((w64 (f0 * g7)) + (w64 (f1 * g6)))) + (w64 (f2 * g5)))) + (w64 (f3 * g4)))) + (w64 (f4 * g3)))) + (w64 (f5 * g2)))) + (w64 (f6 * g1)))) + (w64 (f7 * g0)))) + (w64 (f8 * g9_19)))) + (w64 (f9 * g8_19))))
  let h8 := (w64 ((w64 ((w64 ((w64 ((w64 ((w64 ((w64 ((w64 ((w64 ((w64 (f0 * g8)) + (w64 (f1_2 * g7)))) + (w64 (f2 * g6)))) + (w64 (f3_2 * g5)))) + (w64 (f4 * g4)))) + (w64 (f5_2 * g3)))) + (w64 (f6 * g2)))) + (w64 (f7_2 * g1)))) + (w64 (f8 * g0)))) + (w64 (f9_2 * g9_19))))
  let h9 := (w64 ((w64 ((w64 ((w64 ((w64 ((w64 ((w64 ((w64 ((w64 ((w64 (f0 * g9)) + (w64 (f1 * g8)))) + (w64 (f2 * g7)))) + (w64 (f3 * g6)))) + (w64 (f4 * g5)))) + (w64 (f5 * g4)))) + (w64 (f6 * g3)))) + (w64 (f7 * g2)))) + (w64 (f8 * g1)))) + (w64 (f9 * g0))))
  rawCombine h0 h1 h2 h3 h4 h5 h6 h7 h8 h9

/-- edwards25519.go:429-466 `feSquare`. -/
def rawSquareSums {α : Type} (f : Fe) (k : Int → Int → Int → Int → Int → Int → Int → Int → Int → Int → α) : α :=
  let f0 := (w64 f.f0)
  let f1 := (w64 f.f1)
  let f2 := (w64 f.f2)
  let f3 := (w64 f.f3)
  let f4 := (w64 f.f4)
  let f5 := (w64 f.f5)
  let f6 := (w64 f.f6)
  let f7 := (w64 f.f7)
  let f8 := (w64 f.f8)
  let f9 := (w64 f.f9)
  let f0_2 := (w64 (w32 (2 * f.f0)))
  let f1_2 := (w64 (w32 (2 * f.f1)))
  let f2_2 := (w64 (w32 (2 * f.f2)))
  let f3_2 := (w64 (w32 (2 * f.f3)))
  let f4_2 := (w64 (w32 (2 * f.f4)))
  let f5_2 := (w64 (w32 (2 * f.f5)))
  let f6_2 := (w64 (w32 (2 * f.f6)))
  let f7_2 := (w64 (w32 (2 * f.f7)))
  let f5_38 := (w64 (38 * f5))
  let f6_19 := (w64 (19 * f6))
  let f7_38 := (w64 (38 * f7))
  let f8_19 := (w64 (19 * f8))
  let f9_38 := (w64 (38 * f9))
  let h0 := (w64 ((w64 ((w64 ((w64 ((w64 ((w64 (f0 * f0)) + (w64 (f1_2 * f9_38)))) + (w64 (f2_2 * f8_19)))) + (w64 (f3_2 * f7_38)))) + (w64 (f4_2 * f6_19)))) + (w64 (f5 * f5_38))))
  let h1 := (w64 ((w64 ((w64 ((w64 ((w64 (f0_2 * f1)) + (w64 (f2 * f9_38)))) + (w64 (f3_2 * f8_19)))) + (w64 (f4 * f7_38)))) + (w64 (f5_2 * f6_19))))
  let h2 := (w64 ((w64 ((w64 ((w64 ((w64 ((w64 (f0_2 * f2)) + (w64 (f1_2 * f1)))) + (w64 (f3_2 * f9_38)))) + (w64 (f4_2 * f8_19)))) + (w64 (f5_2 * f7_38)))) + (w64 (f6 * f6_19))))
  let h3 := (w64 ((w64 ((w64 ((w64 ((w64 (f0_2 * f3)) + (w64 (f1_2 * f2)))) + (w64 (f4 * f9_38)))) + (w64 (f5_2 * f8_19)))) + (w64 (f6 * f7_38))))
  let h4 := (w64 ((w64 ((w64 ((w64 ((w64 ((w64 (f0_2 * f4)) + (w64 (f1_2 * f3_2)))) + (w64 (f2 * f2)))) + (w64 (f5_2 * f9_38)))) + (w64 (f6_2 * f8_19)))) + (w64 (f7 * f7_38))))
  let h5 := (w64 ((w64 ((w64 ((w64 ((w64 (f0_2 * f5)) + (w64 (f1_2 * f4)))) + (w64 (f2_2 * f3)))) + (w64 (f6 * f9_38)))) + (w64 (f7_2 * f8_19))))
  let h6 := (w64 ((w64 ((w64 ((w64 ((w64 ((w64 (f0_2 * f6)) + (w64 (f1_2 * f5_2)))) + (w64 (f2_2 * f4)))) + (w64 (f3_2 * f3)))) + (w64 (f7_2 * f9_38)))) + (w64 (f8 * f8_19))))
  let h7 := (w64 ((w64 ((w64 ((w64 ((w64 (f0_2 * f7)) + (w64 (f1_2 * f6)))) + (w64 (f2_2 * f5)))) + (w64 (f3_2 * f4)))) + (w64 (f8 * f9_38))))
  let h8 := (w64 ((w64 ((w64 ((w64 ((w64 ((w64 (f0_2 * f8)) + (w64 (f1_2 * f7_2)))) + (w64 (f2_2 * f6)))) + (w64 (f3_2 * f5_2)))) + (w64 (f4 * f4)))) + (w64 (f9 * f9_38))))
  let h9 := (w64 ((w64 ((w64 ((w64 ((w64 (f0_2 * f9)) + (w64 (f1_2 * f8)))) + (w64 (f2_2 * f7)))) + (w64 (f3_2 * f6)))) + (w64 (f4_2 * f5))))
  k h0 h1 h2 h3 h4 h5 h6 h7 h8 h9

/-- edwards25519.go:475-478 `FeSquare`. -/
def rawSquare (f : Fe) : Fe := rawSquareSums f rawCombine

/-- edwards25519.go:490-505 `FeSquare2`. -/
def rawSquare2 (f : Fe) : Fe :=
  rawSquareSums f fun h0 h1 h2 h3 h4 h5 h6 h7 h8 h9 =>
    rawCombine (w64 (h0 + h0)) (w64 (h1 + h1)) (w64 (h2 + h2)) (w64 (h3 + h3)) (w64 (h4 + h4))
      (w64 (h5 + h5)) (w64 (h6 + h6)) (w64 (h7 + h7)) (w64 (h8 + h8)) (w64 (h9 + h9))

/-! ### The same as in the model -/

theorem w64_add (a b : Int) : w64 (w64 a + w64 b) = w64 (a + b) := by simp [w64]
theorem w64_addl (a b : Int) : w64 (w64 a + b) = w64 (a + b) := by simp [w64]
theorem w64_addr (a b : Int) : w64 (a + w64 b) = w64 (a + b) := by simp [w64]
theorem w64_subr (a b : Int) : w64 (a - w64 b) = w64 (a - b) := by simp [w64]
theorem w64_mull (a b : Int) : w64 (w64 a * b) = w64 (a * b) := by simp [w64]
theorem w64_mulr (a b : Int) : w64 (a * w64 b) = w64 (a * b) := by simp [w64]
theorem w32_addl (a b : Int) : w32 (w32 a + b) = w32 (a + b) := by simp [w32]
theorem w32_addr (a b : Int) : w32 (a + w32 b) = w32 (a + b) := by simp [w32]
theorem w32_subr (a b : Int) : w32 (a - w32 b) = w32 (a - b) := by simp [w32]

macro "lets" : tactic => `(tactic|
  simp -zeta only [w64_addl, w64_addr, w64_subr, w64_mull, w64_mulr, w32_addl, w32_addr, w32_subr, Int.one_mul])

theorem rawCombine_eq (h0 h1 h2 h3 h4 h5 h6 h7 h8 h9 : Int) :
    rawCombine h0 h1 h2 h3 h4 h5 h6 h7 h8 h9 = feCombine h0 h1 h2 h3 h4 h5 h6 h7 h8 h9 := by
  unfold rawCombine feCombine
  lets

theorem rawReduce_eq (h : Fe) : rawReduce h = feReduce h := by
  unfold rawReduce feReduce
  lets

theorem rawMul_eq (f g : Fe) : rawMul f g = feMul f g := by
  unfold rawMul feMul
  simp only [w64_addl, w64_addr, w64_mull, w64_mulr, rawCombine_eq]

theorem ofInt_bmod (x : Int) : BitVec.ofInt 32 (Int.bmod x (2^32)) = BitVec.ofInt 32 x := by
  apply BitVec.eq_of_toInt_eq
  simp [BitVec.toInt_ofInt]

theorem rawCMove_eq (f g : Fe) (b : Int) : rawCMove f g b = feCMove f g b := by
  have limb : ∀ x y : Int, xor32 x (and32 (w32 (-b)) (xor32 x y)) = cmoveLimb x y (-(BitVec.ofInt 32 b)) := by
    intro x y
    unfold cmoveLimb xor32 and32 ITy.bitwise ITy.wrap ITy.bits w32
    simp only [ofInt_bmod, BitVec.ofInt_toInt, BitVec.ofInt_neg]
    rw [Int.bmod_eq_of_le]
    · have := BitVec.le_toInt (BitVec.ofInt 32 x ^^^ (-(BitVec.ofInt 32 b) &&& (BitVec.ofInt 32 x ^^^ BitVec.ofInt 32 y)))
      omega
    · have := BitVec.toInt_lt (x := BitVec.ofInt 32 x ^^^ (-(BitVec.ofInt 32 b) &&& (BitVec.ofInt 32 x ^^^ BitVec.ofInt 32 y)))
      omega
  unfold rawCMove feCMove
  simp only [limb]

/-- Bytes as integers. -/
def intsOf {n : Nat} (a : Arr n) : Nat → Int := fun i => ((a.toList.getD i 0).toNat : Int)

theorem or64_nat (a b : Nat) (ha : a < 2^63) (hb : b < 2^63) : or64 a b = ((a ||| b : Nat) : Int) := by
  have h : a ||| b < 2^63 := Nat.or_lt_two_pow ha hb
  show Int.bmod (BitVec.ofInt 64 a ||| BitVec.ofInt 64 b).toInt (2^64) = _
  rw [BitVec.ofInt_natCast, BitVec.ofInt_natCast, ← BitVec.ofNat_or, BitVec.toInt_eq_toNat_bmod, BitVec.toNat_ofNat, Nat.mod_eq_of_lt (by omega)]
  simp only [Int.bmod_bmod]
  rw [Int.bmod_eq_of_le] <;> omega

theorem and64_nat (a b : Nat) (_ha : a < 2^63) (hb : b < 2^63) : and64 a b = ((a &&& b : Nat) : Int) := by
  have h : a &&& b < 2^63 := Nat.and_lt_two_pow a hb
  show Int.bmod (BitVec.ofInt 64 a &&& BitVec.ofInt 64 b).toInt (2^64) = _
  rw [BitVec.ofInt_natCast, BitVec.ofInt_natCast, ← BitVec.ofNat_and, BitVec.toInt_eq_toNat_bmod, BitVec.toNat_ofNat, Nat.mod_eq_of_lt (by omega)]
  simp only [Int.bmod_bmod]
  rw [Int.bmod_eq_of_le] <;> omega

theorem w64_small {x : Int} (h : -2^63 ≤ x) (h' : x < 2^63) : w64 x = x := by
  unfold w64
  rw [Int.bmod_eq_of_le] <;> omega

theorem w64_nat {x : Nat} (h : x < 2^63) : w64 x = x := w64_small (by omega) (by omega)

theorem w64_shl {x k : Nat} (h : x * 2^k < 2^63) : w64 ((x : Int) * 2^k) = ((x <<< k : Nat) : Int) := by
  rw [Nat.shiftLeft_eq, w64_small]
  · push_cast; rfl
  · have : (0 : Int) ≤ (x : Int) * 2^k := Int.mul_nonneg (Int.natCast_nonneg x) (Int.le_of_lt (Int.pow_pos (by decide)))
    omega
  · exact_mod_cast h

theorem rawLoad3_eq {n : Nat} (a : Arr n) (i : Nat) : rawLoad3 (intsOf a) i = (load3 a i : Nat) := by
  unfold rawLoad3 load3 intsOf
  generalize a.toList.getD i 0 = x
  generalize a.toList.getD (i + 1) 0 = y
  generalize a.toList.getD (i + 2) 0 = z
  have hx : x.toNat < 2^8 := x.toNat_lt
  have hy : y.toNat < 2^8 := y.toNat_lt
  have hz : z.toNat < 2^8 := z.toNat_lt
  have h1 : y.toNat <<< 8 < 2^63 := by rw [Nat.shiftLeft_eq]; omega
  have h2 : z.toNat <<< 16 < 2^63 := by rw [Nat.shiftLeft_eq]; omega
  rw [w64_nat (x := x.toNat) (by omega), w64_nat (x := y.toNat) (by omega), w64_nat (x := z.toNat) (by omega),
    w64_shl (by omega), w64_shl (by omega), or64_nat _ _ (by omega) h1, or64_nat _ _ (Nat.or_lt_two_pow (by omega) h1) h2]

theorem rawLoad4_eq {n : Nat} (a : Arr n) (i : Nat) : rawLoad4 (intsOf a) i = (load4 a i : Nat) := by
  unfold rawLoad4 load4 intsOf
  generalize a.toList.getD i 0 = x
  generalize a.toList.getD (i + 1) 0 = y
  generalize a.toList.getD (i + 2) 0 = z
  generalize a.toList.getD (i + 3) 0 = u
  have hx : x.toNat < 2^8 := x.toNat_lt
  have hy : y.toNat < 2^8 := y.toNat_lt
  have hz : z.toNat < 2^8 := z.toNat_lt
  have hu : u.toNat < 2^8 := u.toNat_lt
  have h1 : y.toNat <<< 8 < 2^63 := by rw [Nat.shiftLeft_eq]; omega
  have h2 : z.toNat <<< 16 < 2^63 := by rw [Nat.shiftLeft_eq]; omega
  have h3 : u.toNat <<< 24 < 2^63 := by rw [Nat.shiftLeft_eq]; omega
  rw [w64_nat (x := x.toNat) (by omega), w64_nat (x := y.toNat) (by omega), w64_nat (x := z.toNat) (by omega),
    w64_nat (x := u.toNat) (by omega),
    w64_shl (by omega), w64_shl (by omega), w64_shl (by omega), or64_nat _ _ (by omega) h1,
    or64_nat _ _ (Nat.or_lt_two_pow (by omega) h1) h2,
    or64_nat _ _ (Nat.or_lt_two_pow (Nat.or_lt_two_pow (by omega) h1) h2) h3]

theorem load3_lt {n : Nat} (a : Arr n) (i : Nat) : load3 a i < 2^24 := by
  unfold load3
  have h := (a.toList.getD i 0).toNat_lt
  have h' := (a.toList.getD (i + 1) 0).toNat_lt
  have h'' := (a.toList.getD (i + 2) 0).toNat_lt
  refine Nat.or_lt_two_pow (Nat.or_lt_two_pow (by omega) ?_) ?_ <;> rw [Nat.shiftLeft_eq] <;> omega

theorem rawFromBytes_eq (a : Arr 32) : rawFromBytes (intsOf a) = feFromBytes a := by
  have l3 : ∀ i k, k < 32 → w64 (((load3 a i : Nat) : Int) * 2^k) = ((load3 a i <<< k : Nat) : Int) := by
    intro i k hk
    refine w64_shl ?_
    have h1 := load3_lt a i
    have h2 : 2^k < 2^32 := Nat.pow_lt_pow_right (by omega) hk
    exact Nat.lt_of_lt_of_le (Nat.mul_lt_mul'' h1 h2) (by decide)
  unfold rawFromBytes feFromBytes
  simp only [rawLoad3_eq, rawLoad4_eq]
  rw [l3 _ 6 (by omega), l3 _ 5 (by omega), l3 _ 3 (by omega), l3 _ 2 (by omega), l3 _ 7 (by omega), l3 _ 5 (by omega), l3 _ 4 (by omega),
    show (8388607 : Int) = ((8388607 : Nat) : Int) by rfl, and64_nat _ _ (by have := load3_lt a 29; omega) (by omega), rawCombine_eq, w64_shl]
  have h : load3 a 29 &&& 8388607 < 2^24 := Nat.and_lt_two_pow _ (by omega)
  omega

theorem toInt_emod {n k : Nat} (h : k ≤ n) (v : BitVec n) : v.toInt % 2^k = ((v.setWidth k).toNat : Int) := by
  obtain ⟨m, rfl⟩ : ∃ m, n = k + m := ⟨n - k, by omega⟩
  rw [BitVec.toInt_eq_toNat_cond, BitVec.toNat_setWidth, Int.natCast_emod]
  push_cast
  split
  · rfl
  · rw [Int.pow_add, Int.sub_mul_emod_self_left]

theorem setWidth_ofInt {n k : Nat} (h : k ≤ n) (x : Int) : (BitVec.ofInt n x).setWidth k = BitVec.ofInt k x := by
  apply BitVec.eq_of_toNat_eq
  obtain ⟨m, rfl⟩ : ∃ m, n = k + m := ⟨n - k, by omega⟩
  rw [BitVec.toNat_setWidth, BitVec.toNat_ofInt, BitVec.toNat_ofInt]
  have e : ((2^k : Nat) : Int) ≠ 0 := by
    have : 0 < 2^k := Nat.two_pow_pos k
    omega
  have e' : ((2^(k + m) : Nat) : Int) ≠ 0 := by
    have : 0 < 2^(k + m) := Nat.two_pow_pos _
    omega
  apply Int.natCast_inj.1
  rw [Int.natCast_emod, Int.toNat_of_nonneg (Int.emod_nonneg _ e'), Int.toNat_of_nonneg (Int.emod_nonneg _ e)]
  rw [Int.emod_emod_of_dvd]
  rw [Nat.pow_add]
  exact Int.natCast_dvd_natCast.2 ⟨_, rfl⟩

theorem u8_toNat (v : BitVec 8) : v.toInt % 2^8 = (v.toNat : Int) := by
  have := toInt_emod (Nat.le_refl 8) v
  rwa [BitVec.setWidth_eq] at this

theorem ofInt_toNat8 (x : UInt8) : BitVec.ofInt 8 (x.toNat : Int) = x.toBitVec := by
  apply BitVec.eq_of_toNat_eq
  rw [BitVec.ofInt_natCast, BitVec.toNat_ofNat]
  exact Nat.mod_eq_of_lt x.toNat_lt

theorem byteOf_eq (x : Int) : ((byteOf x).toNat : Int) = u8 x := by
  show ((BitVec.ofInt 8 x).toNat : Int) = x % 2^8
  rw [BitVec.toNat_ofInt, Int.toNat_of_nonneg (Int.emod_nonneg _ (by decide))]
  rfl

theorem byteOr_eq (x y : Int) : ((byteOr x y).toNat : Int) = u8 (or32 x (w32 y)) := by
  show ((BitVec.ofInt 8 x ||| BitVec.ofInt 8 y).toNat : Int) =
    Int.bmod (BitVec.ofInt 32 x ||| BitVec.ofInt 32 (Int.bmod y (2^32))).toInt (2^32) % 2^8
  rw [ofInt_bmod]
  generalize e : BitVec.ofInt 32 x ||| BitVec.ofInt 32 y = v
  have e1 : Int.bmod v.toInt (2^32) = v.toInt := by
    have h1 := BitVec.le_toInt v
    have h2 := BitVec.toInt_lt (x := v)
    rw [Int.bmod_eq_of_le] <;> omega
  rw [e1, toInt_emod (k := 8) (by decide), ← e, BitVec.setWidth_or, setWidth_ofInt (by decide), setWidth_ofInt (by decide)]

theorem or8_eq (x y : UInt8) : or8 x.toNat y.toNat = ((x ||| y).toNat : Int) := by
  show (BitVec.ofInt 8 x.toNat ||| BitVec.ofInt 8 y.toNat).toInt % 2^8 = _
  rw [ofInt_toNat8, ofInt_toNat8, u8_toNat]
  rfl

theorem and8_eq (x y : UInt8) : and8 x.toNat y.toNat = ((x &&& y).toNat : Int) := by
  show (BitVec.ofInt 8 x.toNat &&& BitVec.ofInt 8 y.toNat).toInt % 2^8 = _
  rw [ofInt_toNat8, ofInt_toNat8, u8_toNat]
  rfl

theorem xor8_eq (x y : UInt8) : xor8 x.toNat y.toNat = ((x ^^^ y).toNat : Int) := by
  show (BitVec.ofInt 8 x.toNat ^^^ BitVec.ofInt 8 y.toNat).toInt % 2^8 = _
  rw [ofInt_toNat8, ofInt_toNat8, u8_toNat]
  rfl

theorem sar_u8 (x : UInt8) (k : Nat) (h : k < 8) : sar x.toNat k = ((x >>> UInt8.ofNat k).toNat : Int) := by
  unfold sar
  rw [UInt8.toNat_shiftRight, UInt8.toNat_ofNat', Nat.shiftRight_eq_div_pow]
  rw [Nat.mod_eq_of_lt (a := k % 2^8) (by omega), Nat.mod_eq_of_lt (a := k) (by omega)]
  push_cast
  rfl

theorem rawPack_eq (h : Fe) : rawPack h = (fePack h).toList.map fun x => (x.toNat : Int) := by
  unfold rawPack fePack
  simp only [Vector.toList_mk, List.map_cons, List.map_nil, byteOf_eq, byteOr_eq]

/-- The bytes that `FeToBytes` stores are those of the model. -/
theorem rawBytes_eq (h : Fe) : rawBytes h = intsOf (feToBytes h).1 := by
  funext i
  unfold rawBytes intsOf feToBytes
  rw [rawPack_eq, rawReduce_eq]
  simp only
  rw [List.getD_eq_getElem?_getD, List.getD_eq_getElem?_getD, List.getElem?_map]
  cases (fePack (feReduce h)).toList[i]? <;> rfl

theorem intsOf_get {n : Nat} (a : Arr n) (i : Nat) (h : i < n) : intsOf a i = (a[i].toNat : Int) := by
  unfold intsOf
  rw [List.getD_eq_getElem?_getD, List.getElem?_eq_getElem (by simpa using h)]
  simp

theorem intsOf_map {n : Nat} (a : Arr n) : (List.range n).map (intsOf a) = a.toList.map fun x => (x.toNat : Int) := by
  apply List.ext_getElem
  · simp
  · intro i h1 h2
    simp only [List.length_map, List.length_range] at h1
    rw [List.getElem_map, List.getElem_range, intsOf_get a i h1]
    simp

theorem rawIsNegative_eq (h : Fe) : rawIsNegative h = ((feIsNegative h).1.toNat : Int) := by
  unfold rawIsNegative feIsNegative
  rw [rawBytes_eq, intsOf_get _ _ (by decide)]
  exact and8_eq _ 1

theorem foldl_or8 (l : List UInt8) (x : UInt8) :
    (l.map fun x => (x.toNat : Int)).foldl or8 (x.toNat : Int) = ((l.foldl (fun x b => x ||| b) x).toNat : Int) := by
  induction l generalizing x with
  | nil => rfl
  | cons y ys ih => rw [List.map_cons, List.foldl_cons, List.foldl_cons, or8_eq, ih]

theorem rawIsNonZero_eq (h : Fe) : rawIsNonZero h = ((feIsNonZero h).1.toNat : Int) := by
  have e : (List.range 32).foldl (fun x i => or8 x (rawBytes h i)) 0 =
      (((feToBytes h).1.toList.foldl (fun x b => x ||| b) 0).toNat : Int) := by
    rw [← foldl_or8, ← intsOf_map, List.foldl_map, rawBytes_eq]
    rfl
  have s : ∀ (x : UInt8) k, k < 8 → or8 x.toNat (sar x.toNat k) = ((x ||| x >>> UInt8.ofNat k).toNat : Int) := by
    intro x k hk
    rw [sar_u8 x k hk, or8_eq]
  unfold rawIsNonZero feIsNonZero
  simp only
  rw [e]
  generalize (feToBytes h).1.toList.foldl (fun x b => x ||| b) 0 = x
  rw [s x 4 (by decide), s _ 2 (by decide), s _ 1 (by decide)]
  generalize (x ||| x >>> UInt8.ofNat 4 ||| (x ||| x >>> UInt8.ofNat 4) >>> UInt8.ofNat 2) = z
  have : and8 ((z ||| z >>> UInt8.ofNat 1).toNat : Int) 1 = (((z ||| z >>> UInt8.ofNat 1) &&& 1).toNat : Int) := and8_eq _ 1
  rw [this]
  have h1 : ((z ||| z >>> UInt8.ofNat 1) &&& 1).toNat < 256 := UInt8.toNat_lt _
  unfold w32
  rw [Int.bmod_eq_of_le]
  · rfl
  · omega
  · omega

end Verif.Src.EdSrc
