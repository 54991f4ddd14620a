/-
Ed25519 public keys (RFC 8032 section 5.1.5) and X25519 (RFC 7748 section 5), transcribed from the RFCs.
-/
import Verif.Lemmas.Edwards
import Verif.Model.Prims

namespace Verif.Ed

/-- 32 bytes, least significant first. -/
def encodeLE (n : Nat) : Arr 32 := Vector.ofFn fun i => UInt8.ofNat (n / 256 ^ i.val % 256)

/-- RFC 7748 `decodeScalar25519`, RFC 8032 5.1.5 step 2: clear the low three bits and bit 255, set bit 254. -/
def clampNat (n : Nat) : Nat := n % 2 ^ 254 / 8 * 8 + 2 ^ 254

/-! ### RFC 7748 section 5 -/

/-- The variables of the loop. -/
structure LState where
  (x2 z2 x3 z3 : F)
  swap : Bool

/-- `cswap` on both pairs. -/
def LState.cswap (b : Bool) (s : LState) : LState := if b then { s with x2 := s.x3, z2 := s.z3, x3 := s.x2, z3 := s.z2 } else s

/-- The body of the loop for the bit `kt`, with a24 = 121665. -/
def ladderStep (x1 : F) (kt : Bool) (s : LState) : LState :=
  let swap := Bool.xor s.swap kt
  let s := s.cswap swap
  let swap := kt
  let A := s.x2 + s.z2
  let AA := A ^ 2
  let B := s.x2 - s.z2
  let BB := B ^ 2
  let E := AA - BB
  let C := s.x3 + s.z3
  let D := s.x3 - s.z3
  let DA := D * A
  let CB := C * B
  { x3 := (DA + CB) ^ 2, z3 := x1 * (DA - CB) ^ 2, x2 := AA * BB, z2 := E * (AA + 121665 * E), swap := swap }

/-- The loop `For t = bits-1 down to 0`. -/
def ladderLoop (k : Nat) (x1 : F) : Nat → LState → LState
  | 0, s => s
  | t + 1, s => ladderLoop k x1 t (ladderStep x1 (k.testBit t) s)

/-- The ladder with 255 bits: `x_2 * (z_2^(p - 2))` after the last conditional swap. -/
def ladder (k : Nat) (u : F) : F :=
  let s := ladderLoop k u 255 ⟨1, 0, u, 1, false⟩
  let s := s.cswap s.swap
  s.x2 * s.z2 ^ (p - 2)

/-- The function X25519: decode the scalar and the u-coordinate (its top bit is masked), run the ladder, encode. -/
def rfcX25519 (k u : Arr 32) : Arr 32 :=
  encodeLE (ladder (clampNat (leNat k.toList)) ((leNat u.toList % 2 ^ 255 : Nat) : F)).val

/-! ### RFC 8032 section 5.1 -/

/-- The base point: y = 4/5, x even. -/
def baseX : F := ((15112221349535400772501151409588531511454012693041857206046113283949847762202 : Nat) : F)

/-- y-coordinate of the base point. -/
def baseY : F := ((46316835694926478169428394003475163141307993866256225615783033603165251855960 : Nat) : F)

theorem base_on : OnCurve baseX baseY := by
  unfold OnCurve
  rw [← feD_spec.2, baseX, baseY, Fe.val, ← sub_eq_zero]
  have h : ((-15112221349535400772501151409588531511454012693041857206046113283949847762202 ^ 2 +
      46316835694926478169428394003475163141307993866256225615783033603165251855960 ^ 2 -
      (1 + feD.toInt * 15112221349535400772501151409588531511454012693041857206046113283949847762202 ^ 2 *
        46316835694926478169428394003475163141307993866256225615783033603165251855960 ^ 2) : Int) : F) = 0 :=
    int_zero (by decide +kernel)
  push_cast at h ⊢; exact h

/-- The base point. -/
def base : Point := ⟨baseX, baseY, base_on⟩

/-- 5.1.2: the encoding of a point, y with the parity of x in the top bit. -/
def encodePoint (P : Point) : Arr 32 := encodeLE (P.y.val + 2 ^ 255 * (P.x.val % 2))

/-- 5.1.5: the public key of a seed, for a given hash function. -/
def rfcPublic (sha512 : Bytes → Arr 64) (seed : Arr 32) : Arr 32 :=
  encodePoint (clampNat (leNat ((sha512 seed.toList).toList.take 32)) • base)

/-- The primitives compute what the RFCs say. -/
structure Conforms (P : Prims) : Prop where
  edPublic : ∀ seed, P.edPublic seed = rfcPublic P.sha512 seed
  x25519 : ∀ k u, P.x25519 k u = rfcX25519 k u
  x25519Base : ∀ k, P.x25519Base k = rfcX25519 k (encodeLE 9)

end Verif.Ed
