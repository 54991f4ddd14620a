/-
An executable X25519 with natural numbers modulo 2^255 - 19.
-/
import Verif.Spec.X25519
import Mathlib.Tactic.Ring

namespace Verif.Real
open Ed

/-- a^n mod 2^255 - 19, by squaring; `fuel` bits of `n`. -/
def powMod (a : Nat) : (fuel : Nat) → Nat → Nat
  | 0, _ => 1
  | fuel + 1, n =>
    let h := powMod (a * a % p) fuel (n / 2)
    if n % 2 = 1 then a * h % p else h

theorem powMod_spec (fuel : Nat) : ∀ a n, n < 2 ^ fuel → ((powMod a fuel n : Nat) : F) = (a : F) ^ n := by
  induction fuel with
  | zero => intro a n h; obtain rfl : n = 0 := by simpa using h
            simp [powMod]
  | succ f ih =>
    intro a n h
    have h2 : n / 2 < 2 ^ f := by rw [pow_succ] at h; omega
    have e := ih (a * a % p) (n / 2) h2
    have ea : ((a * a % p : Nat) : F) = (a : F) * a := by rw [ZMod.natCast_mod]; push_cast; rfl
    rw [ea, ← pow_two (a : F), ← pow_mul] at e
    unfold powMod
    simp only
    split
    · next h1 =>
      rw [ZMod.natCast_mod, Nat.cast_mul, e, ← pow_succ']
      congr 1; omega
    · next h1 =>
      rw [e]
      congr 1; omega

/-- The variables of the ladder. -/
structure State where
  (x2 z2 x3 z3 : Nat)
  swap : Bool

/-- The same as variables in the field. -/
def State.cast (s : State) : LState := ⟨s.x2, s.z2, s.x3, s.z3, s.swap⟩

/-- Subtraction modulo 2^255 - 19. -/
def sub (a b : Nat) : Nat := (a + (p - b % p)) % p

theorem sub_cast (a b : Nat) : ((sub a b : Nat) : F) = (a : F) - b := by
  unfold sub
  rw [ZMod.natCast_mod, Nat.cast_add, Nat.cast_sub (Nat.mod_lt _ (by decide)).le, ZMod.natCast_mod, ZMod.natCast_self]
  ring

def State.cswap (b : Bool) (s : State) : State := if b then { s with x2 := s.x3, z2 := s.z3, x3 := s.x2, z3 := s.z2 } else s

theorem State.cast_cswap (b : Bool) (s : State) : (s.cswap b).cast = s.cast.cswap b := by
  cases b <;> rfl

/-- RFC 7748 section 5, the body of the loop. -/
def step (x1 : Nat) (kt : Bool) (s : State) : State :=
  let s := s.cswap (Bool.xor s.swap kt)
  let A := (s.x2 + s.z2) % p
  let AA := A * A % p
  let B := sub s.x2 s.z2
  let BB := B * B % p
  let E := sub AA BB
  let C := (s.x3 + s.z3) % p
  let D := sub s.x3 s.z3
  let DA := D * A % p
  let CB := C * B % p
  let G := (DA + CB) % p
  let H := sub DA CB
  { x3 := G * G % p, z3 := x1 * (H * H % p) % p, x2 := AA * BB % p, z2 := E * (AA + 121665 * E) % p, swap := kt }

theorem step_cast (x1 : Nat) (kt : Bool) (s : State) : (step x1 kt s).cast = ladderStep x1 kt s.cast := by
  unfold step ladderStep
  dsimp only
  rw [show s.cast.swap = s.swap from rfl, ← State.cast_cswap]
  generalize s.cswap (s.swap ^^ kt) = t
  simp only [State.cast, ZMod.natCast_mod, Nat.cast_mul, Nat.cast_add, sub_cast, pow_two, Nat.cast_ofNat]

def loop (k x1 : Nat) : Nat → State → State
  | 0, s => s
  | t + 1, s => loop k x1 t (step x1 (k.testBit t) s)

theorem loop_cast (k x1 n : Nat) : ∀ s, (loop k x1 n s).cast = ladderLoop k x1 n s.cast := by
  induction n with
  | zero => intro s; rfl
  | succ n ih => intro s; unfold loop ladderLoop; rw [ih, step_cast]

/-- The number that X25519 encodes. -/
def ladderNat (k u : Nat) : Nat :=
  let s := loop k u 255 ⟨1, 0, u, 1, false⟩
  let s := s.cswap s.swap
  s.x2 * powMod s.z2 255 (p - 2) % p

theorem ladderNat_cast (k u : Nat) : ((ladderNat k u : Nat) : F) = ladder k u := by
  unfold ladderNat ladder
  have e := loop_cast k u 255 ⟨1, 0, u, 1, false⟩
  rw [show State.cast ⟨1, 0, u, 1, false⟩ = ⟨1, 0, (u : F), 1, false⟩ by simp [State.cast]] at e
  rw [← e]
  generalize loop k u 255 _ = s
  dsimp only
  rw [show s.cast.swap = s.swap from rfl, ← State.cast_cswap]
  generalize s.cswap s.swap = s
  rw [ZMod.natCast_mod, Nat.cast_mul, powMod_spec 255 _ _ (by decide)]
  rfl

theorem ladderNat_lt (k u : Nat) : ladderNat k u < p := Nat.mod_lt _ (by decide)

/-- X25519. -/
def x25519 (k u : Arr 32) : Arr 32 := encodeLE (ladderNat (clampNat (leNat k.toList)) (leNat u.toList % 2 ^ 255))

/-- The executable function is that of the RFC. -/
theorem x25519_rfc (k u : Arr 32) : x25519 k u = rfcX25519 k u := by
  unfold x25519 rfcX25519
  rw [← ladderNat_cast, ZMod.val_natCast_of_lt (ladderNat_lt _ _)]

end Verif.Real
