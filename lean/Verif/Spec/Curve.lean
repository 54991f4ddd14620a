/-
GF(2^255 - 19) and the curve -x^2 + y^2 = 1 + d x^2 y^2 of RFC 8032, written with Mathlib's integers modulo a prime and
independently of the model.
-/
import Verif.Spec.Little
import Verif.Lemmas.Prime
import Mathlib.Algebra.Field.ZMod

namespace Verif.Ed

instance : Fact (Nat.Prime p) := ⟨p_prime⟩

/-- GF(2^255 - 19). -/
abbrev F : Type := ZMod p

/-- The curve constant -121665/121666. -/
def d : F := -121665 / 121666

/-- The point lies on the curve -x^2 + y^2 = 1 + d x^2 y^2. -/
def OnCurve (x y : F) : Prop := -x ^ 2 + y ^ 2 = 1 + d * x ^ 2 * y ^ 2

/-- The y-coordinate that a 32-byte string encodes: its low 255 bits, read modulo `p`. -/
def yOf (s : Arr 32) : F := ((leNat s.toList % 2 ^ 255 : Nat) : F)

end Verif.Ed
