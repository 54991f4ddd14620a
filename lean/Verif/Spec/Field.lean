/-
What ten limbs mean: an integer in mixed radix, to be read modulo 2^255 - 19.
-/
import Verif.Model.Field

namespace Verif.Ed

/-- The prime 2^255 - 19. -/
abbrev p : Nat := 2 ^ 255 - 19

/-- The integer that ten limbs stand for. -/
def limbs (h0 h1 h2 h3 h4 h5 h6 h7 h8 h9 : Int) : Int :=
  h0 + 2 ^ 26 * h1 + 2 ^ 51 * h2 + 2 ^ 77 * h3 + 2 ^ 102 * h4 + 2 ^ 128 * h5 + 2 ^ 153 * h6 + 2 ^ 179 * h7 + 2 ^ 204 * h8 +
    2 ^ 230 * h9

/-- The integer that a field element stands for (to be read modulo `p`). -/
def Fe.toInt (f : Fe) : Int := limbs f.f0 f.f1 f.f2 f.f3 f.f4 f.f5 f.f6 f.f7 f.f8 f.f9

/-- Even limbs are at most `e` and odd limbs at most `o` in absolute value. -/
structure Fe.Within (f : Fe) (e o : Int) : Prop where
  h0 : -e ≤ f.f0 ∧ f.f0 ≤ e
  h1 : -o ≤ f.f1 ∧ f.f1 ≤ o
  h2 : -e ≤ f.f2 ∧ f.f2 ≤ e
  h3 : -o ≤ f.f3 ∧ f.f3 ≤ o
  h4 : -e ≤ f.f4 ∧ f.f4 ≤ e
  h5 : -o ≤ f.f5 ∧ f.f5 ≤ o
  h6 : -e ≤ f.f6 ∧ f.f6 ≤ e
  h7 : -o ≤ f.f7 ∧ f.f7 ≤ o
  h8 : -e ≤ f.f8 ∧ f.f8 ≤ e
  h9 : -o ≤ f.f9 ∧ f.f9 ≤ o

end Verif.Ed
