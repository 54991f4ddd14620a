/-
What it would take for a sealed piece that ends early to pass for a complete one.
-/
import Verif.Spec.Sealed

namespace Verif.Spec

/-- The one-time tag of a beginning of the sealed piece `p` equals the tag of the whole: a forgery of the MAC. -/
def TagCollides (P : Prims) (sh : Arr 32) (i : Nat) (p : Bytes) : Prop :=
  ∃ j, j < p.length ∧ P.poly1305 (P.keystream sh (nonceOf i) 0 32) ((P.xorStream sh (nonceOf i) p).take j) =
    P.poly1305 (P.keystream sh (nonceOf i) 0 32) (P.xorStream sh (nonceOf i) p)

end Verif.Spec
