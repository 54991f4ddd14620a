/-
Machines that differ only in files that do not matter.
-/
import Verif.Model.World

namespace Verif.Spec

/-- The two machines are the same except for files at paths outside `S`. -/
def SameFor (S : Path → Prop) (w w' : World) : Prop :=
  w' = { w with fs := w'.fs } ∧ ∀ p, S p → w'.fs p = w.fs p

end Verif.Spec
