/-
Vocabulary for comparing a run in which system calls fail with the run in which none does.
-/
import Verif.Model.World

namespace Verif

/-- The outcomes by which a failure of the system is reported: an I/O error, or the process died. -/
def Res.Fault {α : Type} (r : Res α) : Prop := r = .err .io ∨ r = .crash

/-- The same machine, but from now on no system call fails, is cut short or kills the process. -/
def World.calmed (w : World) : World := { w with sched := fun _ => .ok }

end Verif
