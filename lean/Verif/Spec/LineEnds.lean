/-
Conversion of line ends, as done by programs that transfer or check out files in text mode.
-/
import Verif.Model.Go

namespace Verif.Spec

/-- Every LF becomes CR LF. -/
def toCRLF (t : Bytes) : Bytes := t.flatMap fun c => if c = 10 then [13, 10] else [c]

end Verif.Spec
