/-
A public key for which the conversion can be computed by the kernel; used as a concrete witness.
-/
import Verif.Model.Keys
import Verif.Spec.Toy

namespace Verif

/-- The public key with all bytes zero (y = 0, a point of order 4). -/
def zeroKey : Public := { keyAlgo := copyZ 2 b!"Ed", keyNum := copyZ 8 [], key := copyZ 32 [] }

set_option maxRecDepth 100000 in
theorem zeroKey_toBox : zeroKey.toBox = .ok (copyZ 32 [1]) := by decide +kernel

/-- Primitives for which every key pair is that of `zeroKey`. -/
def flat : Prims := { toy with edPublic := fun _ => copyZ 32 [], x25519Base := fun _ => copyZ 32 [1], x25519 := fun _ _ => copyZ 32 b!"shared" }

end Verif
