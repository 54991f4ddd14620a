/-
Histories of calls of the library, for properties about several calls.
-/
import Verif.Model.Crypto

namespace Verif.Spec

/-- The calls a program can make: signify/key.go `GenerateKey`, signify/signature.go `Sign` and `Verify`, crypto/crypto.go `Seal`
and `Open`, with arbitrary arguments. -/
inductive Call where
  | generate (base : Path) (passphrase : Bytes) (rounds : Option Int)
  | sign (key msg sig : Path)
  | verify (pub msg sig : Path)
  | encrypt (pub msg enc : Path)
  | decrypt (key enc msg : Path)

/-- Making the call. -/
def Call.act (P : Prims) (fuel : Nat) : Call → Act World Unit
  | .generate base pw rounds => GenerateKey P base pw rounds
  | .sign key msg sig => Sign P key msg sig
  | .verify pub msg sig => Verify P pub msg sig
  | .encrypt pub msg enc => Seal P pub msg enc
  | .decrypt key enc msg => Open P fuel key enc msg

/-- `History P fuel w spans w'`: the program started at `w` and made any number of calls, with any other activity in between that
does not rewind the entropy source (files may be changed in any way, the user may type anything, the system may fail from then on in
any other way, more entropy may be consumed); `spans` lists, for each call, the positions in the entropy stream before and after it. -/
inductive History (P : Prims) (fuel : Nat) : World → List (Nat × Nat) → World → Prop
  | start (w : World) : History P fuel w [] w
  | call {w spans w'} (c : Call) : History P fuel w spans w' →
      History P fuel w (spans ++ [(w'.rngPos, (c.act P fuel w').2.rngPos)]) (c.act P fuel w').2
  | other {w spans w'} (w'' : World) (h1 : w''.rng = w'.rng) (h2 : w'.rngPos ≤ w''.rngPos) : History P fuel w spans w' →
      History P fuel w spans w''

end Verif.Spec
