/-
Runs of one function with whatever it calls replaced by what is known of it.
-/
import Verif.Source.Mono

namespace Verif.Src

variable {ω : Type}

/-- The interpreter, with calls given. -/
def interpC (P : Prog ω) (C : Id → Func → List Val → M ω (List Val)) : Nat → Interp ω
  | 0 => { Interp.none with call := C }
  | n + 1 => { (interpC P C n).succ P with call := C }

/-- A call with what it calls given. -/
def callC (P : Prog ω) (C : Id → Func → List Val → M ω (List Val)) (p : Id) (f : Func) (vs : List Val) : M ω (List Val) :=
  ((interpC P C 19).succ P).call p f vs

theorem interpC_le (P : Prog ω) (k n : Nat) : (interpC P (interp P k).call n).Le (interp P (k + n)) := by
  induction n with
  | zero =>
    have h := Interp.none_le (interp P k)
    exact { h with call := fun _ _ _ => .refl _ }
  | succ n ih =>
    have h := succ_mono (.refl P) ih
    exact { h with call := fun p f vs => (interp_mono (.refl P) (by omega)).call p f vs }

theorem callC_le (P : Prog ω) {k n : Nat} (h : k + 20 ≤ n) (p : Id) (f : Func) (vs : List Val) :
    Le (callC P (interp P k).call p f vs) ((interp P n).call p f vs) :=
  ((succ_mono (.refl P) (interpC_le P k 19)).call p f vs).trans ((interp_mono (.refl P) (show k + 19 + 1 ≤ n by omega)).call p f vs)

end Verif.Src
