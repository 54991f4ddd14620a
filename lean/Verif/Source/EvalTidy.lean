/-
Evaluation whose result is compared after simplification: `sevalt [h₁, …]` proves `a = b` like `seval`, but simplifies
the value and `b` with the equations for values that pass between the program and the libraries first.
-/
import Verif.Source.Eval

namespace Verif.Eval

open Lean Meta Elab Tactic

elab "sevalt" "[" hs:term,* "]" : tactic => withMainContext do
  let g ← getMainGoal
  let t ← instantiateMVars (← g.getType)
  let some (ty, l, r) := t.consumeMData.eq? | throwError "not an equation"
  let (v, p) ← run (← hypsOf hs.getElems) (← getLevel ty) ty l
  let (v', q) ← tidy v
  let (r', q') ← tidy r
  unless ← kdefEq v' r' do throwError "the value is{indentExpr v'}\nnot{indentExpr r'}"
  let h ← mkExpectedTypeHint (← mkEqRefl r') (← mkEq v' r')
  g.assign (← mkEqTrans p (← mkEqTrans q (← mkEqTrans h (← mkEqSymm q'))))

end Verif.Eval
