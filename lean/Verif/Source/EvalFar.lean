/-
`seval` for long evaluations: the proof becomes a theorem of its own at once.
-/
import Verif.Source.Eval

namespace Verif.Eval

open Lean Meta Elab Tactic

/-- Prove `a = b` by evaluation of `a`, in an auxiliary theorem. -/
elab "sevalf" "[" hs:term,* "]" : tactic => withMainContext do
  let g ← getMainGoal
  let t ← instantiateMVars (← g.getType)
  let some (ty, l, r) := t.consumeMData.eq? | throwError "not an equation"
  let (v, p) ← run (← hypsOf hs.getElems) (← getLevel ty) ty l
  let (r, p) ← if r.hasExprMVar then do
      unless ← isDefEq r v do throwError "the value is{indentExpr v}"
      pure (v, p)
    else do
      unless ← kdefEq v r do throwError "the value is{indentExpr v}"
      pure (r, ← mkEqTrans p (← mkExpectedTypeHint (← mkEqRefl r) (← mkEq v r)))
  let goal ← mkEq l r
  let xs := (← getLCtx).foldl (init := #[]) fun xs d => if d.isImplementationDetail then xs else xs.push d.toExpr
  let type ← mkForallFVars xs goal
  let value ← mkLambdaFVars xs p
  let name ← mkAuxDeclName `seval
  addDecl <| .thmDecl { name, levelParams := [], type, value }
  g.assign (mkAppN (mkConst name) xs)

end Verif.Eval
