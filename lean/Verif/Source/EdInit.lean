/-
The variables of the package edwards25519 are initialised to the values that the model uses.
-/
import Verif.Source.EdEqual

namespace Verif.Src.EdSrc

open Verif.Ed

variable {ω : Type}

/-- The declarations of the variables of the package as statements, in the order of `names`. -/
noncomputable def initStmts : List Stmt := names.filterMap fun x =>
  match (edwards.vars ++ edconst.vars).lookup x with
  | some (t, e) => some (.var [x] t e.toList)
  | none => none

/-- const.go:25-28, the variable `A`. -/
def feA : Fe := ⟨486662, 0, 0, 0, 0, 0, 0, 0, 0, 0⟩

/-- const.go:32-77 `bi`. -/
def encBi : Val := .arr (biTable.map encPre)

/-- edwards25519.go:1776 `order`. -/
def encOrder : Val := encInts .uint64 4 fun i => orderWord i

/-- The variables of the package after initialisation. -/
def initial : List Val :=
  [encFe feZero, encFe feD, encFe feD2, encFe feSqrtM1, encTable basePoints, encBi, encFe feA, encOrder]

/-- Every variable that the two files declare is initialised. -/
theorem all_variables : (edwards.vars ++ edconst.vars).length = names.length ∧ names.Nodup := by
  constructor
  · rfl
  · decide

set_option maxRecDepth 100000 in
theorem initialised (w : ω) : execsEnv (interp (progs 0) 40) ⟨pkg, []⟩ initStmts ⟨[], 0, [], w⟩ =
    .ok ((globals 8).reverse, .next) ⟨initial, 0, [], w⟩ := by
  krfl

end Verif.Src.EdSrc
