/-
Abstract syntax of the part of Go in which the repository is written. `Verif.Source.Parse` turns the text of a Go file
into these terms.
-/
import Verif.Model.Go

namespace Verif.Src

/-- An identifier, as the number whose digits in base 256 are its bytes: comparing numbers is cheap for the kernel. -/
abbrev Id := Nat

/-- The number of an identifier. -/
def Id.ofString (s : String) : Id := s.toUTF8.foldl (fun n b => 256 * n + b.toNat) 0

/-- `id!"x"` is the number of the identifier x, as a literal. -/
macro:max "id!" noWs s:str : term => return Lean.Syntax.mkNumLit (toString (Id.ofString s.getString))

/-- Binary operators. -/
inductive BinOp
  | add | sub | mul | div | rem | and | or | xor | andNot | shl | shr | land | lor | eq | ne | lt | le | gt | ge

/-- Unary operators. -/
inductive UnOp
  | neg | not | compl | plus

mutual

/-- Types. -/
inductive Ty
  | name (x : Id)
  | qual (pkg x : Id)
  | arr (n : Expr) (t : Ty)
  | slice (t : Ty)
  | ptr (t : Ty)
  | struct (fields : List (Id × Ty))
  | func (params results : List Ty)

/-- Expressions. Parentheses are not kept. `comp` is a composite literal, each element with the key it may carry; inside
another composite literal the type may be left out. -/
inductive Expr
  | num (n : Nat)
  | str (s : List UInt8)
  | id (x : Id)
  | sel (e : Expr) (f : Id)
  | idx (e i : Expr)
  | slice (e : Expr) (lo hi : Option Expr)
  | call (f : Expr) (args : List Expr)
  | conv (t : Ty) (e : Expr)
  | comp (t : Option Ty) (elems : List (Option Expr × Expr))
  | func (params : List (Id × Ty)) (results : List (Id × Ty)) (body : List Stmt)
  | addr (e : Expr)
  | deref (e : Expr)
  | un (op : UnOp) (e : Expr)
  | bin (op : BinOp) (a b : Expr)
  | ty (t : Ty)

/-- Statements. -/
inductive Stmt
  | expr (e : Expr)
  | define (xs : List Id) (es : List Expr)
  | assign (ls : List Expr) (es : List Expr)
  | opAssign (op : BinOp) (l e : Expr)
  | var (xs : List Id) (t : Option Ty) (es : List Expr)
  | ret (es : List Expr)
  | ite (init : Option Stmt) (c : Expr) (t e : List Stmt)
  | loop (init : Option Stmt) (c : Option Expr) (post : Option Stmt) (body : List Stmt)
  | range (k v : Option Id) (e : Expr) (body : List Stmt)
  | switch (init : Option Stmt) (tag : Expr) (cases : List (List Expr × List Stmt))
  | defer (e : Expr)
  | block (ss : List Stmt)
  | brk
  | cont

end

/-- A function or method. A result without a name has the name 0. -/
structure Func where
  name : Id
  recv : Option (Id × Ty)
  params : List (Id × Ty)
  results : List (Id × Ty)
  body : List Stmt

/-- A file: its declarations in the order of the text. -/
structure File where
  pkg : Id
  imports : List (List UInt8)
  consts : List (Id × Expr)
  types : List (Id × Ty)
  vars : List (Id × Option Ty × Option Expr)
  funcs : List Func

end Verif.Src
