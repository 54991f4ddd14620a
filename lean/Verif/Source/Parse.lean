/-
A parser for the part of Go used by the repository, and the command `go_file` that turns the text of a file into
definitions. Everything here runs while the project is built; no theorem mentions the parser.
-/
import Lean
import Verif.Source.Syntax

namespace Verif.Src

open Lean

/-- Tokens. -/
inductive Tok
  | ident (s : String)
  | num (n : Nat)
  | str (s : List UInt8)
  | op (s : String)
  | eof
  deriving BEq, Repr, Inhabited

def keywords : List String :=
  ["break", "case", "const", "continue", "default", "defer", "else", "for", "func", "if", "import", "package", "range",
   "return", "struct", "switch", "type", "var"]

def ops : List String :=
  ["&^=", "<<=", ">>=", "&&", "||", "<<", ">>", "&^", "+=", "-=", "*=", "/=", "%=", "&=", "|=", "^=", "==", "!=", "<=",
   ">=", ":=", "++", "--", "+", "-", "*", "/", "%", "&", "|", "^", "<", ">", "=", "!", "(", ")", "[", "]", "{", "}", ",",
   ";", ".", ":"]

def isLetter (c : Char) : Bool := c.isAlpha || c == '_'

def hexVal (c : Char) : Nat :=
  if c.isDigit then c.toNat - 48 else if 'a' ≤ c && c ≤ 'f' then c.toNat - 87 else c.toNat - 55

def unescape (c : Char) : Char :=
  match c with
  | 'n' => '\n' | 't' => '\t' | 'r' => '\r' | c => c

def utf8 (cs : List Char) : List UInt8 := (String.ofList cs).toUTF8.toList

/-- A newline after this token ends the statement. -/
def endsLine : Tok → Bool
  | .ident s => !(keywords.contains s) || s == "break" || s == "continue" || s == "return"
  | .num _ | .str _ => true
  | .op s => s == "++" || s == "--" || s == ")" || s == "]" || s == "}"
  | .eof => false

/-- Characters of a string up to the closing quote. -/
partial def quoted (q : Char) : List Char → List Char → Except String (List Char × List Char)
  | '\\' :: c :: cs, acc => quoted q cs (unescape c :: acc)
  | c :: cs, acc => if c == q then .ok (acc.reverse, cs) else quoted q cs (c :: acc)
  | [], _ => .error "unterminated string"

/-- The text after the end of a comment. -/
partial def afterComment : List Char → List Char
  | '*' :: '/' :: cs => cs
  | _ :: cs => afterComment cs
  | [] => []

/-- The tokens of a text, with semicolons inserted at the ends of lines by the rules of Go. -/
partial def lex : List Char → Array Tok → Except String (Array Tok)
  | [], acc => .ok (acc.push .eof)
  | '\n' :: cs, acc =>
    if (acc.back?.map endsLine).getD false then lex cs (acc.push (.op ";")) else lex cs acc
  | '/' :: '*' :: cs, acc => lex (afterComment cs) acc
  | '/' :: '/' :: cs, acc => lex (cs.dropWhile (· != '\n')) acc
  | c :: cs, acc =>
    if c == ' ' || c == '\t' || c == '\r' then lex cs acc
    else if isLetter c then
      let w := (c :: cs).takeWhile (fun c => isLetter c || c.isDigit)
      lex ((c :: cs).drop w.length) (acc.push (.ident (String.ofList w)))
    else if c.isDigit then
      match c :: cs with
      | '0' :: 'x' :: ds =>
        let w := ds.takeWhile (fun c => c.isDigit || ('a' ≤ c && c ≤ 'f') || ('A' ≤ c && c ≤ 'F'))
        lex (ds.drop w.length) (acc.push (.num (w.foldl (fun n d => 16 * n + hexVal d) 0)))
      | ds =>
        let w := ds.takeWhile Char.isDigit
        let base := if w.length > 1 && w.head? == some '0' then 8 else 10
        lex (ds.drop w.length) (acc.push (.num (w.foldl (fun n d => base * n + hexVal d) 0)))
    else if c == '"' then do
      let (s, cs) ← quoted '"' cs []
      lex cs (acc.push (.str (utf8 s)))
    else if c == '`' then
      let w := cs.takeWhile (· != '`')
      lex (cs.drop (w.length + 1)) (acc.push (.str (utf8 w)))
    else if c == '\'' then do
      let (s, cs) ← quoted '\'' cs []
      lex cs (acc.push (.num ((s.headD ' ').toNat)))
    else
      match ops.find? (fun o => o.toList.isPrefixOf (c :: cs)) with
      | some o => lex ((c :: cs).drop o.length) (acc.push (.op o))
      | none => .error s!"unexpected character {c}"

/-- Parser state: the tokens and the position. -/
structure PState where
  toks : Array Tok
  pos : Nat
  noComp : Bool := false

abbrev P := StateT PState (Except String)

instance {α : Type} : Inhabited (P α) := ⟨throw "unreachable"⟩

def peek : P Tok := do let s ← get; return s.toks.getD s.pos .eof
def peekAt (k : Nat) : P Tok := do let s ← get; return s.toks.getD (s.pos + k) .eof
def next : P Tok := do let t ← peek; modify fun s => { s with pos := s.pos + 1 }; return t

def fail' {α : Type} (m : String) : P α := do
  let s ← get
  throw s!"{m} at token {s.pos}: {repr ((s.toks.toList.drop (s.pos - 5)).take 12)}"

def isOp (o : String) : P Bool := return (← peek) == .op o
def isKw (o : String) : P Bool := return (← peek) == .ident o
def accept (o : String) : P Bool := do if (← isOp o) then let _ ← next; return true else return false
def acceptKw (o : String) : P Bool := do if (← isKw o) then let _ ← next; return true else return false
def expect (o : String) : P Unit := do unless (← accept o) do fail' s!"expected {o}"

def ident : P Id := do
  match ← next with
  | .ident s => if keywords.contains s then fail' s!"keyword {s}" else return Id.ofString s
  | _ => fail' "identifier expected"

/-- Run a parser with composite literals allowed or not: the header of a statement does not contain any. -/
def withComp {α : Type} (allowed : Bool) (p : P α) : P α := do
  let old := (← get).noComp
  modify fun s => { s with noComp := !allowed }
  let r ← p
  modify fun s => { s with noComp := old }
  return r

def binOps : List (String × Nat × BinOp) :=
  [("*", 5, .mul), ("/", 5, .div), ("%", 5, .rem), ("<<", 5, .shl), (">>", 5, .shr), ("&", 5, .and), ("&^", 5, .andNot),
   ("+", 4, .add), ("-", 4, .sub), ("|", 4, .or), ("^", 4, .xor),
   ("==", 3, .eq), ("!=", 3, .ne), ("<", 3, .lt), ("<=", 3, .le), (">", 3, .gt), (">=", 3, .ge),
   ("&&", 2, .land), ("||", 1, .lor)]

def assignOps : List (String × BinOp) :=
  [("+=", .add), ("-=", .sub), ("*=", .mul), ("/=", .div), ("%=", .rem), ("&=", .and), ("|=", .or), ("^=", .xor),
   ("<<=", .shl), (">>=", .shr), ("&^=", .andNot)]

mutual

partial def pType : P Ty := do
  if (← accept "*") then return .ptr (← pType)
  if (← accept "[") then
    if (← accept "]") then return .slice (← pType)
    let n ← withComp true pExpr
    expect "]"
    return .arr n (← pType)
  if (← acceptKw "struct") then
    expect "{"
    let mut fs : List (Id × Ty) := []
    while !(← accept "}") do
      let mut xs := [← ident]
      while (← accept ",") do xs := xs ++ [← ident]
      let t ← pType
      fs := fs ++ xs.map (·, t)
      let _ ← accept ";"
    return .struct fs
  if (← acceptKw "func") then
    let (ps, rs) ← pSignature
    return .func (ps.map (·.2)) (rs.map (·.2))
  let x ← ident
  if (← accept ".") then return .qual x (← ident)
  return .name x

/-- A parenthesised parameter list: either every entry is a type, or names are grouped before their types. -/
partial def pParams : P (List (Id × Ty)) := do
  expect "("
  let mut groups : List (Option Id × Option Ty) := []
  while !(← accept ")") do
    let s ← get
    -- try `name Type`, else a type alone
    let r := (do let x ← ident; let t ← pType; return (x, t)).run s
    match r with
    | .ok ((x, t), s') => set s'; groups := groups ++ [(some x, some t)]
    | .error _ =>
      let t ← pType
      match t with
      | .name x => groups := groups ++ [(some x, none)]
      | t => groups := groups ++ [(none, some t)]
    let _ ← accept ","
  if groups.any (fun g => g.1.isSome && g.2.isSome) then
    -- named parameters: a name without type takes the type of the next entry
    let rec fill : List (Option Id × Option Ty) → P (List (Id × Ty))
      | [] => return []
      | (some x, some t) :: gs => return (x, t) :: (← fill gs)
      | (some x, none) :: gs => do
        match ← fill gs with
        | (y, t) :: r => return (x, t) :: (y, t) :: r
        | [] => fail' "parameter without type"
      | (none, _) :: _ => fail' "parameter without name"
    fill groups
  else
    return groups.map fun g => match g with
      | (some x, none) => (0, .name x)
      | (_, some t) => (0, t)
      | _ => (0, .struct [])

partial def pSignature : P (List (Id × Ty) × List (Id × Ty)) := do
  let ps ← pParams
  if (← isOp "(") then return (ps, ← pParams)
  if (← isOp "{") || (← isOp ";") || (← isOp ",") || (← isOp ")") || (← isOp "=") || (← peek) == .eof then return (ps, [])
  return (ps, [(0, ← pType)])

partial def pExprList : P (List Expr) := do
  let mut es := [← pExpr]
  while (← accept ",") do es := es ++ [← pExpr]
  return es

partial def pExpr : P Expr := pBin 1

partial def pBin (prec : Nat) : P Expr := do
  let mut e ← pUnary
  repeat
    match ← peek with
    | .op o =>
      match binOps.find? (fun b => b.1 == o && b.2.1 ≥ prec) with
      | some (_, q, op) =>
        let _ ← next
        e := .bin op e (← pBin (q + 1))
      | none => break
    | _ => break
  return e

partial def pUnary : P Expr := do
  if (← accept "-") then return .un .neg (← pUnary)
  if (← accept "!") then return .un .not (← pUnary)
  if (← accept "^") then return .un .compl (← pUnary)
  if (← accept "+") then return .un .plus (← pUnary)
  if (← accept "&") then return .addr (← pUnary)
  if (← accept "*") then return .deref (← pUnary)
  pSuffixes (← pOperand)

partial def pOperand : P Expr := do
  match ← peek with
  | .num n => let _ ← next; return .num n
  | .str s => let _ ← next; return .str s
  | .op "(" =>
    let _ ← next
    let e ← withComp true pExpr
    expect ")"
    return e
  | .op "[" => return .ty (← pType)
  | .ident "func" =>
    let _ ← next
    let (ps, rs) ← pSignature
    let b ← withComp true pBlock
    return .func ps rs b
  | .ident _ => return .id (← ident)
  | _ => fail' "operand expected"

/-- The type that an operand denotes when a composite literal follows it. -/
partial def asType : Expr → Option Ty
  | .id x => some (.name x)
  | .sel (.id p) x => some (.qual p x)
  | .ty t => some t
  | _ => none

partial def pSuffixes (e0 : Expr) : P Expr := do
  let mut e := e0
  repeat
    if (← accept ".") then e := .sel e (← ident)
    else if (← isOp "(") then
      let _ ← next
      let mut args : List Expr := []
      while !(← accept ")") do
        args := args ++ [← withComp true pExpr]
        let _ ← accept ","
      match e, args with
      | .ty t, [a] => e := .conv t a
      | _, _ => e := .call e args
    else if (← isOp "[") then
      let _ ← next
      let lo ← if (← isOp ":") then pure none else some <$> withComp true pExpr
      if (← accept ":") then
        let hi ← if (← isOp "]") then pure none else some <$> withComp true pExpr
        expect "]"
        e := .slice e lo hi
      else
        expect "]"
        match lo with
        | some i => e := .idx e i
        | none => fail' "index expected"
    else if (← isOp "{") then
      match asType e with
      | none => break
      | some t =>
        if (← get).noComp && !(e matches .ty _) then break
        e := .comp (some t) (← pElems)
    else break
  return e

partial def pElems : P (List (Option Expr × Expr)) := do
  expect "{"
  let mut es : List (Option Expr × Expr) := []
  while !(← accept "}") do
    let one : P Expr := withComp true (do if (← isOp "{") then return .comp none (← pElems) else pExpr)
    let a ← one
    if (← accept ":") then es := es ++ [(some a, ← one)] else es := es ++ [(none, a)]
    let _ ← accept ","
  return es

partial def pBlock : P (List Stmt) := do
  expect "{"
  let mut ss : List Stmt := []
  while !(← accept "}") do
    if (← accept ";") then continue
    ss := ss ++ [← withComp true pStmt]
    if !(← isOp "}") then expect ";"
  return ss

/-- Identifiers on the left of `:=`. -/
partial def asIds : List Expr → P (List Id)
  | [] => return []
  | .id x :: es => return x :: (← asIds es)
  | _ => fail' "identifier expected on the left of :="

partial def pSimple : P Stmt := do
  let ls ← pExprList
  if (← accept ":=") then
    let xs ← asIds ls
    if (← acceptKw "range") then
      let e ← pExpr
      return .range (xs[0]?) (xs[1]?) e []
    return .define xs (← pExprList)
  if (← accept "=") then return .assign ls (← pExprList)
  match ls with
  | [l] =>
    if (← accept "++") then return .opAssign .add l (.num 1)
    if (← accept "--") then return .opAssign .sub l (.num 1)
    match ← peek with
    | .op o =>
      match assignOps.lookup o with
      | some op => let _ ← next; return .opAssign op l (← pExpr)
      | none => return .expr l
    | _ => return .expr l
  | _ => fail' "statement expected"

partial def pStmt : P Stmt := do
  match ← peek with
  | .ident "var" =>
    let _ ← next
    let mut xs := [← ident]
    while (← accept ",") do xs := xs ++ [← ident]
    let t ← if (← isOp "=") then pure none else some <$> pType
    let es ← if (← accept "=") then pExprList else pure []
    return .var xs t es
  | .ident "return" =>
    let _ ← next
    if (← isOp ";") || (← isOp "}") then return .ret []
    return .ret (← pExprList)
  | .ident "if" => let _ ← next; pIf
  | .ident "for" =>
    let _ ← next
    if (← isOp "{") then return .loop none none none (← pBlock)
    if (← acceptKw "range") then
      let e ← withComp false pExpr
      return .range none none e (← pBlock)
    let init ← if (← isOp ";") then pure none else some <$> withComp false pSimple
    match init with
    | some (.range k v e _) => return .range k v e (← pBlock)
    | _ =>
      if (← isOp "{") then
        match init with
        | some (.expr c) => return .loop none (some c) none (← pBlock)
        | _ => fail' "condition expected"
      expect ";"
      let c ← if (← isOp ";") then pure none else some <$> withComp false pExpr
      expect ";"
      let post ← if (← isOp "{") then pure none else some <$> withComp false pSimple
      return .loop init c post (← pBlock)
  | .ident "switch" =>
    let _ ← next
    let s ← withComp false pSimple
    let (init, tag) ← if (← accept ";") then do
        let e ← withComp false pExpr
        pure (some s, e)
      else match s with
        | .expr e => pure (none, e)
        | _ => fail' "tag expected"
    expect "{"
    let mut cs : List (List Expr × List Stmt) := []
    while !(← accept "}") do
      if (← accept ";") then continue
      let es ← if (← acceptKw "default") then pure [] else do
        unless (← acceptKw "case") do fail' "case expected"
        pExprList
      expect ":"
      let mut ss : List Stmt := []
      while !((← isKw "case") || (← isKw "default") || (← isOp "}")) do
        if (← accept ";") then continue
        ss := ss ++ [← pStmt]
      cs := cs ++ [(es, ss)]
    return .switch init tag cs
  | .ident "defer" => let _ ← next; return .defer (← pExpr)
  | .ident "break" => let _ ← next; return .brk
  | .ident "continue" => let _ ← next; return .cont
  | .op "{" => return .block (← pBlock)
  | _ => pSimple

partial def pIf : P Stmt := do
  let s ← withComp false pSimple
  let (init, c) ← if (← accept ";") then do
      let e ← withComp false pExpr
      pure (some s, e)
    else match s with
      | .expr e => pure (none, e)
      | _ => fail' "condition expected"
  let t ← pBlock
  let e ← if (← acceptKw "else") then
      (if (← acceptKw "if") then do return [← pIf] else pBlock)
    else pure []
  return .ite init c t e

end

def pGroup {α : Type} (p : P α) : P (List α) := do
  if (← accept "(") then
    let mut r : List α := []
    while !(← accept ")") do
      if (← accept ";") then continue
      r := r ++ [← p]
    return r
  return [← p]

def pFile : P File := do
  unless (← acceptKw "package") do fail' "package expected"
  let mut f : File := ⟨← ident, [], [], [], [], []⟩
  repeat
    if (← accept ";") then continue
    match ← next with
    | .eof => break
    | .ident "import" =>
      let r ← pGroup do
        match ← next with
        | .str s => return s
        | _ => fail' "import path expected"
      f := { f with imports := f.imports ++ r }
    | .ident "const" =>
      let r ← pGroup do
        let x ← ident
        expect "="
        return (x, ← pExpr)
      f := { f with consts := f.consts ++ r }
    | .ident "var" =>
      let r ← pGroup do
        let x ← ident
        let t ← if (← isOp "=") then pure none else some <$> pType
        let e ← if (← accept "=") then some <$> pExpr else pure none
        return (x, t, e)
      f := { f with vars := f.vars ++ r }
    | .ident "type" =>
      let r ← pGroup do return (← ident, ← pType)
      f := { f with types := f.types ++ r }
    | .ident "func" =>
      let recv ← if (← isOp "(") then some <$> pParams else pure none
      let name ← ident
      let (ps, rs) ← pSignature
      let b ← withComp true pBlock
      f := { f with funcs := f.funcs ++ [⟨name, recv.bind (·.head?), ps, rs, b⟩] }
    | _ => fail' "declaration expected"
  return f

/-- The syntax of a text. -/
def parseFile (s : String) : Except String File := do
  let toks ← lex s.toList #[]
  let (f, _) ← pFile.run ⟨toks, 0, false⟩
  return f

section quote

instance : ToExpr UInt8 where
  toExpr b := mkApp (mkConst ``UInt8.ofNat) (mkRawNatLit b.toNat)
  toTypeExpr := mkConst ``UInt8

def qNat (n : Nat) : Lean.Expr := mkNatLit n

def qBinOp : BinOp → Lean.Expr
  | .add => mkConst ``BinOp.add | .sub => mkConst ``BinOp.sub | .mul => mkConst ``BinOp.mul | .div => mkConst ``BinOp.div
  | .rem => mkConst ``BinOp.rem | .and => mkConst ``BinOp.and | .or => mkConst ``BinOp.or | .xor => mkConst ``BinOp.xor
  | .andNot => mkConst ``BinOp.andNot | .shl => mkConst ``BinOp.shl | .shr => mkConst ``BinOp.shr
  | .land => mkConst ``BinOp.land | .lor => mkConst ``BinOp.lor | .eq => mkConst ``BinOp.eq | .ne => mkConst ``BinOp.ne
  | .lt => mkConst ``BinOp.lt | .le => mkConst ``BinOp.le | .gt => mkConst ``BinOp.gt | .ge => mkConst ``BinOp.ge

def qUnOp : UnOp → Lean.Expr
  | .neg => mkConst ``UnOp.neg | .not => mkConst ``UnOp.not | .compl => mkConst ``UnOp.compl | .plus => mkConst ``UnOp.plus

def tId : Lean.Expr := mkConst ``Nat
def tTy : Lean.Expr := mkConst ``Ty
def tExpr : Lean.Expr := mkConst ``Expr
def tStmt : Lean.Expr := mkConst ``Stmt
def tOpt (t : Lean.Expr) : Lean.Expr := mkApp (mkConst ``Option [0]) t
def tList (t : Lean.Expr) : Lean.Expr := mkApp (mkConst ``List [0]) t
def tProd (t u : Lean.Expr) : Lean.Expr := mkApp2 (mkConst ``Prod [0, 0]) t u

def qList (t : Lean.Expr) : List Lean.Expr → Lean.Expr
  | [] => mkApp (mkConst ``List.nil [0]) t
  | e :: es => mkApp3 (mkConst ``List.cons [0]) t e (qList t es)

def qOpt (t : Lean.Expr) : Option Lean.Expr → Lean.Expr
  | none => mkApp (mkConst ``Option.none [0]) t
  | some e => mkApp2 (mkConst ``Option.some [0]) t e

def qPair (t u a b : Lean.Expr) : Lean.Expr := mkApp4 (mkConst ``Prod.mk [0, 0]) t u a b

def qBytes (s : List UInt8) : Lean.Expr :=
  qList (mkConst ``UInt8) (s.map fun b => toExpr b)

mutual

partial def qTy : Ty → Lean.Expr
  | .name x => mkApp (mkConst ``Ty.name) (qNat x)
  | .qual p x => mkApp2 (mkConst ``Ty.qual) (qNat p) (qNat x)
  | .arr n t => mkApp2 (mkConst ``Ty.arr) (qExpr n) (qTy t)
  | .slice t => mkApp (mkConst ``Ty.slice) (qTy t)
  | .ptr t => mkApp (mkConst ``Ty.ptr) (qTy t)
  | .struct fs => mkApp (mkConst ``Ty.struct) (qParams fs)
  | .func ps rs => mkApp2 (mkConst ``Ty.func) (qList tTy (ps.map qTy)) (qList tTy (rs.map qTy))

partial def qParams (ps : List (Id × Ty)) : Lean.Expr :=
  qList (tProd tId tTy) (ps.map fun p => qPair tId tTy (qNat p.1) (qTy p.2))

partial def qExprs (es : List Expr) : Lean.Expr := qList tExpr (es.map qExpr)

partial def qStmts (ss : List Stmt) : Lean.Expr := qList tStmt (ss.map qStmt)

partial def qElems (es : List (Option Expr × Expr)) : Lean.Expr :=
  qList (tProd (tOpt tExpr) tExpr) (es.map fun e => qPair (tOpt tExpr) tExpr (qOpt tExpr (e.1.map qExpr)) (qExpr e.2))

partial def qExpr : Expr → Lean.Expr
  | .num n => mkApp (mkConst ``Expr.num) (qNat n)
  | .str s => mkApp (mkConst ``Expr.str) (qBytes s)
  | .id x => mkApp (mkConst ``Expr.id) (qNat x)
  | .sel e f => mkApp2 (mkConst ``Expr.sel) (qExpr e) (qNat f)
  | .idx e i => mkApp2 (mkConst ``Expr.idx) (qExpr e) (qExpr i)
  | .slice e lo hi => mkApp3 (mkConst ``Expr.slice) (qExpr e) (qOpt tExpr (lo.map qExpr)) (qOpt tExpr (hi.map qExpr))
  | .call f as => mkApp2 (mkConst ``Expr.call) (qExpr f) (qExprs as)
  | .conv t e => mkApp2 (mkConst ``Expr.conv) (qTy t) (qExpr e)
  | .comp t es => mkApp2 (mkConst ``Expr.comp) (qOpt tTy (t.map qTy)) (qElems es)
  | .func ps rs b => mkApp3 (mkConst ``Expr.func) (qParams ps) (qParams rs) (qStmts b)
  | .addr e => mkApp (mkConst ``Expr.addr) (qExpr e)
  | .deref e => mkApp (mkConst ``Expr.deref) (qExpr e)
  | .un op e => mkApp2 (mkConst ``Expr.un) (qUnOp op) (qExpr e)
  | .bin op a b => mkApp3 (mkConst ``Expr.bin) (qBinOp op) (qExpr a) (qExpr b)
  | .ty t => mkApp (mkConst ``Expr.ty) (qTy t)

partial def qStmt : Stmt → Lean.Expr
  | .expr e => mkApp (mkConst ``Stmt.expr) (qExpr e)
  | .define xs es => mkApp2 (mkConst ``Stmt.define) (qList tId (xs.map qNat)) (qExprs es)
  | .assign ls es => mkApp2 (mkConst ``Stmt.assign) (qExprs ls) (qExprs es)
  | .opAssign op l e => mkApp3 (mkConst ``Stmt.opAssign) (qBinOp op) (qExpr l) (qExpr e)
  | .var xs t es => mkApp3 (mkConst ``Stmt.var) (qList tId (xs.map qNat)) (qOpt tTy (t.map qTy)) (qExprs es)
  | .ret es => mkApp (mkConst ``Stmt.ret) (qExprs es)
  | .ite i c t e => mkApp4 (mkConst ``Stmt.ite) (qOpt tStmt (i.map qStmt)) (qExpr c) (qStmts t) (qStmts e)
  | .loop i c p b => mkApp4 (mkConst ``Stmt.loop) (qOpt tStmt (i.map qStmt)) (qOpt tExpr (c.map qExpr))
      (qOpt tStmt (p.map qStmt)) (qStmts b)
  | .range k v e b => mkApp4 (mkConst ``Stmt.range) (qOpt tId (k.map qNat)) (qOpt tId (v.map qNat)) (qExpr e) (qStmts b)
  | .switch i t cs => mkApp3 (mkConst ``Stmt.switch) (qOpt tStmt (i.map qStmt)) (qExpr t)
      (qList (tProd (tList tExpr) (tList tStmt))
        (cs.map fun c => qPair (tList tExpr) (tList tStmt) (qExprs c.1) (qStmts c.2)))
  | .defer e => mkApp (mkConst ``Stmt.defer) (qExpr e)
  | .block ss => mkApp (mkConst ``Stmt.block) (qStmts ss)
  | .brk => mkConst ``Stmt.brk
  | .cont => mkConst ``Stmt.cont

end

def qFunc (f : Func) : Lean.Expr :=
  mkApp5 (mkConst ``Func.mk) (qNat f.name) (qOpt (tProd tId tTy) (f.recv.map fun r => qPair tId tTy (qNat r.1) (qTy r.2)))
    (qParams f.params) (qParams f.results) (qStmts f.body)

end quote

/-- The identifier of a number. -/
partial def Id.toString (n : Id) : String :=
  let rec go (n : Nat) (acc : List Char) : List Char := if n = 0 then acc else go (n / 256) (Char.ofNat (n % 256) :: acc)
  String.ofList (go n [])

/-- The name of the type of a receiver. -/
def recvType : Ty → Id
  | .ptr (.name x) => x
  | .name x => x
  | _ => 0

/-- `go_file pkg := "text"` parses the text of a Go file and defines, in the namespace `pkg`, a constant for every function
and method (`pkg.f`, `pkg.T.m`), for every initial value of a variable (`pkg.x.init`), and the tables `pkg.consts`,
`pkg.types`, `pkg.vars`, `pkg.funcs` and `pkg.methods`. -/
syntax (name := goFile) "go_file " ident " := " str : command

open Elab Command in
@[command_elab goFile] def elabGoFile : CommandElab := fun stx => do
  let ns := (← getCurrNamespace) ++ stx[1].getId
  let some s := stx[3].isStrLit? | throwError "text expected"
  match parseFile s with
  | .error e => throwError e
  | .ok f =>
    let add (n : Name) (t v : Lean.Expr) : CommandElabM Unit := liftCoreM <|
      addDecl (.defnDecl { name := n, levelParams := [], type := t, value := v, hints := .abbrev, safety := .safe })
    let tFunc := mkConst ``Func
    let nm (x : Id) : Name := Name.mkSimple (Id.toString x)
    let mut funcs : List Lean.Expr := []
    let mut methods : List Lean.Expr := []
    for g in f.funcs do
      match g.recv with
      | none =>
        let n := ns ++ nm g.name
        add n tFunc (qFunc g)
        funcs := funcs ++ [qPair tId tFunc (qNat g.name) (mkConst n)]
      | some (_, t) =>
        let n := ns ++ nm (recvType t) ++ nm g.name
        add n tFunc (qFunc g)
        methods := methods ++ [qPair (tProd tId tId) (tProd tId tFunc)
          (qPair tId tId (qNat (recvType t)) (qNat g.name)) (qPair tId tFunc (qNat f.pkg) (mkConst n))]
    add (ns ++ `funcs) (tList (tProd tId tFunc)) (qList (tProd tId tFunc) funcs)
    let tMeth := tProd (tProd tId tId) (tProd tId tFunc)
    add (ns ++ `methods) (tList tMeth) (qList tMeth methods)
    add (ns ++ `consts) (tList (tProd tId tExpr))
      (qList (tProd tId tExpr) (f.consts.map fun c => qPair tId tExpr (qNat c.1) (qExpr c.2)))
    add (ns ++ `types) (tList (tProd tId tTy))
      (qList (tProd tId tTy) (f.types.map fun c => qPair tId tTy (qNat c.1) (qTy c.2)))
    let mut vars : List Lean.Expr := []
    let tVar := tProd (tOpt tTy) (tOpt tExpr)
    for (x, t, e) in f.vars do
      let e' ← match e with
        | none => pure none
        | some e => do
          let n := ns ++ nm x ++ `init
          add n tExpr (qExpr e)
          pure (some (mkConst n))
      vars := vars ++ [qPair tId tVar (qNat x) (qPair (tOpt tTy) (tOpt tExpr) (qOpt tTy (t.map qTy)) (qOpt tExpr e'))]
    add (ns ++ `vars) (tList (tProd tId tVar)) (qList (tProd tId tVar) vars)

end Verif.Src
