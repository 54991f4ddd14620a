/-
Meaning of the abstract syntax: a big-step interpreter for the part of Go in which the repository is written, as a Lean
function. It follows the language specification (go.dev/ref/spec). What is left out or simplified:

* Programs are assumed to have passed the type checker. Values carry the types of integers and the names of structures; an
  operation on values that do not fit together, and anything not covered, is `stuck`. A theorem saying that a call ends
  well therefore says in particular that it did not get stuck.
* `int` and `uint` have 64 bits.
* The variables of a call are released when it returns values without references, and kept otherwise. Storing a
  reference to a variable of the running call in memory that is older than the call is `stuck`: nothing in the repository does it.
* `fuel` bounds the depth of the recursion of the interpreter, not the program: statements about programs hold for all
  amounts of fuel from some point on.
* Calls of functions outside the repository go to a parameter, `Extern`.
-/
import Verif.Source.Syntax

namespace Verif.Src

/-- Integer types; `untyped` is the type of constants that have not been used yet in a place with a type. -/
inductive ITy
  | untyped | int | int8 | int32 | int64 | uint | uint8 | uint32 | uint64
  deriving DecidableEq, Repr

/-- Width in bits. -/
def ITy.bits : ITy → Nat
  | .int8 | .uint8 => 8
  | .int32 | .uint32 => 32
  | _ => 64

/-- The value of an integer after truncation to a type. -/
def ITy.wrap : ITy → Int → Int
  | .untyped, v => v
  | .int8, v => Int.bmod v (2^8)
  | .int32, v => Int.bmod v (2^32)
  | .int64, v => Int.bmod v (2^64)
  | .int, v => if v.natAbs < 9223372036854775808 then v else Int.bmod v (2^64)
  | .uint8, v => v % 2^8
  | .uint32, v => v % 2^32
  | .uint64, v | .uint, v => v % 2^64

/-- The question whether the value fits makes no difference. -/
theorem ITy.wrap_int (v : Int) : ITy.int.wrap v = Int.bmod v (2^64) := by
  show (if _ then _ else _) = _
  split
  · rw [Int.bmod_def]
    split <;> omega
  · rfl

/-- The integer type of a name. -/
def ITy.named (x : Id) : Option ITy :=
  if x = id!"int" then some .int
  else if x = id!"int8" then some .int8
  else if x = id!"int32" then some .int32
  else if x = id!"int64" then some .int64
  else if x = id!"uint" then some .uint
  else if x = id!"uint8" then some .uint8
  else if x = id!"byte" then some .uint8
  else if x = id!"uint32" then some .uint32
  else if x = id!"uint64" then some .uint64
  else none

/-- A step from a value to a part of it. -/
inductive Sel
  | idx (i : Nat)
  | fld (f : Id)
  deriving DecidableEq, Repr

/-- A place in memory: a block and the way to a part of its content. -/
structure Loc where
  blk : Nat
  path : List Sel
  deriving DecidableEq, Repr

/-- Error values: of a library, or made by `errors.New` and `fmt.Errorf`. -/
inductive EVal
  | lib (e : GoErr)
  | text (s : Bytes) (n : Option Int)
  deriving DecidableEq, Repr

/-- Values. A slice refers to the array at a place, from `off` on. `obj` is a value of a library type. -/
inductive Val
  | int (t : ITy) (v : Int)
  | bool (b : Bool)
  | str (s : Bytes)
  | nil
  | err (e : EVal)
  | arr (vs : List Val)
  | struct (t : Id) (fs : List (Id × Val))
  | ptr (l : Loc)
  | slice (l : Loc) (off len cap : Nat)
  | obj (kind : Id) (n : Nat)
  | func (pkg : Id) (f : Func)

/-- The part of a value at the end of a path. -/
def Val.get : Val → List Sel → Option Val
  | v, [] => some v
  | .arr vs, .idx i :: p => match vs[i]? with
    | some v => v.get p
    | none => none
  | .struct _ fs, .fld f :: p => match fs.lookup f with
    | some v => v.get p
    | none => none
  | _, _ :: _ => none

/-- Replace the value of a field. -/
def setField (f : Id) (v : Val) : List (Id × Val) → List (Id × Val)
  | [] => []
  | (g, w) :: fs => if g = f then (g, v) :: fs else (g, w) :: setField f v fs

/-- Replace the part of a value at the end of a path. -/
def Val.set : Val → List Sel → Val → Option Val
  | _, [], v => some v
  | .arr vs, .idx i :: p, v => match vs[i]? with
    | some w => match w.set p v with
      | some w' => some (.arr (vs.set i w'))
      | none => none
    | none => none
  | .struct t fs, .fld f :: p, v => match fs.lookup f with
    | some w => match w.set p v with
      | some w' => some (.struct t (setField f w' fs))
      | none => none
    | none => none
  | _, _ :: _, _ => none

mutual

/-- Does the value have a reference to a block numbered `n` or above in it? -/
def Val.refers (n : Nat) : Val → Bool
  | .ptr l => n ≤ l.blk
  | .slice l _ _ _ => n ≤ l.blk
  | .arr vs => Val.anyRefers n vs
  | .struct _ fs => Val.fieldRefers n fs
  | _ => false

def Val.anyRefers (n : Nat) : List Val → Bool
  | [] => false
  | v :: vs => v.refers n || Val.anyRefers n vs

def Val.fieldRefers (n : Nat) : List (Id × Val) → Bool
  | [] => false
  | (_, v) :: fs => v.refers n || Val.fieldRefers n fs

end

/-- A deferred call of a function or of a method, its arguments already evaluated. -/
inductive Deferred
  | func (pkg : Id) (f : Func) (args : List Val)
  | method (r : Val) (m : Id) (args : List Val)

/-- State: memory, a list of blocks; the first block of the running call; its deferred calls, the latest first; the outside
world. -/
structure St (ω : Type) where
  mem : List Val
  base : Nat
  defers : List Deferred
  world : ω

/-- How a computation ends, and the state it ends in. -/
inductive R (ω α : Type)
  | ok (a : α) (s : St ω)
  | panic (s : St ω)
  | crash (s : St ω)
  | stuck

/-- Computations. -/
def M (ω α : Type) := St ω → R ω α

variable {ω : Type}

namespace M

def pure {α : Type} (a : α) : M ω α := fun s => .ok a s

def bind {α β : Type} (x : M ω α) (f : α → M ω β) : M ω β := fun s =>
  match x s with
  | .ok a s => f a s
  | .panic s => .panic s
  | .crash s => .crash s
  | .stuck => .stuck

instance : Monad (M ω) where
  pure := M.pure
  bind := M.bind

def stuck {α : Type} : M ω α := fun _ => .stuck
def panic {α : Type} : M ω α := fun s => .panic s

/-- A value that must exist. -/
def the {α : Type} : Option α → M ω α
  | some a => M.pure a
  | none => M.stuck

/-- Go panics unless the condition holds. -/
def check (b : Bool) : M ω Unit := if b then M.pure () else M.panic

end M

open M (stuck panic the check)

/-- A new block. -/
def alloc (v : Val) : M ω Loc := fun s => .ok ⟨s.mem.length, []⟩ { s with mem := s.mem ++ [v] }

/-- The value at a place in memory. -/
def Loc.get (m : List Val) (l : Loc) : Option Val :=
  match m[l.blk]? with
  | some v => v.get l.path
  | none => none

/-- The memory after a place has been overwritten. -/
def Loc.set (m : List Val) (l : Loc) (v : Val) : Option (List Val) :=
  match m[l.blk]? with
  | some w => match w.set l.path v with
    | some w' => some (m.set l.blk w')
    | none => none
  | none => none

/-- Read memory. -/
def load (l : Loc) : M ω Val := fun s =>
  match l.get s.mem with
  | some v => .ok v s
  | none => .stuck

/-- The value stored when `v` is assigned to a place holding `old`: constants take the type of the place. -/
def Val.fit : Val → Val → Val
  | .int t _, .int .untyped v => .int t (t.wrap v)
  | _, v => v

/-- Write memory. -/
def store (l : Loc) (v : Val) : M ω Unit := fun s =>
  match l.get s.mem with
  | some old => match l.set s.mem (old.fit v) with
    | some m => if l.blk < s.base && v.refers s.base then .stuck else .ok () { s with mem := m }
    | none => .stuck
  | none => .stuck

/-- The type of the result of an operation on integers. -/
def ITy.join : ITy → ITy → Option ITy
  | .untyped, t => some t
  | t, .untyped => some t
  | t, u => if t = u then some t else none

/-- Bitwise operations, on the two's complement representation. -/
def ITy.bitwise (t : ITy) (f : BitVec t.bits → BitVec t.bits → BitVec t.bits) (a b : Int) : Int :=
  t.wrap (f (BitVec.ofInt t.bits a) (BitVec.ofInt t.bits b)).toInt

/-- Operations on integers of one type. -/
def intOp (t : ITy) (op : BinOp) (a b : Int) : Option Val :=
  match op with
  | .add => some (.int t (t.wrap (a + b)))
  | .sub => some (.int t (t.wrap (a - b)))
  | .mul => some (.int t (t.wrap (a * b)))
  | .and => some (.int t (t.bitwise (· &&& ·) a b))
  | .or => some (.int t (t.bitwise (· ||| ·) a b))
  | .xor => some (.int t (t.bitwise (· ^^^ ·) a b))
  | .andNot => some (.int t (t.bitwise (· &&& ~~~ ·) a b))
  | .eq => some (.bool (decide (a = b)))
  | .ne => some (.bool (decide (a ≠ b)))
  | .lt => some (.bool (decide (a < b)))
  | .le => some (.bool (decide (a ≤ b)))
  | .gt => some (.bool (decide (a > b)))
  | .ge => some (.bool (decide (a ≥ b)))
  | _ => none

/-- Binary operators other than `&&` and `||`. -/
def binOp (op : BinOp) (x y : Val) : M ω Val :=
  match x, y with
  | .int t a, .int u b =>
    match op with
    | .shl => do check (0 ≤ b); return .int t (t.wrap (a * 2 ^ b.toNat))
    | .shr => do check (0 ≤ b); return .int t (a / 2 ^ b.toNat)
    | .div => do
      let t ← the (t.join u)
      check (b ≠ 0)
      return .int t (t.wrap (a.tdiv b))
    | .rem => do
      let t ← the (t.join u)
      check (b ≠ 0)
      return .int t (t.wrap (a.tmod b))
    | op => do
      let t ← the (t.join u)
      the (intOp t op a b)
  | .str a, .str b =>
    match op with
    | .add => return .str (a ++ b)
    | .eq => return .bool (a = b)
    | .ne => return .bool (a ≠ b)
    | _ => stuck
  | .bool a, .bool b =>
    match op with
    | .eq => return .bool (a = b)
    | .ne => return .bool (a ≠ b)
    | _ => stuck
  | .err a, .err b =>
    match op with
    | .eq => return .bool (a = b)
    | .ne => return .bool (a ≠ b)
    | _ => stuck
  | .nil, .nil =>
    match op with
    | .eq => return .bool true
    | .ne => return .bool false
    | _ => stuck
  | .err _, .nil | .ptr _, .nil | .slice _ _ _ _, .nil | .obj _ _, .nil | .func _ _, .nil =>
    match op with
    | .eq => return .bool false
    | .ne => return .bool true
    | _ => stuck
  | _, _ => stuck

/-- Unary operators. -/
def unOp (op : UnOp) (x : Val) : M ω Val :=
  match op, x with
  | .neg, .int t a => return .int t (t.wrap (-a))
  | .plus, .int t a => return .int t a
  | .compl, .int t a => return .int t (t.wrap (-1 - a))
  | .not, .bool b => return .bool (!b)
  | _, _ => stuck

/-- What a name stands for. `hidden` names must not be used. -/
inductive Bind
  | var (l : Loc)
  | val (v : Val)
  | hidden

abbrev Env := List (Id × Bind)

/-- A package: its types and functions. -/
structure Pkg where
  types : List (Id × Ty)
  funcs : List (Id × Func)

/-- Functions of the libraries. -/
structure Extern (ω : Type) where
  value : Id → Id → Option Val
  func : Id → Id → List Val → M ω (List Val)
  method : Val → Id → List Val → M ω (List Val)
  zero : Id → Id → Option Val

/-- A program: its packages; their constants and variables; its methods, by the name of the type and the name of the
method; the libraries. -/
structure Prog (ω : Type) where
  pkgs : List (Id × Pkg)
  globals : List (Id × Env)
  methods : List ((Id × Id) × (Id × Func))
  ext : Extern ω

/-- Where an expression is evaluated: the package, and the names in scope. -/
structure Ctx where
  pkg : Id
  env : Env

/-- How a statement ends. -/
inductive Ctl
  | next
  | brk
  | cont
  | ret (vs : List Val)

/-- The interpreter with a given amount of fuel. -/
structure Interp (ω : Type) where
  expr : Ctx → Expr → M ω Val
  loc : Ctx → Expr → M ω Loc
  multi : Ctx → Expr → M ω (List Val)
  stmt : Ctx → Stmt → M ω (Env × Ctl)
  iter : Ctx → Option Expr → Option Stmt → List Stmt → M ω Ctl
  call : Id → Func → List Val → M ω (List Val)
  zero : Ctx → Ty → M ω Val
  comp : Ctx → Ty → List (Option Expr × Expr) → M ω Val

section
variable (P : Prog ω) (I : Interp ω)

/-- The package of a context. -/
def Prog.pkg (c : Ctx) : M ω Pkg := the (P.pkgs.lookup c.pkg)

/-- The names of a package. -/
def Prog.global (p x : Id) : Option Bind :=
  match P.globals.lookup p with
  | some env => env.lookup x
  | none => none

/-- What a name stands for: a local variable, or a name of the package. -/
def Prog.find (c : Ctx) (x : Id) : Option Bind :=
  match c.env.lookup x with
  | some b => some b
  | none => P.global c.pkg x

/-- Values of a list of expressions, from left to right. -/
def evals (c : Ctx) : List Expr → M ω (List Val)
  | [] => return []
  | e :: es => do
    let v ← I.expr c e
    let vs ← evals c es
    return v :: vs

/-- A single value. -/
def single : List Val → M ω Val
  | [v] => return v
  | _ => stuck

/-- A constant that gets a variable of its own has type `int`. -/
def Val.default : Val → Val
  | .int .untyped v => .int .int (ITy.int.wrap v)
  | v => v

/-- An index within bounds. -/
def index (v : Val) (n : Nat) : M ω Nat :=
  match v with
  | .int _ i => do check (0 ≤ i && i < n); return i.toNat
  | _ => stuck

/-- The length of an array. -/
def Val.arrLen : Val → Option Nat
  | .arr vs => some vs.length
  | _ => none

/-- The place denoted by an expression. -/
def nextLoc (c : Ctx) : Expr → M ω Loc
  | .id x => match P.find c x with
    | some (.var l) => return l
    | _ => stuck
  | .deref e => do
    match ← I.expr c e with
    | .ptr l => return l
    | .nil => panic
    | _ => stuck
  | .sel e f => do
    match ← I.expr c e with
    | .ptr l => return ⟨l.blk, l.path ++ [.fld f]⟩
    | .nil => panic
    | .struct _ _ => do
      let l ← I.loc c e
      return ⟨l.blk, l.path ++ [.fld f]⟩
    | _ => stuck
  | .idx e i => do
    match ← I.expr c e with
    | .ptr l => do
      let n ← the (← load l).arrLen
      let k ← index (← I.expr c i) n
      return ⟨l.blk, l.path ++ [.idx k]⟩
    | .slice l off len _ => do
      let k ← index (← I.expr c i) len
      return ⟨l.blk, l.path ++ [.idx (off + k)]⟩
    | .arr vs => do
      let l ← I.loc c e
      let k ← index (← I.expr c i) vs.length
      return ⟨l.blk, l.path ++ [.idx k]⟩
    | .nil => panic
    | _ => stuck
  | _ => stuck

/-- A bound of a slice expression. -/
def bound (c : Ctx) (e : Option Expr) : M ω (Option Int) :=
  match e with
  | none => return none
  | some e => do
    match ← I.expr c e with
    | .int _ v => return some v
    | _ => stuck

/-- A slice of the array at `l`. -/
def cut (l : Loc) (off len cap : Nat) (lo hi : Option Int) : M ω Val := do
  check (0 ≤ lo.getD 0 && lo.getD 0 ≤ hi.getD len && hi.getD len ≤ cap)
  return .slice l (off + (lo.getD 0).toNat) ((hi.getD len).toNat - (lo.getD 0).toNat) (cap - (lo.getD 0).toNat)

/-- A slice of a slice, of an array, or of the array behind a pointer. -/
def sliceOf (c : Ctx) (e : Expr) (v : Val) (lo hi : Option Int) : M ω Val :=
  match v with
  | .ptr l => do
    let n ← the (← load l).arrLen
    cut l 0 n n lo hi
  | .slice l off len cap => cut l off len cap lo hi
  | .arr vs => do
    let l ← I.loc c e
    cut l 0 vs.length vs.length lo hi
  | .nil => do
    check (lo.getD 0 = 0 && hi.getD 0 = 0)
    return .nil
  | _ => stuck

/-- The contents of a slice. -/
def contents : Val → M ω (List Val)
  | .slice l off len _ => do
    match ← load l with
    | .arr vs => return (vs.drop off).take len
    | _ => stuck
  | .str s => return s.map fun b => .int .uint8 b.toNat
  | .nil => return []
  | _ => stuck

/-- Overwrite the elements of an array from `off` on. -/
def splice (vs : List Val) (off : Nat) (ws : List Val) : List Val :=
  vs.take off ++ ws ++ vs.drop (off + ws.length)

/-- Built-in `copy`. -/
def copyVal (d s : Val) : M ω Nat := do
  match d with
  | .slice l off len _ => do
    let ws ← contents s
    let ws := ws.take len
    match ← load l with
    | .arr vs => do
      store l (.arr (splice vs off ws))
      return ws.length
    | _ => stuck
  | .nil => return 0
  | _ => stuck

/-- A new slice. -/
def newSlice (vs : List Val) (len : Nat) : M ω Val := do
  let l ← alloc (.arr vs)
  return .slice l 0 len vs.length

/-- Built-in `append` of one element; beyond the capacity a new array is made (with room for nothing more: Go leaves the new
capacity open). -/
def appendVal (s x : Val) : M ω Val := do
  match s with
  | .slice l off len cap =>
    if len < cap then do
      store ⟨l.blk, l.path ++ [.idx (off + len)]⟩ x
      return .slice l off (len + 1) cap
    else do
      let vs ← contents s
      newSlice (vs ++ [x]) (len + 1)
  | .nil => newSlice [x] 1
  | _ => stuck

/-- Bytes as values, and back. -/
def byteVals (s : Bytes) : List Val := s.map fun b => .int .uint8 b.toNat

def valByte : Val → UInt8
  | .int _ v => UInt8.ofNat v.toNat
  | _ => 0

/-- Conversion to a type given by its name. -/
def convNamed (x : Id) (v : Val) : M ω Val :=
  match ITy.named x with
  | some t => match v with
    | .int _ a => return .int t (t.wrap a)
    | _ => stuck
  | none =>
    if x = id!"string" then
      match v with
      | .str s => return .str s
      | v => do return .str ((← contents v).map valByte)
    else stuck

/-- The type of a field, and the fields of a structure type. -/
def structOf (c : Ctx) : Ty → Option (Id × List (Id × Ty))
  | .name x => match P.pkgs.lookup c.pkg with
    | some k => match k.types.lookup x with
      | some (.struct fs) => some (x, fs)
      | _ => none
    | none => none
  | .qual p x => match P.pkgs.lookup p with
    | some k => match k.types.lookup x with
      | some (.struct fs) => some (x, fs)
      | _ => none
    | none => none
  | _ => none

/-- Zero values of fields. -/
def zeroFields (c : Ctx) : List (Id × Ty) → M ω (List (Id × Val))
  | [] => return []
  | (f, t) :: fs => do
    let v ← I.zero c t
    let vs ← zeroFields c fs
    return (f, v) :: vs

/-- The zero value of a type. -/
def nextZero (c : Ctx) : Ty → M ω Val
  | .name x => match ITy.named x with
    | some t => return .int t 0
    | none =>
      if x = id!"bool" then return .bool false
      else if x = id!"string" then return .str []
      else if x = id!"error" then return .nil
      else do
        let k ← P.pkg c
        match k.types.lookup x with
        | some (.struct fs) => return .struct x (← zeroFields I c fs)
        | some t => I.zero c t
        | none => stuck
  | .qual p x => match P.pkgs.lookup p with
    | some _ => I.zero ⟨p, []⟩ (.name x)
    | none => the (P.ext.zero p x)
  | .arr n t => do
    match ← I.expr c n with
    | .int _ n => do
      let v ← I.zero c t
      return .arr (List.replicate n.toNat v)
    | _ => stuck
  | .struct fs => do return .struct 0 (← zeroFields I c fs)
  | .slice _ | .ptr _ | .func _ _ => return .nil

/-- An element of a composite literal: the type may be left out inside another literal. -/
def element (c : Ctx) (t : Ty) (e : Expr) : M ω Val :=
  match e with
  | .comp none es => I.comp c t es
  | e => I.expr c e

/-- Elements of an array, constants taking the type of the elements. -/
def elements (c : Ctx) (t : Ty) (z : Val) : List (Option Expr × Expr) → M ω (List Val)
  | [] => return []
  | (_, e) :: es => do
    let v ← element I c t e
    let vs ← elements c t z es
    return z.fit v :: vs

/-- Fields of a structure, by name or in order. -/
def fields (c : Ctx) : List (Id × Ty) → List (Option Expr × Expr) → List (Id × Val) → M ω (List (Id × Val))
  | _, [], vs => return vs
  | ts, (some (.id f), e) :: es, vs => do
    let v ← element I c ((ts.lookup f).getD (.struct [])) e
    fields c ts es (setField f (((vs.lookup f).getD .nil).fit v) vs)
  | (f, t) :: ts, (none, e) :: es, vs => do
    let v ← element I c t e
    fields c ts es (setField f (((vs.lookup f).getD .nil).fit v) vs)
  | _, _, _ => stuck

/-- Composite literals. -/
def nextComp (c : Ctx) (t : Ty) (es : List (Option Expr × Expr)) : M ω Val :=
  match t with
  | .arr n u => do
    let z ← I.zero c u
    let vs ← elements I c u z es
    match ← I.expr c n with
    | .int _ n => return .arr (vs ++ List.replicate (n.toNat - vs.length) z)
    | _ => stuck
  | .slice u => do
    let z ← I.zero c u
    let vs ← elements I c u z es
    newSlice vs vs.length
  | t => match structOf P c t with
    | some (_, ts) => do
      match ← I.zero c t with
      | .struct x zs => do return .struct x (← fields I c ts es zs)
      | _ => stuck
    | none => match t with
      | .name x => do
        let k ← P.pkg c
        match k.types.lookup x with
        | some u => I.comp c u es
        | none => stuck
      | .qual p x => match P.pkgs.lookup p with
        | some k => match k.types.lookup x with
          | some u => I.comp ⟨p, []⟩ u es
          | none => stuck
        | none => the (P.ext.zero p x)
      | _ => stuck

/-- Values of expressions. -/
def nextExpr (c : Ctx) : Expr → M ω Val
  | .num n => return .int .untyped n
  | .str s => return .str s
  | .id x => match P.find c x with
    | some (.var l) => load l
    | some (.val v) => return v
    | some .hidden => stuck
    | none =>
      if x = id!"nil" then return .nil
      else if x = id!"true" then return .bool true
      else if x = id!"false" then return .bool false
      else match P.pkgs.lookup c.pkg with
        | some k => match k.funcs.lookup x with
          | some f => return .func c.pkg f
          | none => stuck
        | none => stuck
  | .sel (.id p) f => match P.find c p with
    | some .hidden => stuck
    | some _ => do load (← I.loc c (.sel (.id p) f))
    | none => match P.global p f with
      | some (.var l) => load l
      | some (.val v) => return v
      | some .hidden => stuck
      | none => the (P.ext.value p f)
  | .sel e f => do load (← I.loc c (.sel e f))
  | .idx e i => do load (← I.loc c (.idx e i))
  | .deref e => do load (← I.loc c (.deref e))
  | .addr (.comp (some t) es) => do
    let v ← I.comp c t es
    let l ← alloc v
    return .ptr l
  | .addr e => do return .ptr (← I.loc c e)
  | .slice e lo hi => do
    let v ← I.expr c e
    let lo ← bound I c lo
    let hi ← bound I c hi
    sliceOf I c e v lo hi
  | .bin .land a b => do
    match ← I.expr c a with
    | .bool true => I.expr c b
    | .bool false => return .bool false
    | _ => stuck
  | .bin .lor a b => do
    match ← I.expr c a with
    | .bool true => return .bool true
    | .bool false => I.expr c b
    | _ => stuck
  | .bin op a b => do
    let x ← I.expr c a
    let y ← I.expr c b
    binOp op x y
  | .un op a => do
    let x ← I.expr c a
    unOp op x
  | .comp (some t) es => I.comp c t es
  | .func ps rs b => return .func c.pkg ⟨0, none, ps, rs, b⟩
  | .conv (.slice _) e => do
    match ← I.expr c e with
    | .str s => newSlice (byteVals s) s.length
    | v => return v
  | .call f args => do single (← I.multi c (.call f args))
  | _ => stuck

/-- Is it the name of a type? -/
def namesType (x : Id) : Bool :=
  (ITy.named x).isSome || x = id!"string"

/-- Is it the name of a built-in function? -/
def isBuiltin (x : Id) : Bool :=
  x = id!"len" || x = id!"copy" || x = id!"append" || x = id!"make"

/-- The length of a value. -/
def lenOf : Val → M ω Val
  | .slice _ _ len _ => return .int .int len
  | .str s => return .int .int s.length
  | .arr vs => return .int .int vs.length
  | .nil => return .int .int 0
  | _ => stuck

/-- Built-in functions on values. -/
def builtinVal (x : Id) (vs : List Val) : M ω (List Val) :=
  if x = id!"len" then
    match vs with
    | [v] => do
      let n ← lenOf v
      return [n]
    | _ => stuck
  else if x = id!"copy" then
    match vs with
    | [d, s] => do
      let n ← copyVal d s
      return [.int .int n]
    | _ => stuck
  else if x = id!"append" then
    match vs with
    | [s, v] => do
      let r ← appendVal s v
      return [r]
    | _ => stuck
  else stuck

/-- Built-in `make` of a slice whose elements have the zero value `z`. -/
def makeVal (z : Val) (vs : List Val) : M ω (List Val) :=
  match vs with
  | [.int _ n] => do
    check (0 ≤ n)
    let r ← newSlice (List.replicate n.toNat z) n.toNat
    return [r]
  | [.int _ n, .int _ k] => do
    check (0 ≤ n && n ≤ k)
    let r ← newSlice (List.replicate k.toNat z) n.toNat
    return [r]
  | _ => stuck

/-- Built-in functions. -/
def builtin (c : Ctx) (x : Id) (args : List Expr) : M ω (List Val) :=
  if x = id!"make" then
    match args with
    | .ty (.slice t) :: as => do
      let z ← I.zero c t
      let vs ← evals I c as
      makeVal z vs
    | _ => stuck
  else do
    let vs ← evals I c args
    builtinVal x vs

/-- The receiver of a method: a pointer, or the address of a variable holding a structure. -/
def receiver (c : Ctx) (e : Expr) : M ω Val := do
  match ← I.expr c e with
  | .struct _ _ => do return .ptr (← I.loc c e)
  | v => return v

/-- Call a method. -/
def callMethod (r : Val) (m : Id) (vs : List Val) : M ω (List Val) :=
  match r with
  | .ptr l => do
    match ← load l with
    | .struct t _ => match P.methods.lookup (t, m) with
      | some (p, f) => I.call p f (r :: vs)
      | none => P.ext.method r m vs
    | _ => P.ext.method r m vs
  | .nil => panic
  | r => P.ext.method r m vs

/-- Calls, with all their results. -/
def nextMulti (c : Ctx) : Expr → M ω (List Val)
  | .call (.id x) args => match P.find c x with
    | some (.var l) => do
      match ← load l with
      | .func p f => do
        let vs ← evals I c args
        I.call p f vs
      | _ => stuck
    | some _ => stuck
    | none =>
      if isBuiltin x then builtin I c x args
      else if namesType x then
        match args with
        | [e] => do
          let v ← I.expr c e
          let w ← convNamed x v
          return [w]
        | _ => stuck
      else do
        let k ← P.pkg c
        let f ← the (k.funcs.lookup x)
        let vs ← evals I c args
        I.call c.pkg f vs
  | .call (.sel (.id p) m) args => match P.find c p with
    | some .hidden => stuck
    | some _ => do
      let r ← receiver I c (.id p)
      let vs ← evals I c args
      callMethod P I r m vs
    | none => match P.pkgs.lookup p with
      | some k => match k.funcs.lookup m with
        | some f => do
          let vs ← evals I c args
          I.call p f vs
        | none => match P.global p m with
          | some (.var l) => do
            match ← load l with
            | .func p f => do
              let vs ← evals I c args
              I.call p f vs
            | _ => stuck
          | _ => stuck
      | none => do
        let vs ← evals I c args
        P.ext.func p m vs
  | .call (.sel e m) args => do
    let r ← receiver I c e
    let vs ← evals I c args
    callMethod P I r m vs
  | e => do return [← I.expr c e]

/-- Statements in order; a declaration is in scope for those that follow. -/
def execs (c : Ctx) : List Stmt → M ω Ctl
  | [] => return .next
  | s :: ss => do
    match ← I.stmt c s with
    | (env, .next) => execs { c with env := env } ss
    | (_, r) => return r

/-- The values on the right of an assignment to `n` places. -/
def rhs (c : Ctx) (n : Nat) (es : List Expr) : M ω (List Val) :=
  match es with
  | [e] => if n = 1 then do return [← I.expr c e] else I.multi c e
  | es => evals I c es

/-- New variables. -/
def declare : Env → List Id → List Val → M ω Env
  | env, [], [] => return env
  | env, x :: xs, v :: vs => do
    if x = id!"_" then declare env xs vs
    else
      let l ← alloc v
      declare ((x, .var l) :: env) xs vs
  | _, _, _ => stuck

/-- The names declared in the innermost scope: scopes are separated by entries with the name 0. -/
def Env.scope (env : Env) : Env := env.takeWhile (fun b => b.1 != 0)

/-- A new scope. -/
def Env.enter (env : Env) : Env := (0, .val .nil) :: env

/-- `:=` declares the names that the innermost scope does not have yet, and assigns to the others. -/
def define (scope : Env) : Env → List Id → List Val → M ω Env
  | env, [], [] => return env
  | env, x :: xs, v :: vs => do
    if x = id!"_" then define scope env xs vs
    else match scope.lookup x with
      | some (.var l) => do
        store l v
        define scope env xs vs
      | _ => do
        let l ← alloc v.default
        define scope ((x, .var l) :: env) xs vs
  | _, _, _ => stuck

/-- Places on the left of an assignment; `_` is none. -/
def targets (c : Ctx) : List Expr → M ω (List (Option Loc))
  | [] => return []
  | .id x :: es =>
    if x = id!"_" then do return none :: (← targets c es)
    else do
      let l ← I.loc c (.id x)
      return some l :: (← targets c es)
  | e :: es => do
    let l ← I.loc c e
    return some l :: (← targets c es)

def storeAll : List (Option Loc) → List Val → M ω Unit
  | [], [] => return ()
  | none :: ls, _ :: vs => storeAll ls vs
  | some l :: ls, v :: vs => do
    store l v
    storeAll ls vs
  | _, _ => stuck

/-- A block of statements: a new scope, left at the end. -/
def block (c : Ctx) (ss : List Stmt) : M ω Ctl := execs I { c with env := c.env.enter } ss

/-- The statement before the condition of `if`, `for` and `switch`, in a scope of its own. -/
def initial (c : Ctx) : Option Stmt → M ω Ctx
  | none => return { c with env := c.env.enter }
  | some s => do
    match ← I.stmt { c with env := c.env.enter } s with
    | (env, _) => return { c with env := env }

/-- A condition. -/
def cond (c : Ctx) (e : Expr) : M ω Bool := do
  match ← I.expr c e with
  | .bool b => return b
  | _ => stuck

/-- The condition of a loop, `true` if left out. -/
def condOpt (c : Ctx) : Option Expr → M ω Bool
  | none => return true
  | some e => cond I c e

/-- The statement after the body of a loop. -/
def stmtOpt (c : Ctx) : Option Stmt → M ω Unit
  | none => return ()
  | some s => do
    let _ ← I.stmt c s
    return ()

/-- Iterations of a `for` loop: condition, body, statement after the body. -/
def nextIter (c : Ctx) (e : Option Expr) (post : Option Stmt) (body : List Stmt) : M ω Ctl := do
  if ← condOpt I c e then
    match ← block I c body with
    | .brk => return .next
    | .ret vs => return .ret vs
    | _ => do
      stmtOpt I c post
      I.iter c e post body
  else return .next

/-- What `range` goes over. An array is copied first; the elements of a slice, or of an array behind a pointer, are read
when their turn comes. -/
inductive RangeOver
  | vals (vs : List Val)
  | place (l : Loc) (off n : Nat)

/-- The number of elements. -/
def RangeOver.size : RangeOver → Nat
  | .vals vs => vs.length
  | .place _ _ n => n

/-- An element. -/
def RangeOver.elem : RangeOver → Nat → M ω Val
  | .vals vs, i => the vs[i]?
  | .place l off _, i => load ⟨l.blk, l.path ++ [.idx (off + i)]⟩

def rangeOver (c : Ctx) (e : Expr) : M ω RangeOver := do
  match ← I.expr c e with
  | .arr vs => return .vals vs
  | .ptr l => do
    let n ← the (← load l).arrLen
    return .place l 0 n
  | .slice l off len _ => return .place l off len
  | .nil => return .vals []
  | _ => stuck

/-- Set a variable of a `range` loop, if there is one. -/
def setVar (l : Option Loc) (v : M ω Val) : M ω Unit :=
  match l with
  | none => return ()
  | some l => do store l (← v)

/-- Iterations of a `range` loop, `n` of them from index `i` on. `k` and `v` are the places of the loop variables. -/
def rangeLoop (c : Ctx) (body : List Stmt) (r : RangeOver) (k v : Option Loc) : Nat → Nat → M ω Ctl
  | 0, _ => return .next
  | n + 1, i => do
    setVar k (return .int .int i)
    setVar v (r.elem i)
    match ← block I c body with
    | .brk => return .next
    | .ret vs => return .ret vs
    | _ => rangeLoop c body r k v n (i + 1)

/-- A variable of a `range` loop. -/
def rangeVar (env : Env) : Option Id → M ω (Env × Option Loc)
  | none => return (env, none)
  | some x =>
    if x = id!"_" then return (env, none)
    else do
      let l ← alloc .nil
      return ((x, .var l) :: env, some l)

/-- Does one of the expressions of a case have the value? -/
def matchesCase (c : Ctx) (v : Val) : List Expr → M ω Bool
  | [] => return false
  | e :: es => do
    match ← binOp .eq v (← I.expr c e) with
    | .bool true => return true
    | .bool false => matchesCase c v es
    | _ => stuck

/-- The statements of the first case that has the value, `default` having no expressions and coming last in the
repository. -/
def findCase (c : Ctx) (v : Val) : List (List Expr × List Stmt) → M ω (List Stmt)
  | [] => return []
  | ([], ss) :: _ => return ss
  | (es, ss) :: cs => do
    if ← matchesCase I c v es then return ss else findCase c v cs

/-- The zero values of several variables of one type. -/
def zeros (c : Ctx) (t : Ty) : List Id → M ω (List Val)
  | [] => return []
  | _ :: xs => do
    let v ← I.zero c t
    let vs ← zeros c t xs
    return v :: vs

/-- Defer a call. -/
def pushDefer (d : Deferred) : M ω Unit := fun s => .ok () { s with defers := d :: s.defers }

/-- Statements. -/
def nextStmt (c : Ctx) : Stmt → M ω (Env × Ctl)
  | .expr e => do
    let _ ← I.multi c e
    return (c.env, .next)
  | .define xs es => do
    let vs ← rhs I c xs.length es
    let env ← define c.env.scope c.env xs vs
    return (env, .next)
  | .assign ls es => do
    let ts ← targets I c ls
    let vs ← rhs I c ls.length es
    storeAll ts vs
    return (c.env, .next)
  | .opAssign op l e => do
    let t ← I.loc c l
    let x ← load t
    let y ← I.expr c e
    store t (← binOp op x y)
    return (c.env, .next)
  | .var xs (some t) [] => do
    let vs ← zeros I c t xs
    let env ← declare c.env xs vs
    return (env, .next)
  | .var xs none es => do
    let vs ← rhs I c xs.length es
    let env ← declare c.env xs (vs.map Val.default)
    return (env, .next)
  | .var _ _ _ => stuck
  | .ret [] => return (c.env, .ret [])
  | .ret [e] => do return (c.env, .ret (← I.multi c e))
  | .ret es => do return (c.env, .ret (← evals I c es))
  | .ite i e t f => do
    let c' ← initial I c i
    let b ← cond I c' e
    let r ← block I c' (if b then t else f)
    return (c.env, r)
  | .loop i e post body => do
    let c' ← initial I c i
    let r ← I.iter c' e post body
    return (c.env, r)
  | .range k v e body => do
    let r ← rangeOver I c e
    let k ← rangeVar c.env.enter k
    let v ← rangeVar k.1 v
    let r ← rangeLoop I { c with env := v.1 } body r k.2 v.2 r.size 0
    return (c.env, r)
  | .switch i e cs => do
    let c' ← initial I c i
    let v ← I.expr c' e
    let ss ← findCase I c' v cs
    match ← block I c' ss with
    | .brk => return (c.env, .next)
    | r => return (c.env, r)
  | .block ss => do return (c.env, ← block I c ss)
  | .brk => return (c.env, .brk)
  | .cont => return (c.env, .cont)
  | .defer (.call (.id x) args) => do
    let k ← P.pkg c
    let f ← the (k.funcs.lookup x)
    let vs ← evals I c args
    pushDefer (.func c.pkg f vs)
    return (c.env, .next)
  | .defer (.call (.sel e m) args) => do
    let r ← receiver I c e
    let vs ← evals I c args
    pushDefer (.method r m vs)
    return (c.env, .next)
  | .defer _ => stuck

/-- A value passed for a parameter or returned as a result: constants take the type. -/
def pass (t : Ty) (v : Val) : Val :=
  match t, v with
  | .name x, .int .untyped a => match ITy.named x with
    | some t => .int t (t.wrap a)
    | none => v
  | _, v => v

/-- Parameters become variables. -/
def params : Env → List (Id × Ty) → List Val → M ω Env
  | env, [], [] => return env
  | env, (x, t) :: ps, v :: vs => do
    let l ← alloc (pass t v)
    params ((x, .var l) :: env) ps vs
  | _, _, _ => stuck

/-- Deferred calls. -/
def runDefers : List Deferred → M ω Unit
  | [] => return ()
  | .func p f vs :: ds => do
    let _ ← I.call p f vs
    runDefers ds
  | .method r m vs :: ds => do
    let _ ← callMethod P I r m vs
    runDefers ds

/-- The deferred calls of the running call. -/
def pending : M ω (List Deferred) := fun s => .ok s.defers s

/-- Run the body of a call: it has variables and deferred calls of its own. Its variables are released at the end unless
its results refer to them. -/
def framed (x : M ω (List Val)) : M ω (List Val) := fun s =>
  match x { s with base := s.mem.length, defers := [] } with
  | .ok vs t => .ok vs { t with
      mem := if Val.anyRefers s.mem.length vs then t.mem else t.mem.take s.mem.length
      base := s.base
      defers := s.defers }
  | .panic t => .panic { t with base := s.base, defers := s.defers }
  | .crash t => .crash { t with base := s.base, defers := s.defers }
  | .stuck => .stuck

/-- Results with names are variables, zero at the start. -/
def namedResults (c : Ctx) : Env → List (Id × Ty) → M ω Env
  | env, [] => return env
  | env, (x, t) :: rs =>
    if x = 0 then return env
    else do
      let v ← I.zero c t
      let l ← alloc v
      namedResults c ((x, .var l) :: env) rs

/-- The values of the results with names. -/
def resultVars (env : Env) : List (Id × Ty) → M ω (List Val)
  | [] => return []
  | (x, _) :: rs =>
    if x = 0 then return []
    else match env.lookup x with
      | some (.var l) => do
        let v ← load l
        let vs ← resultVars env rs
        return v :: vs
      | _ => stuck

/-- The results of a call. -/
def results (f : Func) (env : Env) : Ctl → M ω (List Val)
  | .ret [] => resultVars env f.results
  | .ret rs => return List.zipWith pass (f.results.map (·.2)) rs
  | .next => return []
  | _ => stuck

/-- After a panic of `x`, do `y`; then the panic goes on. -/
def onPanic {α : Type} (y : M ω Unit) (x : M ω α) : M ω α := fun s =>
  match x s with
  | .ok a t => .ok a t
  | .panic t => (y >>= fun _ => panic) t
  | .crash t => .crash t
  | .stuck => .stuck

/-- All the deferred calls of the running call. -/
def unwind : M ω Unit := do
  let ds ← pending
  runDefers P I ds

/-- The body of a function, its deferred calls included. They run when the statements have ended, and also after a panic;
a panic of a deferred call ends the run of the others. -/
def body (p : Id) (f : Func) (vs : List Val) : M ω (List Val) := do
  let env ← params [] (f.recv.toList ++ f.params) vs
  let env ← namedResults I ⟨p, env⟩ env f.results
  let rs ← onPanic (unwind P I) (do
    let r ← execs I ⟨p, env⟩ f.body
    results f env r)
  unwind P I
  return rs

/-- Calls of functions of the program. -/
def nextCall (p : Id) (f : Func) (vs : List Val) : M ω (List Val) := framed (body P I p f vs)

/-- One more unit of fuel. -/
def Interp.succ : Interp ω where
  expr := nextExpr P I
  loc := nextLoc P I
  multi := nextMulti P I
  stmt := nextStmt P I
  iter := nextIter I
  call := nextCall P I
  zero := nextZero P I
  comp := nextComp P I

end

/-- No fuel. -/
def Interp.none : Interp ω where
  expr _ _ := stuck
  loc _ _ := stuck
  multi _ _ := stuck
  stmt _ _ := stuck
  iter _ _ _ _ := stuck
  call _ _ _ := stuck
  zero _ _ := stuck
  comp _ _ _ := stuck

/-- The interpreter. -/
def interp (P : Prog ω) : Nat → Interp ω
  | 0 => .none
  | n + 1 => (interp P n).succ P

end Verif.Src
