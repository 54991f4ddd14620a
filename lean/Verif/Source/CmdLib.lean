/-
The command cmd/psignify/main.go as a program, and the libraries that only it calls.

The functions of the packages signify and crypto run as in `Verif.Source.Repo`; `main` and the functions next to it run with the libraries below.

Simplifications:
* `flag.Parse` gives every registered variable the value that the command line has for its name: a parameter, `Cmd`. (What the library
  makes of a command line, and that it ends the process if it cannot make anything of it, is in Verif/Model/Flags.lean.)
* `init` (main.go:25-30), which sets the function that `flag` calls for bad command lines, is not run.
* `os.Args` has its first entry only, which is the only one that is used.
* `user.Current`, `filepath.Join` and the texts of errors are parameters.
* Printing succeeds. Formats have no verb but `%s`.
-/
import Verif.Source.Repo
import Verif.Source.TextMain
import Verif.Source.WorldSys
import Verif.Source.Calls
import Verif.Source.Loops
import Verif.Model.Cli

namespace Verif.Src

open M (stuck panic the check)

/-- The surroundings of a process: the value of each option, by its name and its default; the first argument; the user; `filepath.Join` of three
strings; the text of each error. -/
structure Cmd where
  str : Bytes → Bytes → Bytes
  bool : Bytes → Bool → Bool
  arg0 : Bytes
  user : Option User
  join : Bytes → Bytes → Bytes → Bytes
  errText : EVal → Bytes

/-- The state of a process: the world, the variables that options go to (name, default, place), and the status that it has exited with. -/
abbrev Proc := World × List (Bytes × Val × Loc) × Option Nat

/-- Print to standard output or standard error. -/
def printTo (h : Id) (bs : Bytes) : M Proc (List Val) := fun s =>
  if h = id!"Stdout" then .ok [] { s with world := (s.world.1.print bs, s.world.2) }
  else if h = id!"Stderr" then .ok [] { s with world := (s.world.1.eprint bs, s.world.2) }
  else .stuck

/-- A format whose only verb is `%s`. -/
def sprint : Bytes → List Bytes → Bytes
  | 37 :: 115 :: f, a :: as => a ++ sprint f as
  | c :: f, as => c :: sprint f as
  | [], _ => []

section
variable (U : Cmd)

/-- The text of a string or an error. -/
def Cmd.text : Val → Option Bytes
  | .str s => some s
  | .err x => some (U.errText x)
  | _ => none

/-- The texts of several. -/
def Cmd.texts : List Val → Option (List Bytes)
  | [] => some []
  | v :: vs => match U.text v, Cmd.texts vs with
    | some a, some as => some (a :: as)
    | _, _ => none

/-- `fmt.Fprintf`, `fmt.Fprintln`, `fmt.Printf`. -/
def cmdFmt (f : Id) (vs : List Val) : M Proc (List Val) :=
  match vs with
  | .obj h _ :: .str s :: args =>
    if f = id!"Fprintf" then do printTo h (sprint s (← the (U.texts args)))
    else if f = id!"Fprintln" then args0 args (printTo h (s ++ [10]))
    else stuck
  | .str s :: args =>
    if f = id!"Printf" then do printTo id!"Stdout" (sprint s (← the (U.texts args)))
    else stuck
  | _ => stuck

/-- The value of an option. -/
def Cmd.value (name : Bytes) : Val → Val
  | .str d => .str (U.str name d)
  | .bool d => .bool (U.bool name d)
  | v => v

/-- Give every registered variable its value. -/
def setVars : List (Bytes × Val × Loc) → M Proc (List Val)
  | [] => return []
  | (name, d, l) :: rest => do
    store l (U.value name d)
    setVars rest

/-- `flag.StringVar`, `flag.BoolVar`: the variable gets the default. `flag.Parse`. -/
def cmdFlag (f : Id) (vs : List Val) : M Proc (List Val) :=
  if f = id!"StringVar" then
    match vs with
    | [.ptr l, .str name, .str d, .str _] => do
      store l (.str d)
      fun s => .ok [] { s with world := (s.world.1, s.world.2.1 ++ [(name, .str d, l)], s.world.2.2) }
    | _ => stuck
  else if f = id!"BoolVar" then
    match vs with
    | [.ptr l, .str name, .bool d, .str _] => do
      store l (.bool d)
      fun s => .ok [] { s with world := (s.world.1, s.world.2.1 ++ [(name, .bool d, l)], s.world.2.2) }
    | _ => stuck
  else if f = id!"Parse" then args0 vs fun s => setVars U s.world.2.1 s
  else stuck

/-- `os.Exit`. -/
def cmdOs (f : Id) (vs : List Val) : M Proc (List Val) :=
  if f = id!"Exit" then args1 vs fun v => do
    let n ← intOf v
    fun s => .crash { s with world := (s.world.1, s.world.2.1, some n.toNat) }
  else stuck

/-- `user.Current`. -/
def cmdUser (f : Id) (vs : List Val) : M Proc (List Val) :=
  if f = id!"Current" then args0 vs
    (match U.user with
      | some u => do return [← newPtr (.struct id!"User" [(id!"Username", .str u.username), (id!"HomeDir", .str u.homeDir)]), .nil]
      | none => return [.nil, libErr .io])
  else stuck

/-- `filepath.Join`. -/
def cmdFilepath (f : Id) (vs : List Val) : M Proc (List Val) :=
  if f = id!"Join" then args3 vs fun a b c => do
    let x ← strOf a
    let y ← strOf b
    let z ← strOf c
    return [.str (U.join x y z)]
  else stuck

def cmdFunc (p f : Id) (vs : List Val) : M Proc (List Val) :=
  if p = id!"fmt" then cmdFmt U f vs
  else if p = id!"flag" then cmdFlag U f vs
  else if p = id!"os" then cmdOs f vs
  else if p = id!"user" then cmdUser U f vs
  else if p = id!"filepath" then cmdFilepath U f vs
  else stuck

def cmdValue (p x : Id) : Option Val :=
  if p = id!"os" ∧ x = id!"Stdout" then some (.obj id!"Stdout" 0)
  else if p = id!"os" ∧ x = id!"Stderr" then some (.obj id!"Stderr" 0)
  else if p = id!"os" ∧ x = id!"Args" then some (.slice ⟨2, []⟩ 0 1 1)
  else none

/-- The program: the packages of the repository and `main`. -/
noncomputable def cmd : Prog Proc where
  pkgs := [(id!"main", ⟨cmdmain.types, cmdmain.funcs⟩),
    (id!"signify", ⟨common.types ++ signature.types ++ key.types, common.funcs ++ signature.funcs ++ key.funcs⟩),
    (id!"crypto", ⟨crypt.types, crypt.funcs⟩)]
  globals := repoGlobals
  methods := []
  ext := ⟨cmdValue, cmdFunc U, fun _ _ _ => stuck, fun _ _ => none⟩

/-- Run on the world of a process. -/
def inProc {α : Type} (x : M World α) : M Proc α := fun s =>
  match x ⟨s.mem, s.base, s.defers, s.world.1⟩ with
  | .ok a t => .ok a ⟨t.mem, t.base, t.defers, (t.world, s.world.2)⟩
  | .panic t => .panic ⟨t.mem, t.base, t.defers, (t.world, s.world.2)⟩
  | .crash t => .crash ⟨t.mem, t.base, t.defers, (t.world, s.world.2)⟩
  | .stuck => .stuck

/-- What `main` calls: the functions next to it, and those of the packages signify and crypto. -/
noncomputable def linked (P : Prims) (n : Nat) (p : Id) (f : Func) (vs : List Val) : M Proc (List Val) :=
  if p = id!"main" then callC (cmd U) (fun _ _ _ => stuck) p f vs else inProc ((interp (repo (worldSys P)) n).call p f vs)

/-- Memory at the start of a process: the variables of the packages, and `os.Args`. -/
noncomputable def startOf (w : World) : St Proc := ⟨[promptFunc, defaultOpts, .arr [.str U.arg0]], 3, [], (w, [], none)⟩

/-- A run of `main`. -/
noncomputable def mainRun (P : Prims) (n : Nat) (w : World) : R Proc (List Val) :=
  callC (cmd U) (linked U P n) id!"main" cmdmain.main [] (startOf U w)
end

/-- The end of a process: a return from `main`, `os.Exit`, a panic, or death in a system call. -/
def outcome : R Proc (List Val) → Option (Exit × World)
  | .ok _ t => some (.status 0, t.world.1)
  | .panic t => some (.status 2, t.world.1)
  | .crash t => some (match t.world.2.2 with
    | some k => .status k
    | none => .crash, t.world.1)
  | .stuck => none

end Verif.Src
