/-
Command-line parsing: cmd/psignify/main.go:25-30 and 59-72, and the library function `flag.Parse` that it calls.

`flag.Parse` is library code (package `flag` of the Go standard library, `FlagSet.Parse` and `FlagSet.parseOne`), written down from
its source. Simplifications: the text that `failf` prints before it calls the usage function is left arbitrary (`FlagText`);
`failf` and the request for help end in the usage function, which here is main.go:26-29, so nothing after it runs.
-/
import Verif.Model.Cli

namespace Verif

/-- cmd/psignify/main.go:59-71: the flags that are defined; string flags ... -/
inductive StrFlag where
  | c | m | p | s | x
  deriving DecidableEq, Repr

/-- ... and boolean flags. -/
inductive BoolFlag where
  | n | D | E | G | S | V
  deriving DecidableEq, Repr

/-- cmd/psignify/main.go:60-65: `flag.StringVar` and `flag.BoolVar` enter the names into the table that `parseOne` looks into. -/
def flagTable (name : Bytes) : Option (StrFlag ⊕ BoolFlag) :=
  if name = b!"c" then some (.inl .c)
  else if name = b!"m" then some (.inl .m)
  else if name = b!"n" then some (.inr .n)
  else if name = b!"p" then some (.inl .p)
  else if name = b!"s" then some (.inl .s)
  else if name = b!"x" then some (.inl .x)
  else if name = b!"D" then some (.inr .D)
  else if name = b!"E" then some (.inr .E)
  else if name = b!"G" then some (.inr .G)
  else if name = b!"S" then some (.inr .S)
  else if name = b!"V" then some (.inr .V)
  else none

/-- cmd/psignify/main.go:60, 61, 63-65: the variable that a string flag sets. -/
def setStr (k : StrFlag) (v : Bytes) (f : Flags) : Flags :=
  match k with
  | .c => { f with encryptedFile := v }
  | .m => { f with messageFile := v }
  | .p => { f with pubKeyFile := v }
  | .s => { f with privKeyFile := v }
  | .x => { f with signatureFile := v }

/-- cmd/psignify/main.go:62, 67-71: the variable that a boolean flag sets. -/
def setBool (k : BoolFlag) (v : Bool) (f : Flags) : Flags :=
  match k with
  | .n => { f with noPass := v }
  | .D => { f with decrypt := v }
  | .E => { f with encrypt := v }
  | .G => { f with generate := v }
  | .S => { f with sign := v }
  | .V => { f with verify := v }

/-- `strconv.ParseBool` (library). -/
def parseBool (v : Bytes) : Option Bool :=
  if v = b!"1" ∨ v = b!"t" ∨ v = b!"T" ∨ v = b!"true" ∨ v = b!"TRUE" ∨ v = b!"True" then some true
  else if v = b!"0" ∨ v = b!"f" ∨ v = b!"F" ∨ v = b!"false" ∨ v = b!"FALSE" ∨ v = b!"False" then some false
  else none

/-- Why `parseOne` gives up. -/
inductive FlagErr where
  | syntax (arg : Bytes)
  | undefined (name : Bytes)
  | help
  | badBool (value name : Bytes)
  | needsArgument (name : Bytes)
  deriving DecidableEq, Repr

/-- `parseOne`: `-name` or `--name` without its dashes; `none` if the argument is not a flag, `some none` for the terminator `--`. -/
def flagBody (a : Bytes) : Option (Option Bytes) :=
  match a with
  | 45 :: 45 :: [] => some none
  | 45 :: 45 :: rest => some (some rest)
  | 45 :: b :: rest => some (some (b :: rest))
  | _ => none

/-- `parseOne`: split `name=value` at the first `=` that is not the first character. -/
def splitFlag (body : Bytes) : Bytes × Option Bytes :=
  match body with
  | [] => ([], none)
  | b :: rest =>
    match rest.dropWhile (· != 61) with
    | [] => (b :: rest, none)
    | _ :: value => (b :: rest.takeWhile (· != 61), some value)

/-- `FlagSet.Parse`: `parseOne` until it reports the end of the flags or an error. What follows the flags is not used by main.go. -/
def parseFlags : List Bytes → Flags → Except FlagErr Flags
  | [], f => .ok f
  | a :: args, f =>
    match flagBody a with
    | none => .ok f
    | some none => .ok f
    | some (some body) =>
      if body = [] ∨ body.head? = some 45 ∨ body.head? = some 61 then .error (.syntax a)
      else
        match flagTable (splitFlag body).1, (splitFlag body).2 with
        | none, _ =>
          if (splitFlag body).1 = b!"help" ∨ (splitFlag body).1 = b!"h" then .error .help
          else .error (.undefined (splitFlag body).1)
        | some (.inr k), some v =>
          match parseBool v with
          | some b => parseFlags args (setBool k b f)
          | none => .error (.badBool v (splitFlag body).1)
        | some (.inr k), none => parseFlags args (setBool k true f)
        | some (.inl k), some v => parseFlags args (setStr k v f)
        | some (.inl k), none =>
          match args with
          | v :: args => parseFlags args (setStr k v f)
          | [] => .error (.needsArgument (splitFlag body).1)

/-- The text that `failf` prints to standard error before it calls the usage function (nothing for a request for help). -/
abbrev FlagText := FlagErr → Bytes

/-- cmd/psignify/main.go:25-30 and 45-144: the process, for the arguments after the program name. The usage function prints the
usage to standard output and ends the process with status 0. -/
def psignify (P : Prims) (fuel : Nat) (env : CliEnv) (text : FlagText) (args : List Bytes) (w : World) : Exit × World :=
  match parseFlags args {} with
  | .ok f => cliMain P fuel env f w
  | .error e => (.status 0, (w.eprint (text e)).print (usageText env.arg0))

end Verif
