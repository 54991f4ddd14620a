/-
Model of cmd/psignify/main.go.
-/
import Verif.Model.Crypto

namespace Verif

/-- cmd/psignify/main.go:46-71: the flags after `flag.Parse()` (library). -/
structure Flags where
  encryptedFile : Path := []
  messageFile : Path := []
  noPass : Bool := false
  pubKeyFile : Path := []
  privKeyFile : Path := []
  signatureFile : Path := []
  decrypt : Bool := false
  encrypt : Bool := false
  generate : Bool := false
  sign : Bool := false
  verify : Bool := false

/-- The result of `user.Current()`. -/
structure User where
  homeDir : Bytes
  username : Bytes

/-- cmd/psignify/main.go:32-43 `defaultKeyBase`. `join` is `filepath.Join(HomeDir, ".signify", Username)` (library). -/
def defaultKeyBase (join : Bytes → Bytes → Bytes → Bytes) : Option User → Bytes
  | none => []
  | some u => if u.homeDir = [] then u.username else join u.homeDir b!".signify" u.username

/-- Exit status of the process: 0, or 1 after `os.Exit(1)`; an uncaught panic exits with 2. -/
inductive Exit where
  | status (n : Nat)
  | crash
  | hang
  deriving DecidableEq, Repr

/-- cmd/psignify/main.go:15-23 `usage`, for program name `a`. -/
def usageText (a : Bytes) : Bytes :=
  b!"\nUsage: " ++ a ++ b!" -S -s seckey -m message [-x sigfile]\n       " ++ a ++
  b!" -V -p pubkey [-x sigfile] -m message\n       " ++ a ++ b!" -G [-n] -p keyname\n       " ++ a ++
  b!" -E -p pubkey -m message [-c encrypted]\n       " ++ a ++ b!" -D -s privkey -c encrypted -m message\n"

/-- What the command line depends on besides the flags: `os.Args[0]`, `user.Current()`, `filepath.Join`, and the text of
each error value (`err.Error()`), all left arbitrary. -/
structure CliEnv where
  arg0 : Bytes
  user : Option User
  join : Bytes → Bytes → Bytes → Bytes
  errText : GoErr → Bytes

/-- The pattern `err := op(); if err != nil { print errMsg to stderr; os.Exit(1) }` followed by `rest`. -/
def orExit {α : Type} (op : Act World α) (errMsg : GoErr → Bytes) (rest : α → World → Exit × World) (w : World) :
    Exit × World :=
  match op w with
  | (.ok a, w') => rest a w'
  | (.err e, w') => (.status 1, w'.eprint (errMsg e))
  | (.panic, w') => (.status 2, w')
  | (.crash, w') => (.crash, w')
  | (.hang, w') => (.hang, w')

/-- Print `msg` to standard output and return from `main`. -/
def done (msg : Bytes) (_ : Unit) (w : World) : Exit × World := (.status 0, w.print msg)

/-- cmd/psignify/main.go:83-104: the branch for `-G`. -/
def cliGenerate (P : Prims) (env : CliEnv) (noPass : Bool) (pubKeyFile : Path) (w : World) : Exit × World :=
  if pubKeyFile = [] then (.status 1, w.eprint b!"Please provide the base name for the keypair.\n")
  else
    let gen (passphrase : Bytes) : World → Exit × World :=
      orExit (GenerateKey P pubKeyFile passphrase none)
        (fun e => b!"Failed to generate keypair: " ++ env.errText e ++ b!"\n") (done [])
    if !noPass then
      orExit (passphrasePrompt true) (fun e => env.errText e ++ b!"\n")
        (fun buf w => gen (w.bufs.getD buf []) w) w
    else gen [] w

/-- cmd/psignify/main.go:45-144 `main` after flag parsing. -/
def cliMain (P : Prims) (fuel : Nat) (env : CliEnv) (f : Flags) (w : World) : Exit × World :=
  let keyBase := defaultKeyBase env.join env.user
  let privKeyFile := if f.privKeyFile = [] ∧ keyBase ≠ [] then keyBase ++ b!".sec" else f.privKeyFile
  let pubKeyFile := if f.pubKeyFile = [] ∧ keyBase ≠ [] then keyBase ++ b!".pub" else f.pubKeyFile
  if f.generate then cliGenerate P env f.noPass pubKeyFile w
  else if f.sign then
    if privKeyFile = [] ∨ f.messageFile = [] then
      (.status 1, w.eprint b!"Signing requires a message and private key.\n")
    else
      orExit (Sign P privKeyFile f.messageFile f.signatureFile)
        (fun e => b!"Signing " ++ f.messageFile ++ b!" failed: " ++ env.errText e ++ b!"\n") (done []) w
  else if f.verify then
    orExit (Verify P pubKeyFile f.messageFile f.signatureFile) (fun _ => f.messageFile ++ b!": invalid signature\n")
      (done (f.messageFile ++ b!": OK\n")) w
  else if f.encrypt then
    orExit (Seal P pubKeyFile f.messageFile f.encryptedFile) (fun e => env.errText e ++ b!"\n")
      (done (f.messageFile ++ b!": OK\n")) w
  else if f.decrypt then
    orExit (Open P fuel privKeyFile f.encryptedFile f.messageFile) (fun e => env.errText e ++ b!"\n")
      (done (f.encryptedFile ++ b!": OK\n")) w
  else (.status 1, w.eprint (usageText env.arg0))

end Verif
