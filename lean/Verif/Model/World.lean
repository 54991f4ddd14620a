/-
The operating system as seen by the code in /repo: `os`, `io/ioutil`, `crypto/rand`,
`golang.org/x/crypto/ssh/terminal`. Library behaviour, not code of /repo.

Simplifications: no directories, links or permissions checks (an operation that the real system would refuse is a
`Decision.fail`); closing a file that was only read, or whose Close error the code ignores, is not modelled; printing to
standard output and standard error always succeeds.
-/
import Verif.Model.Go

namespace Verif

abbrev Path := Bytes

structure File where
  data : Bytes
  mode : Nat
  deriving DecidableEq, Repr

abbrev FS := Path → Option File

/-- What the environment does with one system call. -/
inductive Decision where
  | ok
  | fail (n : Nat)    -- the call fails; a write transfers its first `n` bytes before failing
  | short (n : Nat)   -- a read returns at most `n + 1` bytes; no effect on other calls
  | crash (n : Nat)   -- the process dies; a write has transferred its first `n` bytes, a create has happened iff `n > 0`
  deriving DecidableEq, Repr

/-- An open file: path and offset. -/
structure Handle where
  path : Path
  off : Nat
  deriving DecidableEq, Repr

structure World where
  fs : FS
  umask : Nat
  handles : List Handle
  /-- decision for each system call, and the number of calls made so far -/
  sched : Nat → Decision
  tick : Nat
  /-- results of the next `terminal.ReadPassword` calls (`none`: an error) -/
  tty : List (Option Bytes)
  /-- buffers returned by `terminal.ReadPassword`, oldest first -/
  bufs : List Bytes
  /-- arguments of the calls of `PassphrasePrompt`, oldest first -/
  prompts : List Bool
  /-- the system's entropy source and the number of bytes consumed -/
  rng : Nat → UInt8
  rngPos : Nat
  stdout : Bytes
  stderr : Bytes

namespace World

/-- Replace the content of one path. -/
def setFile (w : World) (p : Path) (f : File) : World :=
  { w with fs := fun q => if q = p then some f else w.fs q }

/-- `fmt.Printf`, `fmt.Println` (to standard output). -/
def print (bs : Bytes) (w : World) : World := { w with stdout := w.stdout ++ bs }

/-- `fmt.Fprintf(os.Stderr, ..)`. -/
def eprint (bs : Bytes) (w : World) : World := { w with stderr := w.stderr ++ bs }

/-- Consume one decision. -/
def next : Act World Decision := fun w => (.ok (w.sched w.tick), { w with tick := w.tick + 1 })

/-- `ioutil.ReadFile`. -/
def readFile (p : Path) : Act World Bytes := fun w =>
  let w' := { w with tick := w.tick + 1 }
  match w.sched w.tick with
  | .fail _ => (.err .io, w')
  | .crash _ => (.crash, w')
  | _ =>
    match w.fs p with
    | none => (.err .notExist, w')
    | some f => (.ok f.data, w')

/-- The file after `OpenFile(path, O_CREATE|O_TRUNC, perm)`: an existing file keeps its mode. -/
def truncated (w : World) (p : Path) (perm : Nat) : File :=
  match w.fs p with
  | some f => { data := [], mode := f.mode }
  | none => { data := [], mode := perm - (perm &&& w.umask) }

/-- `os.OpenFile(path, O_RDWR|O_CREATE|O_TRUNC, perm)`. -/
def createFile (p : Path) (perm : Nat) : Act World Unit := fun w =>
  let w' := { w with tick := w.tick + 1 }
  match w.sched w.tick with
  | .fail _ => (.err .io, w')
  | .crash n => (.crash, if n = 0 then w' else w'.setFile p (w.truncated p perm))
  | _ => (.ok (), w'.setFile p (w.truncated p perm))

/-- The content after writing `bs` at offset `off`. -/
def overwrite (old : Bytes) (off : Nat) (bs : Bytes) : Bytes :=
  old.take off ++ List.replicate (off - old.length) 0 ++ bs ++ old.drop (off + bs.length)

/-- Write `bs` at an offset of an existing file. -/
def pokeFile (w : World) (p : Path) (off : Nat) (bs : Bytes) : World :=
  match w.fs p with
  | some f => w.setFile p { f with data := overwrite f.data off bs }
  | none => w

/-- `ioutil.WriteFile`: open with truncation, write, close. -/
def writeFile (p : Path) (data : Bytes) (perm : Nat) : Act World Unit := do
  createFile p perm
  let d ← next
  match d with
  | .fail n => fun w => (.err .io, w.pokeFile p 0 (data.take n))
  | .crash n => fun w => (.crash, w.pokeFile p 0 (data.take n))
  | _ => fun w =>
    let w' := w.pokeFile p 0 data
    match w'.sched w'.tick with
    | .fail _ => (.err .io, { w' with tick := w'.tick + 1 })
    | .crash _ => (.crash, { w' with tick := w'.tick + 1 })
    | _ => (.ok (), { w' with tick := w'.tick + 1 })

/-- `os.Open`: returns the index of the new handle. -/
def openFile (p : Path) : Act World Nat := fun w =>
  let w' := { w with tick := w.tick + 1 }
  match w.sched w.tick with
  | .fail _ => (.err .io, w')
  | .crash _ => (.crash, w')
  | _ =>
    match w.fs p with
    | none => (.err .notExist, w')
    | some _ => (.ok w.handles.length, { w' with handles := w.handles ++ [{ path := p, off := 0 }] })

/-- `File.Stat().Size()`. -/
def fileSize (h : Nat) : Act World Nat := fun w =>
  let w' := { w with tick := w.tick + 1 }
  match w.sched w.tick with
  | .fail _ => (.err .io, w')
  | .crash _ => (.crash, w')
  | _ =>
    match w.handles[h]? with
    | none => (.err .io, w')
    | some hd =>
      match w.fs hd.path with
      | none => (.err .io, w')
      | some f => (.ok f.data.length, w')

/-- `os.Create`: returns the index of the new handle. -/
def create (p : Path) : Act World Nat := do
  createFile p 0o666
  fun w => (.ok w.handles.length, { w with handles := w.handles ++ [{ path := p, off := 0 }] })

/-- Advance a handle. -/
def advance (w : World) (h : Nat) (n : Nat) : World :=
  { w with handles := w.handles.modify h fun hd => { hd with off := hd.off + n } }

/-- `File.Read(p)` with `len(p) = n`: what the file holds now at the offset, at most `n` bytes; io.EOF if nothing is left. -/
def readHandle (h : Nat) : Reader World := fun n w =>
  let w' := { w with tick := w.tick + 1 }
  match w.sched w.tick with
  | .fail _ => (.err .io, w')
  | .crash _ => (.crash, w')
  | d =>
    match w.handles[h]? with
    | none => (.err .io, w')
    | some hd =>
      match w.fs hd.path with
      | none => (.err .io, w')
      | some f =>
        let avail := f.data.drop hd.off
        let lim := match d with | .short k => min n (k + 1) | _ => n
        let got := avail.take lim
        if n = 0 then (.ok [], w')
        else if avail = [] then (.err .eof, w')
        else (.ok got, w'.advance h got.length)

/-- `File.Write(p)`. -/
def writeHandle (h : Nat) : Writer World := fun bs w =>
  let w' := { w with tick := w.tick + 1 }
  match w.handles[h]? with
  | none => (.err .io, w')
  | some hd =>
    match w.sched w.tick with
    | .fail n => (.err .io, (w'.pokeFile hd.path hd.off (bs.take n)).advance h (bs.take n).length)
    | .crash n => (.crash, (w'.pokeFile hd.path hd.off (bs.take n)).advance h (bs.take n).length)
    | _ => (.ok bs.length, (w'.pokeFile hd.path hd.off bs).advance h bs.length)

/-- `rand.Read(p)` / `io.ReadFull(rand.Reader, p)` with `len(p) = n`. -/
def entropy (n : Nat) : Act World (Arr n) := fun w =>
  let w' := { w with tick := w.tick + 1 }
  match w.sched w.tick with
  | .fail _ => (.err .io, w')
  | .crash _ => (.crash, w')
  | _ => (.ok (Vector.ofFn fun i => w.rng (w.rngPos + i.val)), { w' with rngPos := w.rngPos + n })

/-- `terminal.ReadPassword(0)`: returns a new buffer (its index). -/
def readPassword : Act World Nat := fun w =>
  match w.tty with
  | [] => (.err .io, w)
  | none :: rest => (.err .io, { w with tty := rest })
  | some s :: rest => (.ok w.bufs.length, { w with tty := rest, bufs := w.bufs ++ [s] })

/-- Current content of a buffer. -/
def getBuf (i : Nat) : Act World Bytes := fun w => (.ok (w.bufs.getD i []), w)

end World
end Verif
