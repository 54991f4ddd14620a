/-
Go runtime notions used by the model: byte strings, fixed arrays, results of calls.

There is no single source file for these definitions: they model the parts of the Go language and
of `bytes`/`io` that the code in /repo relies on. Each definition says which.
-/
import Lean

namespace Verif

/-- A Go `[]byte` or `string` (contents only; aliasing is modelled where a property needs it). -/
abbrev Bytes := List UInt8

/-- A Go array `[n]byte` (`[n]uint8`). -/
abbrev Arr (n : Nat) := Vector UInt8 n

/-- `b!"text"` is the byte list of an ASCII string literal, expanded at elaboration time. -/
syntax:max (name := byteLit) "b!" noWs str : term

open Lean in
macro_rules
  | `(b!$s:str) => do
    let mut acc : TSyntax `term ← `(([] : Bytes))
    for b in s.getString.toUTF8.data.reverse do
      let n : TSyntax `num := Syntax.mkNumLit (toString b.toNat)
      acc ← `(List.cons ($n : UInt8) $acc)
    return acc

/-- Error values returned by the code, one constructor per distinct origin. -/
inductive GoErr where
  | eof                          -- io.EOF
  | unexpectedEOF                -- io.ErrUnexpectedEOF (binary.Read)
  | io                           -- an error of the operating system (injected by the schedule)
  | notExist                     -- the file does not exist
  | corruptBase64                -- base64.CorruptInputError
  | badChecksum                  -- key.go:93
  | unsupportedKdf               -- key.go:104
  | kdf                          -- an error from bcrypt_pbkdf.Key
  | notEdPublicKey               -- key.go:289
  | notEdSignature               -- key.go:293
  | keyNumMismatch               -- key.go:297
  | invalidSignature             -- key.go:302
  | unknownKeyAlgo               -- key.go:312
  | invalidPublicKey             -- key.go:326
  | publicKeyLength (n : Nat)    -- key.go:342
  | passphraseMismatch           -- key.go:55
  | nonceReused                  -- crypto.go:41
  | shortHeader (n : Nat)        -- crypto.go:170
  | headerAuth                   -- crypto.go:180
  | chunkDecrypt (i : Nat)       -- crypto.go:193
  deriving DecidableEq, Repr

/-- How a call can end. `err` is a non-nil Go error; `panic` a Go run-time panic; `crash` the death of the
process or machine in the middle of a system call; `hang` means that a loop used up the fuel given to the model. -/
inductive Res (α : Type) where
  | ok (a : α)
  | err (e : GoErr)
  | panic
  | crash
  | hang
  deriving DecidableEq, Repr

/-- Calls without effects on the state sequence in the same way. -/
def Res.bind {α β : Type} : Res α → (α → Res β) → Res β
  | .ok a, f => f a
  | .err e, _ => .err e
  | .panic, _ => .panic
  | .crash, _ => .crash
  | .hang, _ => .hang

instance : Monad Res where
  pure := Res.ok
  bind := Res.bind

/-- An action on state `σ`: the final state is observable however the call ends. -/
def Act (σ α : Type) := σ → Res α × σ

namespace Act

variable {σ τ α β : Type}

/-- Sequencing: everything but a nil error returns to the caller at once (`if err != nil { return err }`). -/
def bind (a : Act σ α) (f : α → Act σ β) : Act σ β := fun s =>
  match a s with
  | (.ok x, s') => f x s'
  | (.err e, s') => (.err e, s')
  | (.panic, s') => (.panic, s')
  | (.crash, s') => (.crash, s')
  | (.hang, s') => (.hang, s')

instance : Monad (Act σ) where
  pure a := fun s => (.ok a, s)
  bind := bind

/-- Return a non-nil error. -/
def fail (e : GoErr) : Act σ α := fun s => (.err e, s)

/-- A Go run-time panic. -/
def panic : Act σ α := fun s => (.panic, s)

/-- Running out of fuel. -/
def hang : Act σ α := fun s => (.hang, s)

/-- Read the state. -/
def get : Act σ σ := fun s => (.ok s, s)

/-- Replace the state. -/
def put (s : σ) : Act σ Unit := fun _ => (.ok (), s)

/-- Run an action that works on the second component of a pair state. -/
def onSnd (a : Act τ α) : Act (σ × τ) α := fun s =>
  match a s.2 with
  | (r, t) => (r, (s.1, t))

/-- Read the first component of a pair state. -/
def getFst : Act (σ × τ) σ := fun s => (.ok s.1, s)

/-- Assign the first component of a pair state. -/
def setFst (x : σ) : Act (σ × τ) Unit := fun s => (.ok (), (x, s.2))

/-- Update the state. -/
def modify (f : σ → σ) : Act σ Unit := fun s => (.ok (), f s)

/-- Lift the result of a call without effects. -/
def ofRes (r : Res α) : Act σ α := fun s => (r, s)

/-- `defer cleanup()`: `cleanup` runs when the function returns or panics, not when the process dies (or never returns). -/
def deferring (cleanup : σ → σ) (body : Act σ α) : Act σ α := fun s =>
  match body s with
  | (.crash, s') => (.crash, s')
  | (.hang, s') => (.hang, s')
  | (r, s') => (r, cleanup s')

end Act

/-- `io.Reader` over state `σ`: `Read(p)` with `len(p) = n` returns the bytes stored in `p[:n']`.
`(n' > 0, err ≠ nil)` is identified with `(0, err)`: every caller in /repo discards data that comes with an error
(base64/coding.go:106-112, crypto/crypto.go:26-29, 100-103, 166-168, 186-189). -/
abbrev Reader (σ : Type) := Nat → Act σ Bytes

/-- `io.Writer` over state `σ`: `Write(p)` returns the count it reports. -/
abbrev Writer (σ : Type) := Bytes → Act σ Nat

/-- `copy(dst[:], src)` into a zeroed array of length `n`: the first `n` bytes of `src`, the rest stays 0. -/
def copyZ (n : Nat) (src : Bytes) : Arr n := Vector.ofFn fun i => src.getD i.val 0

/-- `binary.BigEndian.PutUint32` / `binary.Write(.., BigEndian, uint32)`. -/
def be32 (v : BitVec 32) : Bytes :=
  [(v.toNat / 2^24).toUInt8, (v.toNat / 2^16).toUInt8, (v.toNat / 2^8).toUInt8, v.toNat.toUInt8]

/-- `binary.BigEndian.PutUint64` (the argument is converted to uint64, i.e. taken modulo 2^64; `toUInt8` keeps
the low 8 bits of each shifted value). -/
def be64 (v : Nat) : Bytes :=
  [(v / 2^56).toUInt8, (v / 2^48).toUInt8, (v / 2^40).toUInt8, (v / 2^32).toUInt8,
   (v / 2^24).toUInt8, (v / 2^16).toUInt8, (v / 2^8).toUInt8, v.toUInt8]

/-- Big-endian value of a byte string (`binary.BigEndian.Uint64`, `Uint32`). -/
def beVal (bs : Bytes) : Nat := bs.foldl (fun acc b => acc * 256 + b.toNat) 0

/-- Byte-wise XOR of an array with a pad (key.go:112-114, 454-456). -/
def xorArr {n : Nat} (a b : Arr n) : Arr n := Vector.ofFn fun i => a[i] ^^^ b[i]

end Verif
