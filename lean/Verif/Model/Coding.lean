/-
Model of base64/coding.go.
-/
import Verif.Model.StdBase64

namespace Verif

/-- base64/coding.go:9-12. -/
def decodedSize : Nat := 54

/-- base64/coding.go:16-21 `Encoder`. `pending` is `buf[:index]`; the stale bytes of `buf` beyond `index` are never
read (Close encodes `buf[:index]`, Write encodes `buf` only when `index` reached 3). The field `w` is a parameter of the
operations. -/
structure EncState where
  line : Nat
  pending : Bytes
  deriving DecidableEq, Repr

/-- base64/coding.go:23-28 `NewEncoder`. -/
def EncState.new : EncState := { line := 0, pending := [] }

variable {σ : Type}

/-- base64/coding.go:30-44 `Encoder.Close`. -/
def encClose (under : Writer σ) : Act (EncState × σ) Unit := do
  let e ← Act.getFst
  if e.pending.length > 0 then
    let _ ← Act.onSnd (under (B64.encode e.pending))
    Act.setFst { line := 0, pending := [] }
    let _ ← Act.onSnd (under [10])
    pure ()
  else
    let _ ← Act.onSnd (under [10])
    pure ()

/-- base64/coding.go:46-77 `Encoder.Write`: the loop over the bytes of `p`, `written` being the count so far. The count
that accompanies an error is dropped (no caller in /repo looks at it). The index is reset before the write of the
group (line 54), so the group is gone even if that write fails. -/
def encWriteLoop (under : Writer σ) (written : Nat) : Bytes → Act (EncState × σ) Nat
  | [] => pure written
  | b :: bs => do
    let e ← Act.getFst
    let full := e.pending ++ [b]
    if full.length = 3 then
      Act.setFst { line := e.line, pending := [] }
      let _ ← Act.onSnd (under (B64.encode full))
      Act.setFst { line := e.line + 3, pending := [] }
      if e.line + 3 = decodedSize then
        let _ ← Act.onSnd (under [10])
        Act.setFst { line := 0, pending := [] }
        encWriteLoop under (written + 3) bs
      else
        encWriteLoop under (written + 3) bs
    else
      Act.setFst { line := e.line, pending := full }
      encWriteLoop under written bs

/-- base64/coding.go:46-77 `Encoder.Write`. -/
def encWrite (under : Writer σ) : Writer (EncState × σ) := fun p => encWriteLoop under 0 p

/-- base64/coding.go:101-121: the loop of `Decoder.Read`. `c` is the one-byte buffer, which keeps its old content when
the source returns `(0, nil)`; `buf` has `n` elements. -/
def decReadLoop (rd : Reader σ) (enclen : Nat) : (fuel : Nat) → (c : UInt8) → (buf : Bytes) → Act σ Bytes
  | 0, _, _ => Act.hang
  | fuel + 1, c, buf => fun s =>
    if buf.length = enclen then (.ok buf, s)
    else
      match rd 1 s with
      | (.err .eof, s') => (.ok buf, s')
      | (.err e, s') => (.err e, s')
      | (.panic, s') => (.panic, s')
      | (.crash, s') => (.crash, s')
      | (.hang, s') => (.hang, s')
      | (.ok got, s') =>
        let c' := got.headD c
        if c' = 10 then decReadLoop rd enclen fuel c' buf s'
        else decReadLoop rd enclen fuel c' (buf ++ [c']) s'

/-- base64/coding.go:95-123 `Decoder.Read(p)` with `len(p) = n`. A count returned together with a decoding error is
dropped. -/
def decRead (fuel : Nat) (rd : Reader σ) : Reader σ := fun n => do
  let buf ← decReadLoop rd (B64.encodedLen n) fuel 0 []
  match B64.decode n buf with
  | .ok out => pure out
  | .corrupt => Act.fail .corruptBase64
  | .panic => Act.panic

end Verif
