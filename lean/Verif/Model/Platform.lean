/-
crypto/crypto.go on platforms with a given size of `int`. `Verif.Model.Crypto` takes the length of the message as a natural number.
-/
import Verif.Model.Crypto

namespace Verif

variable {σ : Type}

/-- The Go conversion `int(n)` of a non-negative int64 on a platform where `int` has `bits` bits: two's complement. -/
def goInt (bits n : Nat) : Int := Int.bmod n (2 ^ bits)

/-- crypto/crypto.go:71-74 with `/` and `%` of Go, which round towards zero. -/
def chunkCountOn (messageLen : Int) : Int :=
  if messageLen.tmod chunkSize ≠ 0 then messageLen.tdiv chunkSize + 1 else messageLen.tdiv chunkSize

/-- crypto/crypto.go:53-118 `seal` with an `int` length: `uint64(chunks)` is the number modulo 2^64, and the loop does nothing if
`chunks` is negative. -/
def sealBoxOn (P : Prims) (pub : Public) (rand : Act σ (Arr 32)) (message : Reader σ) (messageLen : Int) (w : Writer σ) :
    Act σ Unit :=
  if messageLen = 0 then pure ()
  else do
    let edpub ← Act.ofRes pub.toBox
    let epriv ← rand
    let epub := P.x25519Base epriv
    let shared := P.precompute edpub epriv
    let chunks := chunkCountOn messageLen
    let _ ← w (sealHeader P (chunks % 2 ^ 64).toNat epub shared)
    sealLoop P shared message w chunks.toNat (Vector.replicate 24 0)

/-- crypto/crypto.go:120-157 `Seal` on a platform where `int` has `bits` bits; line 137 converts the size. -/
def SealOn (bits : Nat) (P : Prims) (publicPath messagePath encryptedPath : Path) : Act World Unit := do
  let pub ← loadPublicKey publicPath
  let message ← World.openFile messagePath
  let size ← World.fileSize message
  let messageLen := goInt bits size
  let encryptedPath := if encryptedPath = [] then messagePath ++ b!".enc" else encryptedPath
  let encrypted ← World.create encryptedPath
  let _ ← World.writeHandle encrypted b!"untrusted comment: psignify encrypted file\n"
  fun w =>
    let under := World.writeHandle encrypted
    let r := sealBoxOn P pub (Act.onSnd (World.entropy 32)) (fun n => Act.onSnd (World.readHandle message n)) messageLen
      (encWrite under) (EncState.new, w)
    match r.1 with
    | .crash => (.crash, r.2.2)
    | .hang => (.hang, r.2.2)
    | res =>
      let c := encClose under r.2
      match c.1 with
      | .panic => (.panic, c.2.2)
      | .crash => (.crash, c.2.2)
      | .hang => (.hang, c.2.2)
      | _ => (res, c.2.2)

end Verif
