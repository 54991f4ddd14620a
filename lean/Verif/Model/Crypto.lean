/-
Model of crypto/crypto.go.
-/
import Verif.Model.Keys
import Verif.Model.Coding

namespace Verif

/-- crypto/crypto.go:18. -/
def chunkSize : Nat := 16385

/-- crypto/crypto.go:19. -/
def headerSize : Nat := 72

/-- crypto/crypto.go:20. -/
def sealedChunkSize : Nat := chunkSize + Prims.overhead

variable {σ : Type}

/-- crypto/crypto.go:23-35 `skipComment`. `c` keeps its content when the source returns `(0, nil)`. -/
def skipCommentLoop (rd : Reader σ) : (fuel : Nat) → (c : UInt8) → Act σ Unit
  | 0, _ => Act.hang
  | fuel + 1, c => do
    let got ← rd 1
    let c := got.headD c
    if c = 10 then pure () else skipCommentLoop rd fuel c

/-- crypto/crypto.go:23-35 `skipComment`. -/
def skipComment (fuel : Nat) (rd : Reader σ) : Act σ Unit := skipCommentLoop rd fuel 0

/-- crypto/crypto.go:37-51 `incrementNonce`: the loop, at index `i` of the code plus one (`0` is the code's `-1`). -/
def incrementNonceLoop : (i : Nat) → Arr 24 → Res (Arr 24)
  | 0, _ => .err .nonceReused
  | i + 1, nonce =>
    let nonce := nonce.setIfInBounds i (nonce.toList.getD i 0 + 1)
    if nonce.toList.getD i 0 ≠ 0 then .ok nonce else incrementNonceLoop i nonce

/-- crypto/crypto.go:37-51 `incrementNonce`. -/
def incrementNonce (nonce : Arr 24) : Res (Arr 24) := incrementNonceLoop 24 nonce

/-- crypto/crypto.go:71-74: the number of chunks. -/
def chunkCount (messageLen : Nat) : Nat :=
  if messageLen % chunkSize ≠ 0 then messageLen / chunkSize + 1 else messageLen / chunkSize

/-- crypto/crypto.go:85-90: the header. -/
def sealHeader (P : Prims) (chunks : Nat) (epub shared : Arr 32) : Bytes :=
  let first := be64 chunks ++ epub.toList
  first ++ (P.authSum first shared).toList

/-- crypto/crypto.go:99-115: the sealing loop, with `n` chunks still to do. -/
def sealLoop (P : Prims) (shared : Arr 32) (message : Reader σ) (w : Writer σ) : (n : Nat) → Arr 24 → Act σ Unit
  | 0, _ => pure ()
  | n + 1, nonce => do
    let chunk ← message chunkSize
    let out := P.boxSeal shared nonce chunk
    let _ ← w out
    let nonce ← Act.ofRes (incrementNonce nonce)
    sealLoop P shared message w n nonce

/-- crypto/crypto.go:53-118 `seal`. `rand` supplies the 32 bytes of `box.GenerateKey(rand.Reader)`. -/
def sealBox (P : Prims) (pub : Public) (rand : Act σ (Arr 32)) (message : Reader σ) (messageLen : Nat) (w : Writer σ) :
    Act σ Unit :=
  if messageLen = 0 then pure ()
  else do
    let edpub ← Act.ofRes pub.toBox
    let epriv ← rand
    let epub := P.x25519Base epriv
    let shared := P.precompute edpub epriv
    let chunks := chunkCount messageLen
    let _ ← w (sealHeader P chunks epub shared)
    sealLoop P shared message w chunks (Vector.replicate 24 0)

/-- crypto/crypto.go:120-157 `Seal`. The deferred `encoder.Close()` runs after `seal` returned or panicked; its error is
discarded. -/
def Seal (P : Prims) (publicPath messagePath encryptedPath : Path) : Act World Unit := do
  let pub ← loadPublicKey publicPath
  let message ← World.openFile messagePath
  let messageLen ← World.fileSize message
  let encryptedPath := if encryptedPath = [] then messagePath ++ b!".enc" else encryptedPath
  let encrypted ← World.create encryptedPath
  let _ ← World.writeHandle encrypted b!"untrusted comment: psignify encrypted file\n"
  fun w =>
    let under := World.writeHandle encrypted
    let r := sealBox P pub (Act.onSnd (World.entropy 32)) (fun n => Act.onSnd (World.readHandle message n)) messageLen
      (encWrite under) (EncState.new, w)
    match r.1 with
    | .crash => (.crash, r.2.2)
    | .hang => (.hang, r.2.2)
    | res =>
      let c := encClose under r.2
      match c.1 with
      | .panic => (.panic, c.2.2)
      | .crash => (.crash, c.2.2)
      | .hang => (.hang, c.2.2)
      | _ => (res, c.2.2)

/-- crypto/crypto.go:185-205: the opening loop, with `n` chunks still to do; `i` is the loop variable. -/
def openLoop (P : Prims) (shared : Arr 32) (message : Reader σ) (w : Writer σ) :
    (n : Nat) → (i : Nat) → Arr 24 → Act σ Unit
  | 0, _, _ => pure ()
  | n + 1, i, nonce => do
    let chunk ← message sealedChunkSize
    match P.boxOpen shared nonce chunk with
    | none => Act.fail (.chunkDecrypt i)
    | some out => do
      let _ ← w out
      let nonce ← Act.ofRes (incrementNonce nonce)
      openLoop P shared message w n (i + 1) nonce

/-- crypto/crypto.go:159-208 `open`. `toBox` is the call of `priv.ToBox()` on the state. -/
def openBox (P : Prims) (toBox : Act σ (Arr 32)) (message : Reader σ) (w : Writer σ) : Act σ Unit := do
  let edpriv ← toBox
  let header ← message headerSize
  if header.length ≠ headerSize then Act.fail (.shortHeader header.length)
  else
    let chunks := beVal (header.take 8)
    let epub : Arr 32 := copyZ 32 (header.drop 8)
    let shared := P.precompute epub edpriv
    if !P.authVerify (header.drop 40) (header.take 40) shared then Act.fail .headerAuth
    else openLoop P shared message w chunks 0 (Vector.replicate 24 0)

/-- crypto/crypto.go:210-236 `Open`. -/
def Open (P : Prims) (fuel : Nat) (privatePath encryptedPath messagePath : Path) : Act World Unit := do
  let priv ← loadPrivateKey privatePath
  let encrypted ← World.openFile encryptedPath
  skipComment fuel (World.readHandle encrypted)
  let message ← World.create messagePath
  fun w =>
    let r := openBox P (Private.toBox P) (fun n => Act.onSnd (decRead fuel (World.readHandle encrypted) n))
      (fun bs => Act.onSnd (World.writeHandle message bs)) (priv, w)
    (r.1, r.2.2)

end Verif
