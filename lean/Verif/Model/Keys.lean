/-
Model of signify/key.go and signify/signature.go.
-/
import Verif.Model.DataFile
import Verif.Model.Prims
import Verif.Model.Group

namespace Verif

/-- signify/key.go:34-59 `PassphrasePrompt` (the default implementation): returns the buffer that holds the passphrase.
The buffer of the confirmation is wiped on return, the first one is not. -/
def passphrasePrompt (confirm : Bool) : Act World Nat := do
  Act.modify fun w => { w with prompts := w.prompts ++ [confirm] }
  Act.modify (World.print b!"Password: ")
  let passphrase ← World.readPassword
  Act.modify (World.print b!"\n")
  if !confirm then pure passphrase
  else
    Act.modify (World.print b!"Confirm password: ")
    let confirmPassphrase ← World.readPassword
    Act.deferring (World.zeroBuf confirmPassphrase) do
      Act.modify (World.print b!"\n")
      let a ← World.getBuf passphrase
      let b ← World.getBuf confirmPassphrase
      if a = b then pure passphrase else Act.fail .passphraseMismatch

/-- signify/key.go:61-70 `Private`. -/
structure Private where
  keyAlgo : Arr 2
  kdfAlgo : Arr 2
  kdfRounds : BitVec 32
  salt : Arr 16
  checksum : Arr 8
  keyNum : Arr 8
  key : Arr 64
  deriving DecidableEq

/-- signify/key.go:272-277 `Public`. -/
structure Public where
  keyAlgo : Arr 2
  keyNum : Arr 8
  key : Arr 32
  deriving DecidableEq

/-- signify/signature.go:12-17 `Signature`. -/
structure Signature where
  pkAlgo : Arr 2
  keyNum : Arr 8
  sig : Arr 64
  deriving DecidableEq

namespace Private

/-- signify/key.go:72-82 `Private.encode`. -/
def encode (priv : Private) : Bytes :=
  priv.keyAlgo.toList ++ priv.kdfAlgo.toList ++ be32 priv.kdfRounds ++ priv.salt.toList ++ priv.checksum.toList
    ++ priv.keyNum.toList ++ priv.key.toList

/-- signify/key.go:84-87 `Private.IsEncrypted`. -/
def isEncrypted (priv : Private) : Bool := decide (priv.kdfRounds.toNat > 0)

/-- signify/key.go:89-96 `Private.Check`. -/
def check (P : Prims) (priv : Private) : Res Unit :=
  if (P.sha512 priv.key.toList).toList.take 8 ≠ priv.checksum.toList then .err .badChecksum else .ok ()

/-- signify/key.go:98-122 `Private.decrypt`: the key field is overwritten before the check, and stays so if it fails. -/
def decrypt (P : Prims) (password : Bytes) : Act Private Unit := do
  let priv ← Act.get
  if !priv.isEncrypted then pure ()
  else if priv.kdfAlgo.toList ≠ b!"BK" then Act.fail .unsupportedKdf
  else
    let xorkey ← Act.ofRes (P.bcryptKey password priv.salt priv.kdfRounds.toNat)
    let priv := { priv with key := xorArr priv.key xorkey }
    Act.put priv
    Act.ofRes (check P priv)

/-- signify/key.go:124-134 `Private.sign`. -/
def sign (P : Prims) (priv : Private) (message : Bytes) : Signature :=
  { pkAlgo := priv.keyAlgo, keyNum := priv.keyNum, sig := P.edSign priv.key message }

end Private

/-- `bytes.Buffer.Read(p)` with `len(p) = n > 0`: the bytes copied and the rest of the buffer. -/
def bufRead (n : Nat) (buf : Bytes) : Res (Bytes × Bytes) :=
  if buf = [] then .err .eof else .ok (buf.take n, buf.drop n)

/-- `binary.Read(buf, BigEndian, &uint32)`: `io.ReadFull` on 4 bytes. -/
def binReadU32 (buf : Bytes) : Res (BitVec 32 × Bytes) :=
  if buf = [] then .err .eof
  else if buf.length < 4 then .err .unexpectedEOF
  else .ok (BitVec.ofNat 32 (beVal (buf.take 4)), buf.drop 4)

/-- signify/key.go:136-176 `readPrivateKeyData`. The fields start zeroed and a short read is not an error. -/
def readPrivateKeyData (data : Bytes) : Res Private := do
  let (keyAlgo, buf) ← bufRead 2 data
  let (kdfAlgo, buf) ← bufRead 2 buf
  let (kdfRounds, buf) ← binReadU32 buf
  let (salt, buf) ← bufRead 16 buf
  let (checksum, buf) ← bufRead 8 buf
  let (keyNum, buf) ← bufRead 8 buf
  let (key, _) ← bufRead 64 buf
  pure { keyAlgo := copyZ 2 keyAlgo, kdfAlgo := copyZ 2 kdfAlgo, kdfRounds := kdfRounds, salt := copyZ 16 salt,
         checksum := copyZ 8 checksum, keyNum := copyZ 8 keyNum, key := copyZ 64 key }

/-- signify/key.go:178-185 `readPrivateKeyFile`. -/
def readPrivateKeyFile (data : Bytes) : Res Private := do
  let dat ← readDataFileBytes data
  readPrivateKeyData dat.data

/-- signify/key.go:187-195 `LoadPrivateKey`. -/
def loadPrivateKey (path : Path) : Act World Private := do
  let data ← World.readFile path
  Act.ofRes (readPrivateKeyFile data)

/-- signify/signature.go:19-25 `Signature.encode`. -/
def Signature.encode (s : Signature) : Bytes := s.pkAlgo.toList ++ s.keyNum.toList ++ s.sig.toList

/-- signify/signature.go:27-33 `readSignatureData`. The slice expressions `data[:2]` and `data[2:10]` are bounded by the
capacity, `data[10:]` by the length of `data`; so there is a panic exactly if the length is below 10. -/
def readSignatureData (data : Bytes) : Res Signature :=
  if data.length < 10 then .panic
  else .ok { pkAlgo := copyZ 2 (data.take 2), keyNum := copyZ 8 ((data.drop 2).take 8), sig := copyZ 64 (data.drop 10) }

/-- signify/signature.go:35-42 `readSignatureFile`. -/
def readSignatureFile (data : Bytes) : Res Signature := do
  let dat ← readDataFileBytes data
  readSignatureData dat.data

/-- signify/signature.go:44-51 `readSignaturePath`. -/
def readSignaturePath (path : Path) : Act World Signature := do
  let data ← World.readFile path
  Act.ofRes (readSignatureFile data)

/-- `strings.TrimSuffix`. -/
def trimSuffix (s suffix : Bytes) : Bytes :=
  if suffix.isSuffixOf s then s.take (s.length - suffix.length) else s

/-- `filepath.Base` on Unix. -/
def pathBase (p : Path) : Path :=
  if p = [] then b!"."
  else
    let stripped := (p.reverse.dropWhile (· == 47)).reverse
    if stripped = [] then b!"/"
    else (stripped.reverse.takeWhile (· != 47)).reverse

/-- signify/key.go:236-237: the comment of a signature file. -/
def signComment (privatePath : Path) : Bytes :=
  b!"untrusted comment: verify with " ++ pathBase (trimSuffix privatePath b!".sec" ++ b!".pub")

/-- signify/key.go:222-243: the part of `Sign` after the key is ready. -/
def signWith (P : Prims) (priv : Private) (privatePath messagePath signaturePath : Path) : Act World Unit := do
  let message ← World.readFile messagePath
  let sig := priv.sign P message
  writeDataFile signaturePath (signComment privatePath) sig.encode

/-- signify/key.go:197-244 `Sign`. The deferred wipe of the passphrase runs when `Sign` returns. The second test for an
empty signature path (lines 227-229) can never succeed and is left out. -/
def Sign (P : Prims) (privatePath messagePath signaturePath : Path) : Act World Unit := do
  let signaturePath := if signaturePath = [] then messagePath ++ b!".sig" else signaturePath
  let priv ← loadPrivateKey privatePath
  if priv.isEncrypted then
    let passphrase ← passphrasePrompt false
    Act.deferring (World.zeroBuf passphrase) do
      let pw ← World.getBuf passphrase
      let r := Private.decrypt P pw priv
      let _ ← Act.ofRes r.1
      signWith P r.2 privatePath messagePath signaturePath
  else signWith P priv privatePath messagePath signaturePath

/-- signify/key.go:262-269: the scalar returned by `Private.ToBox`, and the digest buffer after the deferred wipe. -/
def boxScalar (P : Prims) (key : Arr 64) : Arr 32 × Arr 64 :=
  let digest := P.sha512 (key.toList.take 32)
  let digest := digest.set 0 (digest[0] &&& 248)
  let digest := digest.set 31 (digest[31] &&& 127)
  let digest := digest.set 31 (digest[31] ||| 64)
  let sboxKey := copyZ 32 digest.toList
  (sboxKey, (zero64 (some digest)).getD digest)

/-- signify/key.go:246-270 `Private.ToBox`. The receiver is updated in place. -/
def Private.toBox (P : Prims) : Act (Private × World) (Arr 32) := do
  let priv ← Act.getFst
  match priv.check P with
  | .ok _ => pure ()
  | _ => do
    let passphrase ← Act.onSnd (passphrasePrompt false)
    let pw ← Act.onSnd (World.getBuf passphrase)
    let priv ← Act.getFst
    let r := Private.decrypt P pw priv
    Act.setFst r.2
    Act.ofRes r.1
  let priv ← Act.getFst
  pure (boxScalar P priv.key).1

namespace Public

/-- signify/key.go:279-285 `Public.encode`. -/
def encode (pub : Public) : Bytes := pub.keyAlgo.toList ++ pub.keyNum.toList ++ pub.key.toList

/-- signify/key.go:287-305 `Public.verifyEd25519`. -/
def verifyEd25519 (P : Prims) (pub : Public) (message : Bytes) (sig : Signature) : Res Unit :=
  if pub.keyAlgo.toList ≠ b!"Ed" then .err .notEdPublicKey
  else if sig.pkAlgo.toList ≠ b!"Ed" then .err .notEdSignature
  else if pub.keyNum.toList ≠ sig.keyNum.toList then .err .keyNumMismatch
  else if !P.edVerify pub.key message sig.sig then .err .invalidSignature
  else .ok ()

/-- signify/key.go:307-314 `Public.verify`. -/
def verify (P : Prims) (pub : Public) (message : Bytes) (sig : Signature) : Res Unit :=
  if pub.keyAlgo.toList = b!"Ed" then pub.verifyEd25519 P message sig else .err .unknownKeyAlgo

/-- signify/key.go:325-337, the part of `Public.ToBox` after `A.FromBytes`: `none` is a false result. -/
def boxOfPoint : Option Ed.Ext → Res (Arr 32)
  | none => .err .invalidPublicKey
  | some A =>
    let oneMinusY := Ed.feOne
    let oneMinusY := Ed.feSub oneMinusY A.Y
    let x := Ed.feOne
    let x := Ed.feAdd x A.Y
    let oneMinusY := Ed.feInvert oneMinusY
    let x := Ed.feMul x oneMinusY
    .ok (Ed.feToBytes x).1

/-- signify/key.go:316-338: the body of `Public.ToBox`, which reads only the key bytes. -/
def toBoxBytes (key : Arr 32) : Res (Arr 32) := boxOfPoint (Ed.extFromBytes key)

/-- signify/key.go:316-338 `Public.ToBox`. -/
def toBox (pub : Public) : Res (Arr 32) := toBoxBytes pub.key

end Public

/-- signify/key.go:340-356 `readPublicKeyData`. -/
def readPublicKeyData (data : Bytes) : Res Public :=
  if data.length ≠ 2 + 8 + 32 then .err (.publicKeyLength data.length)
  else .ok { keyAlgo := copyZ 2 (data.take 2), keyNum := copyZ 8 ((data.drop 2).take 8),
             key := copyZ 32 ((data.drop 10).take 32) }

/-- signify/key.go:358-365 `readPublicKeyFile`. -/
def readPublicKeyFile (data : Bytes) : Res Public := do
  let dat ← readDataFileBytes data
  readPublicKeyData dat.data

/-- signify/key.go:367-375 `LoadPublicKey`. -/
def loadPublicKey (path : Path) : Act World Public := do
  let data ← World.readFile path
  Act.ofRes (readPublicKeyFile data)

/-- signify/key.go:377-404 `Verify`. -/
def Verify (P : Prims) (publicPath messagePath signaturePath : Path) : Act World Unit := do
  let signaturePath := if signaturePath = [] then messagePath ++ b!".sig" else signaturePath
  let pub ← loadPublicKey publicPath
  let message ← World.readFile messagePath
  let sig ← readSignaturePath signaturePath
  Act.ofRes (pub.verify P message sig)

/-- signify/key.go:406-411 `GenerateOptions.Rounds` and the defaults. -/
def defaultRounds : Int := 42

/-- signify/key.go:424-464: the computation of `GenerateKeypair` once the entropy is drawn. `rounds` is `opts.Rounds`. -/
def makeKeypair (P : Prims) (passphrase : Bytes) (rounds : Int) (seed : Arr 32) (salt : Arr 16) (keyNum : Arr 8) :
    Res (Private × Public) := do
  let edpub := P.edPublic seed
  let edpriv := seed.toList ++ edpub.toList
  let kdfRounds : BitVec 32 := if passphrase.length = 0 then 0 else BitVec.ofInt 32 rounds
  let digest := P.sha512 edpriv
  let key : Arr 64 := copyZ 64 edpriv
  let key ← if passphrase.length ≠ 0 then do
      let xorkey ← P.bcryptKey passphrase salt kdfRounds.toNat
      pure (xorArr key xorkey)
    else pure key
  let priv : Private :=
    { keyAlgo := copyZ 2 b!"Ed", kdfAlgo := copyZ 2 b!"BK", kdfRounds := kdfRounds, salt := salt,
      checksum := copyZ 8 digest.toList, keyNum := keyNum, key := key }
  pure (priv, { keyAlgo := priv.keyAlgo, keyNum := priv.keyNum, key := copyZ 32 edpub.toList })

/-- signify/key.go:413-465 `GenerateKeypair` (`opts = none` is nil). -/
def GenerateKeypair (P : Prims) (passphrase : Bytes) (opts : Option Int) : Act World (Private × Public) := do
  let rounds := opts.getD defaultRounds
  let seed ← World.entropy 32
  let salt ← World.entropy 16
  let keyNum ← World.entropy 8
  Act.ofRes (makeKeypair P passphrase rounds seed salt keyNum)

/-- signify/key.go:467-487 `GenerateKey`. -/
def GenerateKey (P : Prims) (keyPath : Path) (passphrase : Bytes) (opts : Option Int) : Act World Unit := do
  let (priv, pub) ← GenerateKeypair P passphrase opts
  writeDataFile (keyPath ++ b!".sec") b!"untrusted comment: signify private key" priv.encode
  writeDataFile (keyPath ++ b!".pub") b!"untrusted comment: signify public key" pub.encode

end Verif
