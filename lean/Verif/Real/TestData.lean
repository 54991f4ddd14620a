/-
Tests of the model on real data: the tests of /repo, run on the model, with the files of /repo/*/testdata as input, and test
vectors of the RFCs. These are tests of the model's fidelity, not proofs; `#guard` evaluates at build time and adds nothing to the
environment. The tests that need the longer files (message.txt, meditations.txt) are in Verif/Real/RunTestData.lean.
-/
import Verif.Real.Instance
import Verif.Model.Flags

namespace Verif.Real
open Ed World

/-- Bytes from hexadecimal digits. -/
def unhex (s : String) : Bytes :=
  let d (c : Char) : Nat := if c.isDigit then c.toNat - 48 else c.toNat - 87
  let rec go : List Char → Bytes
    | a :: b :: r => UInt8.ofNat (16 * d a + d b) :: go r
    | _ => []
  go s.toList

/-! ### Primitives -/

-- FIPS 180-4, "abc"
#guard (sha512 b!"abc").toList = unhex ("ddaf35a193617abacc417349ae20413112e6fa4e89a97ea20a9eeee64b55d39a" ++
  "2192992a274fc1a836ba3c23a3feebbd454d4423643ce80e2a9ac94fa54ca49f")

-- RFC 8032 7.1 TEST 2
#guard (real.edPublic (copyZ 32 (unhex "4ccd089b28ff96da9db6c346ec114e0f5b8a319f35aba624da8cf6ed4fb8a6fb"))).toList =
  unhex "3d4017c3e843895a92b70aa74d1b7ebc9c982ccf2ec4968cc0cd55f12af4660c"
#guard (real.edSign (copyZ 64 (unhex ("4ccd089b28ff96da9db6c346ec114e0f5b8a319f35aba624da8cf6ed4fb8a6fb" ++
    "3d4017c3e843895a92b70aa74d1b7ebc9c982ccf2ec4968cc0cd55f12af4660c"))) [0x72]).toList =
  unhex ("92a009a9f0d4cab8720e820b5f642540a2b27b5416503f8fb3762223ebdb69da" ++
    "085ac1e43e15996e458f3613d0f11d8c387b2eaeb4302aeeb00d291612bb0c00")

-- RFC 7748 5.2
#guard (x25519 (copyZ 32 (unhex "a546e36bf0527c9d3b16154b82465edd62144c0ac1fc5a18506a2244ba449ac4"))
    (copyZ 32 (unhex "e6db6867583030db3594c1a424b15f7c726624ec26b3353b10a903a6d0ab1c4c"))).toList =
  unhex "c3da55379de9c6908e94ea4df28d084f32eccf03491c71f754b4075577a28552"

-- RFC 8439 2.5.2
#guard (poly1305 (unhex "85d6be7857556d337f4452fe42d506a80103808afb0db2fd4abff6af4149f51b")
  b!"Cryptographic Forum Research Group").toList = unhex "a8061dc1305136c6c22b8baf0c0127a9"

-- The first test of NaCl (Bernstein, "Cryptography in NaCl", sections 8 and 10): HSalsa20 of the shared secret, and a beginning of the box
#guard hsalsa20 (unhex "4a5d9d5ba4ce2de1728e3bf480350f25e07e21c947d19e3376f09b3c1e161742") (List.replicate 16 0) =
  unhex "1b27556473e985d462cd51197a9a46c76009549eac6474f206c4ee0844f68389"

/-! ### /repo/signify/testdata: made with OpenBSD's signify -/

/-- test.pub -/
def testPub : Bytes := b!"untrusted comment: signify public key\nRWSYzpL7fowE0XcRVKu+HhdJwQi2Ph7MCvtfEg7C/i6/1zO0VZoikJ+c\n"

/-- test.sec -/
def testSec : Bytes := b!"untrusted comment: signify secret key\n" ++
  b!"RWRCSwAAACpFnomBnYYbMPBqJ4Hmu86HU+oKQCYNZrWYzpL7fowE0b/EzvbBpZTqrgyDHYzo7a1pH1/PGQQjxGDidn+L1pjj" ++
  b!"Fd1m93CtLJSrdqapd4xyEHBsepCOLswYmrmxnUCfn3Y=\n"

/-- message.txt.sig -/
def testSig : Bytes := b!"untrusted comment: verify with test.pub\n" ++
  b!"RWSYzpL7fowE0eHI5lJTaknYkz2Qr4b+feetgfZalutNPWWlcLRgNaGN8hqnin77Y2V+mJbqtUkoX3eq7NgKlUqd7LrRpHxUDAo=\n"

/-- What `bcryptPbkdf b!"passphrase" salt 42` is for the salt in test.sec. It takes two seconds when compiled and too long here. -/
def testPad : Arr 64 := copyZ 64 (unhex ("da694b83e7193968a9f9185271df423fb2bf716504c5589c69b3449b3a0c67c7" ++
  "62cc325cceb33bdd6a7e1097694078eb2f7e7452700073cfa90de407620f00ea"))

/-- The primitives, for one passphrase. -/
def testPrims : Prims := realWith fun _ _ _ => testPad

/-- A machine with these files; the user types "passphrase" when asked. -/
def testWorld : World :=
  { calm with tty := [some b!"passphrase", some b!"passphrase"] }.setFile b!"test.pub" ⟨testPub, 0o644⟩
    |>.setFile b!"test.sec" ⟨testSec, 0o644⟩ |>.setFile b!"message.txt.sig" ⟨testSig, 0o644⟩ |>.setFile b!"m" ⟨b!"hello, world\n", 0o644⟩

/-- The value, if there is one. -/
def value? {α : Type} : Res α → Option α
  | .ok a => some a
  | _ => none

-- TestLoadKey, the key number
#guard (value? (readPublicKeyFile testPub)).map (·.keyNum.toList) = some [0x98, 0xce, 0x92, 0xfb, 0x7e, 0x8c, 0x04, 0xd1]
-- TestReadSignature
#guard (value? (readSignatureFile testSig)).map (·.pkAlgo.toList) = some b!"Ed"
-- the files are what the model writes for the parsed values, except for the comment of the secret key
#guard (value? (readPublicKeyFile testPub)).map (fun k => b!"untrusted comment: signify public key\n" ++ B64.encode k.encode ++ [10]) =
  some testPub
-- the decrypted key has the checksum, and its second half is the public key in test.pub
#guard match readPrivateKeyFile testSec, readPublicKeyFile testPub with
  | .ok priv, .ok pub =>
    let r := Private.decrypt testPrims b!"passphrase" priv
    value? r.1 == some () && r.2.key.toList.drop 32 == pub.key.toList && priv.keyNum == pub.keyNum &&
      (testPrims.edPublic (copyZ 32 r.2.key.toList)) == pub.key
  | _, _ => false
-- TestSign, on a short message
#guard value? ((do Sign testPrims b!"test.sec" b!"m" []; Verify testPrims b!"test.pub" b!"m" b!"m.sig" : Act World Unit) testWorld).1 = some ()
-- the same message is not accepted with the signature of message.txt
#guard value? (Verify testPrims b!"test.pub" b!"m" b!"message.txt.sig" testWorld).1 = none

/-! ### /repo/crypto/testdata -/

/-- test.pub -/
def boxPub : Bytes := b!"untrusted comment: signify public key\nRWQG3NG/HVUh9dUmnWDxStYXUgK+FRB/M9UTdFPESCWeblGoX2yoJAF2\n"

/-- test.sec, not encrypted -/
def boxSec : Bytes := b!"untrusted comment: signify private key\n" ++
  b!"RWRCSwAAAAAGbFVj+P0WG6vHupwL5lmmZZvyBeEFJN0G3NG/HVUh9bPU4cMvmkQPwuSw8g3Q484TlOsNv6bmzjIGlvrDRDw4" ++
  b!"1SadYPFK1hdSAr4VEH8z1RN0U8RIJZ5uUahfbKgkAXY=\n"

/-- A machine with these files. -/
def boxWorld : World :=
  calm.setFile b!"test.pub" ⟨boxPub, 0o644⟩ |>.setFile b!"test.sec" ⟨boxSec, 0o644⟩ |>.setFile b!"m" ⟨b!"the bird is the word", 0o644⟩

-- TestSeal, TestOpen, on a short message
#guard
  let r := (do Seal real b!"test.pub" b!"m" []; Open real 1000 b!"test.sec" b!"m.enc" b!"m2" : Act World Unit) boxWorld
  value? r.1 == some () && (r.2.fs b!"m2").map (·.data) == some b!"the bird is the word"

-- The command line: generate, sign, verify
#guard
  let env : CliEnv := ⟨b!"psignify", none, fun _ _ _ => [], fun _ => []⟩
  let run (args : List Bytes) (w : World) := psignify real 1000 env (fun _ => []) args w
  let g := run [b!"-G", b!"-n", b!"-p", b!"k"] boxWorld
  let s := run [b!"-S", b!"-s", b!"k.sec", b!"-m", b!"m"] g.2
  let v := run [b!"-V", b!"-p", b!"k.pub", b!"-m", b!"m"] s.2
  let x := run [b!"-V", b!"-p", b!"test.pub", b!"-m", b!"m"] s.2
  [g.1, s.1, v.1, x.1] == [.status 0, .status 0, .status 0, .status 1] && v.2.stdout == b!"m: OK\n"

end Verif.Real
