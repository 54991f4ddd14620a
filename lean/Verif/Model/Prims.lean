/-
Cryptographic primitives from outside /repo, as parameters without any assumed behaviour, and the library glue that the
code calls (`bcrypt_pbkdf.Key` argument checks, `nacl/secretbox`, `nacl/box`, `nacl/auth`).
-/
import Verif.Model.Go

namespace Verif

/-- The primitives. Nothing is assumed about them. -/
structure Prims where
  /-- `sha512.Sum512` -/
  sha512 : Bytes → Arr 64
  /-- the public key that `ed25519.GenerateKey` derives from a 32-byte seed -/
  edPublic : Arr 32 → Arr 32
  /-- `ed25519.Sign` -/
  edSign : Arr 64 → Bytes → Arr 64
  /-- `ed25519.Verify` -/
  edVerify : Arr 32 → Bytes → Arr 64 → Bool
  /-- the derivation of `bcrypt_pbkdf.Key(password, salt, rounds, 64)` for acceptable arguments -/
  bcrypt : Bytes → Arr 16 → Nat → Arr 64
  /-- `curve25519.ScalarMult(scalar, point)` -/
  x25519 : Arr 32 → Arr 32 → Arr 32
  /-- `curve25519.ScalarBaseMult(scalar)` -/
  x25519Base : Arr 32 → Arr 32
  /-- the key derivation step of `box.Precompute` (HSalsa20 with a zero input) -/
  hsalsa20 : Arr 32 → Arr 32
  /-- the XSalsa20 key stream for a key and a nonce -/
  stream : Arr 32 → Arr 24 → Nat → UInt8
  /-- `poly1305.Sum` -/
  poly1305 : Bytes → Bytes → Arr 16
  /-- `auth.Sum(message, key)` (HMAC-SHA-512-256) -/
  authSum : Bytes → Arr 32 → Arr 32

namespace Prims

/-- `bcrypt_pbkdf.Key(password, salt, rounds, 64)`: the argument checks that can fail here (the salt has 16 bytes and the
key length is 64, so the other two checks pass). -/
def bcryptKey (P : Prims) (password : Bytes) (salt : Arr 16) (rounds : Int) : Res (Arr 64) :=
  if rounds < 1 then .err .kdf
  else if password.length = 0 then .err .kdf
  else .ok (P.bcrypt password salt rounds.toNat)

/-- `box.Precompute(shared, peersPublicKey, privateKey)`. -/
def precompute (P : Prims) (peer : Arr 32) (priv : Arr 32) : Arr 32 := P.hsalsa20 (P.x25519 priv peer)

/-- The first `n` bytes of the stream from position `pos`. -/
def keystream (P : Prims) (key : Arr 32) (nonce : Arr 24) (pos n : Nat) : Bytes :=
  (List.range n).map fun i => P.stream key nonce (pos + i)

/-- XOR with the key stream from byte 32 on. -/
def xorStream (P : Prims) (key : Arr 32) (nonce : Arr 24) (m : Bytes) : Bytes :=
  List.zipWith (· ^^^ ·) m (P.keystream key nonce 32 m.length)

/-- `box.Overhead` = `secretbox.Overhead` = `poly1305.TagSize`. -/
def overhead : Nat := 16

/-- `box.SealAfterPrecomputation(nil, m, nonce, key)` = `secretbox.Seal`: the one-time MAC key is the first 32 bytes of the
stream; the tag covers the ciphertext and precedes it. -/
def boxSeal (P : Prims) (key : Arr 32) (nonce : Arr 24) (m : Bytes) : Bytes :=
  let ct := P.xorStream key nonce m
  (P.poly1305 (P.keystream key nonce 0 32) ct).toList ++ ct

/-- `box.OpenAfterPrecomputation(nil, c, nonce, key)` = `secretbox.Open`. -/
def boxOpen (P : Prims) (key : Arr 32) (nonce : Arr 24) (c : Bytes) : Option Bytes :=
  if c.length < overhead then none
  else if (P.poly1305 (P.keystream key nonce 0 32) (c.drop overhead)).toList = c.take overhead then
    some (P.xorStream key nonce (c.drop overhead))
  else none

/-- `auth.Verify(digest, message, key)`. -/
def authVerify (P : Prims) (digest message : Bytes) (key : Arr 32) : Bool :=
  digest.length = 32 && decide (digest = (P.authSum message key).toList)

end Prims
end Verif
