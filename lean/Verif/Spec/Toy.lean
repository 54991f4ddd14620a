/-
Concrete primitives, used only to show that hypotheses can be met and that negations have witnesses. Not cryptography.
-/
import Verif.Model.Prims
import Verif.Model.World
import Verif.Model.Keys

namespace Verif

/-- Hash = first 64 bytes; public key = seed; a signature repeats the first half of the key; the pad repeats the first byte
of the passphrase. -/
def toy : Prims where
  sha512 bs := copyZ 64 bs
  edPublic seed := seed
  edSign key _ := copyZ 64 (key.toList.take 32)
  edVerify pk _ sig := decide (sig.toList.take 32 = pk.toList)
  bcrypt pw _ _ := Vector.replicate 64 (pw.headD 0)
  x25519 a b := xorArr a b
  x25519Base a := a
  hsalsa20 k := k
  stream k n i := (k.toList.getD (i % 32) 0) + (n.toList.getD (i % 24) 0)
  poly1305 k m := copyZ 16 (k.take 8 ++ m.take 8)
  authSum m k := copyZ 32 (k.toList.take 8 ++ m)

/-- An empty machine on which nothing fails. -/
def calm : World where
  fs _ := none
  umask := 0o022
  handles := []
  sched _ := .ok
  tick := 0
  tty := []
  bufs := []
  prompts := []
  rng i := UInt8.ofNat (i * i + 1)
  rngPos := 0
  stdout := []
  stderr := []

/-- A key (encrypted under the passphrase "A") that one passphrase opens and another does not. -/
def lockedKey : Private :=
  { keyAlgo := copyZ 2 b!"Ed", kdfAlgo := copyZ 2 b!"BK", kdfRounds := 42, salt := copyZ 16 [], checksum := copyZ 8 [],
    keyNum := copyZ 8 b!"12345678", key := Vector.replicate 64 65 }

end Verif
