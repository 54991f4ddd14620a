/-
The format of sealed data, independent of the model of crypto/crypto.go: header, chunks, nonces. Only the library functions
`boxSeal` (NaCl box) and `authSum` (NaCl auth) are taken from the primitives.
-/
import Verif.Model.Prims

namespace Verif.Spec

/-- The `k`-byte big-endian encoding of `n` (modulo `256 ^ k`). -/
def bigEndian (k n : Nat) : Bytes := (List.range k).map fun j => (n / 256 ^ (k - 1 - j)).toUInt8

/-- The nonce of chunk `i`. -/
def nonceOf (i : Nat) : Arr 24 := copyZ 24 (bigEndian 24 i)

/-- Consecutive pieces of `n` bytes, the last one possibly shorter. -/
def pieces (n : Nat) (hn : 0 < n) (m : Bytes) : List Bytes :=
  if m = [] then [] else m.take n :: pieces n hn (m.drop n)
termination_by m.length
decreasing_by
  have := List.length_pos_iff.mpr ‹_›
  simp only [List.length_drop]; omega

/-- Chunk count, ephemeral public key, MAC of both. -/
def headerOf (P : Prims) (shared epub : Arr 32) (count : Nat) : Bytes :=
  bigEndian 8 count ++ epub.toList ++ (P.authSum (bigEndian 8 count ++ epub.toList) shared).toList

/-- The sealings of the given pieces, the first one under the nonce of number `i`. -/
def sealedFrom (P : Prims) (shared : Arr 32) : (i : Nat) → List Bytes → List Bytes
  | _, [] => []
  | i, p :: ps => P.boxSeal shared (nonceOf i) p :: sealedFrom P shared (i + 1) ps

/-- Header and chunks for the given pieces. -/
def sealedStream (P : Prims) (shared epub : Arr 32) (ps : List Bytes) : Bytes :=
  headerOf P shared epub ps.length ++ (sealedFrom P shared 0 ps).flatten

/-- The comment line of an encrypted file. -/
def encryptedComment : Bytes := b!"untrusted comment: psignify encrypted file\n"

end Verif.Spec
