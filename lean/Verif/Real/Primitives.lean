/-
Executable primitives: SHA-512 (FIPS 180-4), HMAC-SHA-512-256, Salsa20/XSalsa20/HSalsa20, Poly1305 (RFC 8439 2.5), Blowfish and
bcrypt_pbkdf. They stand for the libraries outside /repo when the model is run on real data (`Real/TestData.lean`). No theorem about
the model depends on their details.
-/
import Verif.Model.Prims

namespace Verif.Real

/-! ### SHA-512 -/

/-- Initial hash value (5.3.5): square roots of the first eight primes. -/
def shaInit : Array UInt64 :=
  #[0x6a09e667f3bcc908, 0xbb67ae8584caa73b, 0x3c6ef372fe94f82b, 0xa54ff53a5f1d36f1, 0x510e527fade682d1,
   0x9b05688c2b3e6c1f, 0x1f83d9abfb41bd6b, 0x5be0cd19137e2179]

/-- Round constants (4.2.3): cube roots of the first eighty primes. -/
def shaK : Array UInt64 :=
  #[0x428a2f98d728ae22, 0x7137449123ef65cd, 0xb5c0fbcfec4d3b2f, 0xe9b5dba58189dbbc, 0x3956c25bf348b538,
   0x59f111f1b605d019, 0x923f82a4af194f9b, 0xab1c5ed5da6d8118, 0xd807aa98a3030242, 0x12835b0145706fbe,
   0x243185be4ee4b28c, 0x550c7dc3d5ffb4e2, 0x72be5d74f27b896f, 0x80deb1fe3b1696b1, 0x9bdc06a725c71235,
   0xc19bf174cf692694, 0xe49b69c19ef14ad2, 0xefbe4786384f25e3, 0x0fc19dc68b8cd5b5, 0x240ca1cc77ac9c65,
   0x2de92c6f592b0275, 0x4a7484aa6ea6e483, 0x5cb0a9dcbd41fbd4, 0x76f988da831153b5, 0x983e5152ee66dfab,
   0xa831c66d2db43210, 0xb00327c898fb213f, 0xbf597fc7beef0ee4, 0xc6e00bf33da88fc2, 0xd5a79147930aa725,
   0x06ca6351e003826f, 0x142929670a0e6e70, 0x27b70a8546d22ffc, 0x2e1b21385c26c926, 0x4d2c6dfc5ac42aed,
   0x53380d139d95b3df, 0x650a73548baf63de, 0x766a0abb3c77b2a8, 0x81c2c92e47edaee6, 0x92722c851482353b,
   0xa2bfe8a14cf10364, 0xa81a664bbc423001, 0xc24b8b70d0f89791, 0xc76c51a30654be30, 0xd192e819d6ef5218,
   0xd69906245565a910, 0xf40e35855771202a, 0x106aa07032bbd1b8, 0x19a4c116b8d2d0c8, 0x1e376c085141ab53,
   0x2748774cdf8eeb99, 0x34b0bcb5e19b48a8, 0x391c0cb3c5c95a63, 0x4ed8aa4ae3418acb, 0x5b9cca4f7763e373,
   0x682e6ff3d6b2b8a3, 0x748f82ee5defb2fc, 0x78a5636f43172f60, 0x84c87814a1f0ab72, 0x8cc702081a6439ec,
   0x90befffa23631e28, 0xa4506cebde82bde9, 0xbef9a3f7b2c67915, 0xc67178f2e372532b, 0xca273eceea26619c,
   0xd186b8c721c0c207, 0xeada7dd6cde0eb1e, 0xf57d4f7fee6ed178, 0x06f067aa72176fba, 0x0a637dc5a2c898a6,
   0x113f9804bef90dae, 0x1b710b35131c471b, 0x28db77f523047d84, 0x32caab7b40c72493, 0x3c9ebe0a15c9bebc,
   0x431d67c49c100d4c, 0x4cc5d4becb3e42b6, 0x597f299cfc657e2a, 0x5fcb6fab3ad6faec, 0x6c44198c4a475817]

def rotr (x : UInt64) (n : UInt64) : UInt64 := (x >>> n) ||| (x <<< (64 - n))

/-- Eight bytes, most significant first. -/
def be64 (b : List UInt8) : UInt64 := b.foldl (fun a x => (a <<< 8) ||| x.toUInt64) 0

/-- Split into pieces of `n` bytes (the last one may be short). -/
def groups (n : Nat) : (fuel : Nat) → List UInt8 → List (List UInt8)
  | 0, _ => []
  | fuel + 1, b => if b.isEmpty then [] else b.take n :: groups n fuel (b.drop n)

/-- Padding (5.1.2). -/
def shaPad (m : Bytes) : Bytes :=
  let z := (128 - (m.length + 17) % 128) % 128
  m ++ [0x80] ++ List.replicate (z + 8) 0 ++ (List.range 8).map fun i => UInt8.ofNat (m.length * 8 / 256 ^ (7 - i))

/-- Message schedule (6.4.2 step 1). -/
def shaSchedule (block : List UInt8) : Array UInt64 :=
  (List.range 64).foldl (init := ((groups 8 16 block).map be64).toArray) fun w i =>
    let x := w[i + 1]!
    let y := w[i + 14]!
    let s0 := rotr x 1 ^^^ rotr x 8 ^^^ (x >>> 7)
    let s1 := rotr y 19 ^^^ rotr y 61 ^^^ (y >>> 6)
    w.push (w[i]! + s0 + w[i + 9]! + s1)

/-- Compression (6.4.2 steps 2 to 4). -/
def shaBlock (h : Array UInt64) (block : List UInt8) : Array UInt64 :=
  let w := shaSchedule block
  let s := (List.range 80).foldl (init := h) fun s i =>
    let a := s[0]!; let b := s[1]!; let c := s[2]!; let d := s[3]!
    let e := s[4]!; let f := s[5]!; let g := s[6]!; let hh := s[7]!
    let t1 := hh + (rotr e 14 ^^^ rotr e 18 ^^^ rotr e 41) + ((e &&& f) ^^^ ((~~~e) &&& g)) + shaK[i]! + w[i]!
    let t2 := (rotr a 28 ^^^ rotr a 34 ^^^ rotr a 39) + ((a &&& b) ^^^ (a &&& c) ^^^ (b &&& c))
    #[t1 + t2, a, b, c, d + t1, e, f, g]
  (List.range 8).foldl (init := #[]) fun r i => r.push (h[i]! + s[i]!)

def sha512 (m : Bytes) : Arr 64 :=
  let p := shaPad m
  let h := (groups 128 (p.length / 128) p).foldl shaBlock shaInit
  Vector.ofFn fun i => (h[i.val / 8]! >>> (UInt64.ofNat (56 - 8 * (i.val % 8)))).toUInt8

/-- `auth.Sum`: HMAC-SHA-512 (RFC 2104), first 32 bytes. -/
def hmac (m : Bytes) (key : Arr 32) : Arr 32 :=
  let k := key.toList ++ List.replicate 96 0
  let inner := sha512 (k.map (· ^^^ 0x36) ++ m)
  copyZ 32 (sha512 (k.map (· ^^^ 0x5c) ++ inner.toList)).toList

/-! ### Salsa20 -/

/-- Four bytes, least significant first. -/
def le32 (b : List UInt8) : UInt32 := b.foldr (fun x a => (a <<< 8) ||| x.toUInt32) 0

def bytes32 (x : UInt32) : List UInt8 := [x.toUInt8, (x >>> 8).toUInt8, (x >>> 16).toUInt8, (x >>> 24).toUInt8]

def rotl (x : UInt32) (n : UInt32) : UInt32 := (x <<< n) ||| (x >>> (32 - n))

/-- x[a] ^= (x[b] + x[c]) <<< n -/
def mix (x : Array UInt32) (q : Nat × Nat × Nat × UInt32) : Array UInt32 :=
  x.set! q.1 (x[q.1]! ^^^ rotl (x[q.2.1]! + x[q.2.2.1]!) q.2.2.2)

/-- The quarter round on four positions. -/
def quarter (a b c d : Nat) : List (Nat × Nat × Nat × UInt32) := [(b, a, d, 7), (c, b, a, 9), (d, c, b, 13), (a, d, c, 18)]

/-- A column round and a row round. -/
def doubleRound : List (Nat × Nat × Nat × UInt32) :=
  quarter 0 4 8 12 ++ quarter 5 9 13 1 ++ quarter 10 14 2 6 ++ quarter 15 3 7 11 ++
  quarter 0 1 2 3 ++ quarter 5 6 7 4 ++ quarter 10 11 8 9 ++ quarter 15 12 13 14

def rounds20 (x : Array UInt32) : Array UInt32 := (List.range 10).foldl (fun x _ => doubleRound.foldl mix x) x

/-- The matrix for a key and 16 bytes of input. -/
def salsaMatrix (key : List UInt8) (inp : List UInt8) : Array UInt32 :=
  let k (i : Nat) := le32 ((key.drop (4 * i)).take 4)
  let n (i : Nat) := le32 ((inp.drop (4 * i)).take 4)
  #[0x61707865, k 0, k 1, k 2, k 3, 0x3320646e, n 0, n 1, n 2, n 3, 0x79622d32, k 4, k 5, k 6, k 7, 0x6b206574]

def hsalsa20 (key : List UInt8) (inp : List UInt8) : List UInt8 :=
  let z := rounds20 (salsaMatrix key inp)
  ([0, 5, 10, 15, 6, 7, 8, 9].map fun i => bytes32 z[i]!).flatten

def salsa20Block (key nonce8 : List UInt8) (counter : Nat) : Array UInt8 :=
  let x := salsaMatrix key (nonce8 ++ (List.range 8).map fun i => UInt8.ofNat (counter / 256 ^ i))
  let z := rounds20 x
  (((List.range 16).map fun i => bytes32 (x[i]! + z[i]!)).flatten).toArray

/-- XSalsa20, byte by byte. -/
def stream (key : Arr 32) (nonce : Arr 24) (pos : Nat) : UInt8 :=
  (salsa20Block (hsalsa20 key.toList (nonce.toList.take 16)) (nonce.toList.drop 16) (pos / 64))[pos % 64]!

/-! ### Poly1305 -/

def leN (b : List UInt8) : Nat := b.foldr (fun x a => x.toNat + 256 * a) 0

def poly1305 (key : Bytes) (m : Bytes) : Arr 16 :=
  let r := leN (key.take 16) &&& 0x0ffffffc0ffffffc0ffffffc0fffffff
  let s := leN ((key.drop 16).take 16)
  let acc := (groups 16 (m.length / 16 + 1) m).foldl (init := 0) fun acc b =>
    (acc + leN b + 2 ^ (8 * b.length)) * r % (2 ^ 130 - 5)
  Vector.ofFn fun i => UInt8.ofNat ((acc + s) / 256 ^ i.val)

/-! ### bcrypt_pbkdf -/

/-- 2^n · arctan (1/k), rounded down term by term. -/
def arctanInv (k n : Nat) : Int :=
  let rec go (fuel : Nat) (term : Nat) (d : Nat) (acc : Int) : Int :=
    match fuel with
    | 0 => acc
    | fuel + 1 => if term = 0 then acc else go fuel (term / (k * k)) (d + 2) (acc + (if d % 4 = 1 then 1 else -1) * ((term / d : Nat) : Int))
  go n (2 ^ n / k) 1 0

/-- The hexadecimal digits of π after the point, 32 bits each: the initial state of Blowfish (P-array, then S-boxes). -/
def piWords (count : Nat) : Array UInt32 :=
  let n := 32 * count + 64
  let pi := (16 * arctanInv 5 n - 4 * arctanInv 239 n).toNat
  ((List.range count).map fun i => UInt32.ofNat (pi / 2 ^ (n - 32 * (i + 1)))).toArray

/-- Blowfish state: 18 words of P and 4·256 words of S in one array. -/
abbrev Blow := Array UInt32

def blowF (s : Blow) (x : UInt32) : UInt32 :=
  ((s[18 + (x >>> 24).toNat]! + s[274 + ((x >>> 16) &&& 255).toNat]!) ^^^ s[530 + ((x >>> 8) &&& 255).toNat]!) +
    s[786 + (x &&& 255).toNat]!

def blowEncrypt (s : Blow) (l r : UInt32) : UInt32 × UInt32 :=
  let rec go (s : Blow) (i : Nat) (fuel : Nat) (l r : UInt32) : UInt32 × UInt32 :=
    match fuel with
    | 0 => (r ^^^ s[17]!, l ^^^ s[16]!)
    | fuel + 1 =>
      let l := l ^^^ s[i]!
      go s (i + 1) fuel (r ^^^ blowF s l) l
  go s 0 16 l r

/-- The next word of a cyclic key from byte `i`. -/
def cyclic (k : Array UInt8) (i : Nat) : UInt32 :=
  let b (j : Nat) : UInt32 := (k[(i + j) % k.size]!).toUInt32
  (b 0 <<< 24) ||| (b 1 <<< 16) ||| (b 2 <<< 8) ||| b 3

/-- `blowfish.ExpandKey` (with empty salt) and the salted variant of `NewSaltedCipher`. -/
def blowExpand (salt : Array UInt8) (key : Array UInt8) (s : Blow) : Blow :=
  let s := (List.range 18).foldl (fun (s : Blow) i => s.set! i (s[i]! ^^^ cyclic key (4 * i))) s
  let rec go (fuel : Nat) (i : Nat) (l r : UInt32) (s : Blow) : Blow :=
    match fuel with
    | 0 => s
    | fuel + 1 =>
      let l := if salt.size = 0 then l else l ^^^ cyclic salt (4 * i)
      let r := if salt.size = 0 then r else r ^^^ cyclic salt (4 * i + 4)
      let x := blowEncrypt s l r
      go fuel (i + 2) x.1 x.2 ((s.set! i x.1).set! (i + 1) x.2)
  go 521 0 0 0 s

def iter {α : Type} (n : Nat) (f : α → α) (a : α) : α :=
  match n with
  | 0 => a
  | n + 1 => iter n f (f a)

/-- `bcryptHash`. -/
def bcryptHash (init : Blow) (pass salt : Array UInt8) : List UInt8 :=
  let s := blowExpand salt pass init
  let s := iter 64 (fun s => blowExpand #[] pass (blowExpand #[] salt s)) s
  let magic := b!"OxychromaticBlowfishSwatDynamite"
  ((groups 8 4 magic).map fun g =>
    let x := iter 64 (fun (x : UInt32 × UInt32) => blowEncrypt s x.1 x.2) (cyclic (g.take 4).toArray 0, cyclic (g.drop 4).toArray 0)
    bytes32 x.1 ++ bytes32 x.2).flatten

/-- `bcrypt_pbkdf.Key(password, salt, rounds, 64)`. -/
def bcryptPbkdf (password : Bytes) (salt : Arr 16) (rounds : Nat) : Arr 64 :=
  let init := piWords 1042
  let pass := (sha512 password).toArray
  let out (block : Nat) : List UInt8 :=
    let t := bcryptHash init pass (sha512 (salt.toList ++ [0, 0, 0, UInt8.ofNat block])).toArray
    (iter (rounds - 1) (fun (x : List UInt8 × List UInt8) =>
      let t := bcryptHash init pass (sha512 x.1).toArray
      (t, List.zipWith (· ^^^ ·) x.2 t)) (t, t)).2
  let a := (out 1).toArray
  let b := (out 2).toArray
  Vector.ofFn fun i => if i.val % 2 = 0 then a[i.val / 2]! else b[i.val / 2]!

end Verif.Real
