/-
Go's `encoding/base64` StdEncoding, as used by base64/coding.go and signify/common.go. This is library code, not
code of /repo; the definitions follow the Go source of `Encoding.Encode`, `Encoding.decodeQuantum`, `Encoding.Decode`,
`Encoding.DecodeString`, `EncodedLen`, `DecodedLen`. Simplification: the offset inside CorruptInputError is dropped,
and the 8- and 4-character fast paths of Decode, which give the same bytes as decodeQuantum, are not modelled separately.
-/
import Verif.Model.Go

namespace Verif.B64

/-- The standard alphabet `A-Z a-z 0-9 + /`. -/
def encChar (v : Nat) : UInt8 :=
  if v < 26 then (65 + v).toUInt8
  else if v < 52 then (97 + (v - 26)).toUInt8
  else if v < 62 then (48 + (v - 52)).toUInt8
  else if v = 62 then 43
  else 47

/-- `decodeMap`: the value of an alphabet character, `none` for 0xff. -/
def decChar (c : UInt8) : Option Nat :=
  let n := c.toNat
  if 65 ≤ n ∧ n ≤ 90 then some (n - 65)
  else if 97 ≤ n ∧ n ≤ 122 then some (n - 97 + 26)
  else if 48 ≤ n ∧ n ≤ 57 then some (n - 48 + 52)
  else if n = 43 then some 62
  else if n = 47 then some 63
  else none

/-- `'='`. -/
def padChar : UInt8 := 61

/-- `EncodedLen(n)` of a padded encoding. -/
def encodedLen (n : Nat) : Nat := (n + 2) / 3 * 4

/-- `DecodedLen(n)` of a padded encoding. -/
def decodedLen (n : Nat) : Nat := n / 4 * 3

/-- The four characters of a complete group. -/
def encGroup (a b c : UInt8) : Bytes :=
  let v := a.toNat * 65536 + b.toNat * 256 + c.toNat
  [encChar (v / 2^18 % 64), encChar (v / 2^12 % 64), encChar (v / 2^6 % 64), encChar (v % 64)]

/-- `StdEncoding.Encode`. -/
def encode : Bytes → Bytes
  | [] => []
  | [a] =>
    let v := a.toNat * 65536
    [encChar (v / 2^18 % 64), encChar (v / 2^12 % 64), padChar, padChar]
  | [a, b] =>
    let v := a.toNat * 65536 + b.toNat * 256
    [encChar (v / 2^18 % 64), encChar (v / 2^12 % 64), encChar (v / 2^6 % 64), padChar]
  | a :: b :: c :: rest => encGroup a b c ++ encode rest

/-- CR or LF, skipped by the decoder. -/
def isNL (c : UInt8) : Bool := c == 10 || c == 13

/-- Result of decoding one quantum. -/
inductive Quantum where
  | stop                                       -- the input ended before the first character of a quantum
  | full (out : Bytes) (rest : Bytes)          -- four characters, three bytes
  | last (out : Bytes) (trailing : Bool)       -- padding seen; `trailing`: garbage follows (CorruptInputError)
  | corrupt                                    -- CorruptInputError, nothing written
  deriving DecidableEq, Repr

/-- The three bytes of four 6-bit values. -/
def groupBytes (v0 v1 v2 v3 : Nat) : Bytes :=
  let v := v0 * 2^18 + v1 * 2^12 + v2 * 2^6 + v3
  [(v / 65536).toUInt8, (v / 256).toUInt8, v.toUInt8]

/-- After the padding: skip newlines and look whether anything is left. -/
def hasTrailing (rest : Bytes) : Bool := !(rest.dropWhile isNL).isEmpty

/-- `decodeQuantum`: `acc` holds the values of the characters of this quantum read so far. -/
def quantum (acc : List Nat) : Bytes → Quantum
  | [] => if acc.isEmpty then .stop else .corrupt
  | c :: rest =>
    match decChar c with
    | some v =>
      match acc with
      | [v0, v1, v2] => .full (groupBytes v0 v1 v2 v) rest
      | _ => quantum (acc ++ [v]) rest
    | none =>
      if isNL c then quantum acc rest
      else if c != padChar then .corrupt
      else
        match acc with
        | [v0, v1] =>
          match rest.dropWhile isNL with
          | [] => .corrupt
          | c2 :: rest2 =>
            if c2 != padChar then .corrupt
            else .last ((groupBytes v0 v1 0 0).take 1) (hasTrailing rest2)
        | [v0, v1, v2] => .last ((groupBytes v0 v1 v2 0).take 2) (hasTrailing rest)
        | _ => .corrupt

/-- Result of `Decode`. -/
inductive Dec where
  | ok (out : Bytes)
  | corrupt            -- CorruptInputError
  | panic              -- index out of range: the destination is too short
  deriving DecidableEq, Repr

theorem quantum_full_lt {acc src out rest} (h : quantum acc src = .full out rest) : rest.length < src.length := by
  induction src generalizing acc with
  | nil => unfold quantum at h; split at h <;> simp at h
  | cons c cs ih =>
    unfold quantum at h
    split at h
    · split at h
      · cases h; simp
      · have := ih h; simp only [List.length_cons]; omega
    · split at h
      · have := ih h; simp only [List.length_cons]; omega
      · split at h
        · simp at h
        · split at h
          · split at h
            · simp at h
            · split at h <;> simp at h
          · simp at h
          · simp at h

/-- `Decode(dst, src)` with `len(dst) = cap`, having already produced `out`. A quantum that does not fit panics. -/
def decodeLoop (cap : Nat) (out : Bytes) (src : Bytes) : Dec :=
  match _h : quantum [] src with
  | .stop => .ok out
  | .corrupt => .corrupt
  | .full bs rest =>
    if out.length + bs.length ≤ cap then decodeLoop cap (out ++ bs) rest else .panic
  | .last bs trailing =>
    if out.length + bs.length ≤ cap then (if trailing then .corrupt else .ok (out ++ bs)) else .panic
termination_by src.length
decreasing_by exact quantum_full_lt _h

/-- `StdEncoding.Decode(dst, src)` with `len(dst) = cap`. -/
def decode (cap : Nat) (src : Bytes) : Dec := decodeLoop cap [] src

/-- `StdEncoding.DecodeString(s)`. -/
def decodeString (s : Bytes) : Dec := decode (decodedLen s.length) s

end Verif.B64
