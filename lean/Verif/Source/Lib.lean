/-
The libraries that the repository calls, as far as it calls them.

What they do with the outside world is a parameter, `Sys`: the theorems about the text hold whatever files, terminals and
random numbers do. Cryptography is the parameter `Prims` of the model. The package internal/edwards25519, which
belongs to the repository, appears here by what `Verif.Source.EdVerify` proves of its text: `edFns`. (That, too, is a
parameter, `Sys.ed`, so that evaluation does not enter these functions.)

Simplifications, besides those of `Verif.Model`:
* `bytes.Buffer` is its unread text. The slice returned by `Bytes` is a copy; nothing in the repository writes to the
  buffer after it.
* `bufio.Scanner` takes the whole text of its buffer at once; nothing else reads from that buffer.
* `StdEncoding.Decode` leaves the destination as it is, and returns the count 0, if the input is not base64: `Decoder.Read`
  passes the count on to callers that drop it and do not look at the destination.
* Slices returned by libraries have no room for more elements.
* `ExtendedGroupElement.FromBytes` leaves its receiver as it is if it fails; its only caller returns at once.
* Closing a file succeeds and does nothing.
-/
import Verif.Source.LibBase
import Verif.Model.Crypto

namespace Verif.Src

open M (stuck panic the check)

variable {ω : Type}

/-- What the functions of internal/edwards25519 compute. -/
structure EdFns where
  fromBytes : Arr 32 → Option Ed.Ext
  sub : Ed.Fe → Ed.Fe → Ed.Fe
  add : Ed.Fe → Ed.Fe → Ed.Fe
  mul : Ed.Fe → Ed.Fe → Ed.Fe
  invert : Ed.Fe → Ed.Fe
  toBytes : Ed.Fe → Arr 32 × Ed.Fe

/-- The functions of the model, which `Verif.Source.EdVerify` proves their text to compute. -/
def edFns : EdFns := ⟨Ed.extFromBytes, Ed.feSub, Ed.feAdd, Ed.feMul, Ed.feInvert, Ed.feToBytes⟩

/-- The outside world: what system calls do to a state `ω`. Files that are open have numbers. -/
structure Sys (ω : Type) where
  prims : Prims
  readFile : Bytes → Act ω Bytes
  writeFile : Bytes → Bytes → Nat → Act ω Unit
  openFile : Bytes → Act ω Nat
  create : Bytes → Act ω Nat
  size : Nat → Act ω Nat
  read : Nat → Reader ω
  write : Nat → Writer ω
  entropy : (n : Nat) → Act ω (Arr n)
  readPassword : Act ω Bytes
  print : Bytes → Act ω Unit
  ed : EdFns := edFns

/-- The error of a library. -/
def libErr (e : GoErr) : Val := .err (.lib e)

/-- A call with nothing but an error as its result. -/
def failing (e : GoErr) : M ω (List Val) := return [libErr e]

/-- A call with a value and an error as its results. -/
def failing2 (v : Val) (e : GoErr) : M ω (List Val) := return [v, libErr e]

/-- Copy the bytes of an array into a slice. -/
def fillArr {n : Nat} (d : Val) (a : Arr n) : M ω Unit := do
  match d, encArr a with
  | .slice l off len _, .arr ws => do
    match ← load l with
    | .arr vs => store l (.arr (splice vs off (ws.take len)))
    | _ => stuck
  | _, _ => stuck

/-- A field element at a pointer. -/
def feAt (v : Val) : M ω Ed.Fe := do
  let l ← locOf v
  the (EdSrc.decFe (← load l))

/-- Overwrite what a pointer points to. -/
def putAt (v u : Val) : M ω Unit := do
  let l ← locOf v
  store l u

/-! ### Values -/

def libValue (p x : Id) : Option Val :=
  if p = id!"base64" ∧ x = id!"StdEncoding" then some (.obj id!"StdEncoding" 0)
  else if p = id!"binary" ∧ x = id!"BigEndian" then some (.obj id!"BigEndian" 0)
  else if p = id!"rand" ∧ x = id!"Reader" then some (.obj id!"Reader" 0)
  else if p = id!"io" ∧ x = id!"EOF" then some (libErr .eof)
  else if p = id!"ed25519" ∧ x = id!"SignatureSize" then some (.int .untyped 64)
  else if p = id!"ed25519" ∧ x = id!"PrivateKeySize" then some (.int .untyped 64)
  else if p = id!"box" ∧ x = id!"Overhead" then some (.int .untyped 16)
  else none

def libZero (p x : Id) : Option Val :=
  if p = id!"bytes" ∧ x = id!"Buffer" then some (.str [])
  else if p = id!"io" ∧ x = id!"Writer" then some .nil
  else if p = id!"io" ∧ x = id!"Reader" then some .nil
  else if p = id!"edwards25519" ∧ x = id!"FieldElement" then some (EdSrc.encFe Ed.feZero)
  else if p = id!"edwards25519" ∧ x = id!"ExtendedGroupElement" then
    some (EdSrc.encExt ⟨Ed.feZero, Ed.feZero, Ed.feZero, Ed.feZero⟩)
  else none

/-! ### Functions, by package -/

section
variable (S : Sys ω)

def libBytes (f : Id) (vs : List Val) : M ω (List Val) :=
  if f = id!"NewBuffer" then args1 vs fun a => do return [← newPtr (.str (← bytesOf a))]
  else if f = id!"NewBufferString" then args1 vs fun a => do return [← newPtr (.str (← strOf a))]
  else if f = id!"Equal" then args2 vs fun a b => do
    let x ← bytesOf a
    let y ← bytesOf b
    return [.bool (decide (x = y))]
  else stuck

def libBufio (f : Id) (vs : List Val) : M ω (List Val) :=
  if f = id!"NewScanner" then args1 vs fun a => do
    let l ← locOf a
    let t ← textAt l
    return [← newPtr (.arr [.str t, .str []])]
  else stuck

def libStrings (f : Id) (vs : List Val) : M ω (List Val) :=
  args2 vs fun a b => do
    let s ← strOf a
    let p ← strOf b
    if f = id!"HasPrefix" then return [.bool (p.isPrefixOf s)]
    else if f = id!"TrimPrefix" then return [.str (if p.isPrefixOf s then s.drop p.length else s)]
    else if f = id!"TrimSuffix" then return [.str (trimSuffix s p)]
    else stuck

def libFilepath (f : Id) (vs : List Val) : M ω (List Val) :=
  if f = id!"Base" then args1 vs fun a => do return [.str (pathBase (← strOf a))]
  else stuck

def libErrors (f : Id) (vs : List Val) : M ω (List Val) :=
  if f = id!"New" then args1 vs fun a => do return [.err (.text (← strOf a) none)]
  else stuck

def libFmt (f : Id) (vs : List Val) : M ω (List Val) :=
  if f = id!"Errorf" then args2 vs fun a n => do return [.err (.text (← strOf a) (some (← intOf n)))]
  else if f = id!"Printf" then args1 vs fun a => do act (S.print (← strOf a)) (fun _ => return []) (fun _ => stuck)
  else if f = id!"Println" then args0 vs (act (S.print [10]) (fun _ => return []) (fun _ => stuck))
  else stuck

def libIoutil (f : Id) (vs : List Val) : M ω (List Val) :=
  if f = id!"ReadFile" then args1 vs fun a => do
    act (S.readFile (← strOf a)) (fun d => do return [← newBytes d, .nil]) (failing2 .nil)
  else if f = id!"WriteFile" then args3 vs fun a d m => do
    let p ← strOf a
    let bs ← bytesOf d
    let k ← intOf m
    act (S.writeFile p bs k.toNat) (fun _ => return [.nil]) failing
  else stuck

def libOs (f : Id) (vs : List Val) : M ω (List Val) :=
  if f = id!"Open" then args1 vs fun a => do
    act (S.openFile (← strOf a)) (fun h => return [.obj id!"File" h, .nil]) (failing2 .nil)
  else if f = id!"Create" then args1 vs fun a => do
    act (S.create (← strOf a)) (fun h => return [.obj id!"File" h, .nil]) (failing2 .nil)
  else stuck

def libTerminal (f : Id) (vs : List Val) : M ω (List Val) :=
  if f = id!"ReadPassword" then args1 vs fun _ =>
    act S.readPassword (fun d => do return [← newBytes d, .nil]) (failing2 .nil)
  else stuck

def libRand (f : Id) (vs : List Val) : M ω (List Val) :=
  if f = id!"Read" then args1 vs fun d => do
    let n ← lengthOf d
    act (S.entropy n) (fun a => do fillArr d a; return [.int .int n, .nil]) (failing2 (.int .int 0))
  else stuck

def libBinary (f : Id) (vs : List Val) : M ω (List Val) :=
  if f = id!"Write" then args3 vs fun b _ v => do
    let l ← locOf b
    let t ← textAt l
    let k ← intOf v
    store l (.str (t ++ be32 (BitVec.ofInt 32 k)))
    return [.nil]
  else if f = id!"Read" then args3 vs fun b _ d => do
    let l ← locOf b
    let t ← textAt l
    match binReadU32 t with
    | .ok (v, rest) => do
      store l (.str rest)
      putAt d (.int .uint32 v.toNat)
      return [.nil]
    | .err e => failing e
    | _ => stuck
  else stuck

def libSha512 (f : Id) (vs : List Val) : M ω (List Val) :=
  if f = id!"Sum512" then args1 vs fun a => do return [encArr (S.prims.sha512 (← bytesOf a))]
  else stuck

def libBcrypt (f : Id) (vs : List Val) : M ω (List Val) :=
  if f = id!"Key" then args4 vs fun pw salt rounds n => do
    let p ← bytesOf pw
    let s ← the (toArr 16 (← bytesOf salt))
    let r ← intOf rounds
    let k ← intOf n
    if k = 64 then
      match S.prims.bcryptKey p s r with
      | .ok a => do return [← newArr a, .nil]
      | .err e => failing2 .nil e
      | _ => stuck
    else stuck
  else stuck

def libEd25519 (f : Id) (vs : List Val) : M ω (List Val) :=
  if f = id!"PrivateKey" then args1 vs fun v => return [v]
  else if f = id!"PublicKey" then args1 vs fun v => return [v]
  else if f = id!"Sign" then args2 vs fun k m => do
    let key ← the (toArr 64 (← bytesOf k))
    return [← newArr (S.prims.edSign key (← bytesOf m))]
  else if f = id!"Verify" then args3 vs fun k m s => do
    let key ← the (toArr 32 (← bytesOf k))
    let msg ← bytesOf m
    let sig ← the (toArr 64 (← bytesOf s))
    return [.bool (S.prims.edVerify key msg sig)]
  else if f = id!"GenerateKey" then args1 vs fun _ =>
    act (S.entropy 32) (fun seed => do
      let pub ← newArr (S.prims.edPublic seed)
      let priv ← newArr (copyZ 64 (seed.toList ++ (S.prims.edPublic seed).toList))
      return [pub, priv, .nil]) (fun e => return [.nil, .nil, libErr e])
  else stuck

def libBox (f : Id) (vs : List Val) : M ω (List Val) :=
  if f = id!"GenerateKey" then args1 vs fun _ =>
    act (S.entropy 32) (fun priv => do
      let epub ← newPtr (encArr (S.prims.x25519Base priv))
      let epriv ← newPtr (encArr priv)
      return [epub, epriv, .nil]) (fun e => return [.nil, .nil, libErr e])
  else if f = id!"Precompute" then args3 vs fun d p k => do
    let peer ← arrAt 32 p
    let priv ← arrAt 32 k
    putAt d (encArr (S.prims.precompute peer priv))
    return []
  else if f = id!"SealAfterPrecomputation" then args4 vs fun _ m n k => do
    let msg ← bytesOf m
    let nonce ← arrAt 24 n
    let key ← arrAt 32 k
    return [← newBytes (S.prims.boxSeal key nonce msg)]
  else if f = id!"OpenAfterPrecomputation" then args4 vs fun _ m n k => do
    let msg ← bytesOf m
    let nonce ← arrAt 24 n
    let key ← arrAt 32 k
    match S.prims.boxOpen key nonce msg with
    | some out => do return [← newBytes out, .bool true]
    | none => return [.nil, .bool false]
  else stuck

def libAuth (f : Id) (vs : List Val) : M ω (List Val) :=
  if f = id!"Sum" then args2 vs fun m k => do
    let msg ← bytesOf m
    let key ← arrAt 32 k
    return [← newPtr (encArr (S.prims.authSum msg key))]
  else if f = id!"Verify" then args3 vs fun d m k => do
    let digest ← bytesOf d
    let msg ← bytesOf m
    let key ← arrAt 32 k
    return [.bool (S.prims.authVerify digest msg key)]
  else stuck

/-- edwards25519.go: what the functions do is proved of their text in `Verif.Source.EdVerify`. -/
def libEdwards (f : Id) (vs : List Val) : M ω (List Val) :=
  if f = id!"FeOne" then args1 vs fun d => do putAt d (EdSrc.encFe Ed.feOne); return []
  else if f = id!"FeSub" then args3 vs fun d a b => do
    let x ← feAt a
    let y ← feAt b
    putAt d (EdSrc.encFe (S.ed.sub x y)); return []
  else if f = id!"FeAdd" then args3 vs fun d a b => do
    let x ← feAt a
    let y ← feAt b
    putAt d (EdSrc.encFe (S.ed.add x y)); return []
  else if f = id!"FeMul" then args3 vs fun d a b => do
    let x ← feAt a
    let y ← feAt b
    putAt d (EdSrc.encFe (S.ed.mul x y)); return []
  else if f = id!"FeInvert" then args2 vs fun d a => do
    let x ← feAt a
    putAt d (EdSrc.encFe (S.ed.invert x)); return []
  else if f = id!"FeToBytes" then args2 vs fun d a => do
    let x ← feAt a
    putAt d (encArr (S.ed.toBytes x).1)
    putAt a (EdSrc.encFe (S.ed.toBytes x).2)
    return []
  else stuck

/-- A function of a library. -/
def libFunc (p f : Id) (vs : List Val) : M ω (List Val) :=
  if p = id!"bytes" then libBytes f vs
  else if p = id!"bufio" then libBufio f vs
  else if p = id!"strings" then libStrings f vs
  else if p = id!"filepath" then libFilepath f vs
  else if p = id!"errors" then libErrors f vs
  else if p = id!"fmt" then libFmt S f vs
  else if p = id!"ioutil" then libIoutil S f vs
  else if p = id!"os" then libOs S f vs
  else if p = id!"terminal" then libTerminal S f vs
  else if p = id!"rand" then libRand S f vs
  else if p = id!"binary" then libBinary f vs
  else if p = id!"sha512" then libSha512 S f vs
  else if p = id!"bcrypt_pbkdf" then libBcrypt S f vs
  else if p = id!"ed25519" then libEd25519 S f vs
  else if p = id!"box" then libBox S f vs
  else if p = id!"auth" then libAuth S f vs
  else if p = id!"edwards25519" then libEdwards S f vs
  else stuck

/-! ### Methods -/

/-- Open files. -/
def libFile (h : Nat) (m : Id) (vs : List Val) : M ω (List Val) :=
  if m = id!"Read" then args1 vs fun d => do
    let n ← lengthOf d
    act (S.read h n) (fun bs => do fill d bs; return [.int .int bs.length, .nil]) (failing2 (.int .int 0))
  else if m = id!"Write" then args1 vs fun d => do
    let bs ← bytesOf d
    act (S.write h bs) (fun n => return [.int .int n, .nil]) (failing2 (.int .int 0))
  else if m = id!"Close" then args0 vs (return [.nil])
  else if m = id!"Stat" then args0 vs (act (S.size h) (fun n => return [.obj id!"FileInfo" n, .nil]) (failing2 .nil))
  else stuck

/-- `base64.StdEncoding`. -/
def libStdEncoding (m : Id) (vs : List Val) : M ω (List Val) :=
  if m = id!"EncodedLen" then args1 vs fun n => do return [.int .int (B64.encodedLen (← intOf n).toNat)]
  else if m = id!"Encode" then args2 vs fun d s => do
    let bs ← bytesOf s
    let n ← lengthOf d
    check (decide (B64.encodedLen bs.length ≤ n))
    fill d (B64.encode bs)
    return []
  else if m = id!"Decode" then args2 vs fun d s => do
    let bs ← bytesOf s
    let n ← lengthOf d
    match B64.decode n bs with
    | .ok out => do
      fill d out
      return [.int .int out.length, .nil]
    | .corrupt => failing2 (.int .int 0) .corruptBase64
    | .panic => panic
  else if m = id!"DecodeString" then args1 vs fun a => do
    match B64.decodeString (← strOf a) with
    | .ok out => do return [← newBytes out, .nil]
    | .corrupt => failing2 .nil .corruptBase64
    | .panic => panic
  else stuck

/-- `binary.BigEndian`. -/
def libBigEndian (m : Id) (vs : List Val) : M ω (List Val) :=
  if m = id!"PutUint64" then args2 vs fun d v => do
    let k ← intOf v
    let n ← lengthOf d
    check (decide (8 ≤ n))
    fill d (be64 k.toNat)
    return []
  else if m = id!"Uint64" then args1 vs fun a => do
    let bs ← bytesOf a
    check (decide (8 ≤ bs.length))
    return [.int .uint64 (beVal (bs.take 8))]
  else stuck

/-- `bytes.Buffer`, at a place holding its text. -/
def libBuffer (l : Loc) (t : Bytes) (m : Id) (vs : List Val) : M ω (List Val) :=
  if m = id!"Write" then args1 vs fun a => do
    let bs ← bytesOf a
    store l (.str (t ++ bs))
    return [.int .int bs.length, .nil]
  else if m = id!"WriteByte" then args1 vs fun a => do
    let k ← intOf a
    store l (.str (t ++ [UInt8.ofNat k.toNat]))
    return [.nil]
  else if m = id!"Bytes" then args0 vs do return [← newBytes t]
  else if m = id!"Read" then args1 vs fun d => do
    let n ← lengthOf d
    match bufRead n t with
    | .ok (got, rest) => do
      store l (.str rest)
      fill d got
      return [.int .int got.length, .nil]
    | .err e => failing2 (.int .int 0) e
    | _ => stuck
  else stuck

/-- `bufio.Scanner`, at a place holding the text that is left and the last line. -/
def libScanner (l : Loc) (t line : Bytes) (m : Id) (vs : List Val) : M ω (List Val) :=
  if m = id!"Scan" then args0 vs (match scanLine t with
    | some (line, rest) => do
      store l (.arr [.str rest, .str line])
      return [.bool true]
    | none => return [.bool false])
  else if m = id!"Text" then args0 vs (return [.str line])
  else stuck

/-- `ExtendedGroupElement.FromBytes`, at a place holding the element; proved of its text in `Verif.Source.EdVerify`. -/
def libPoint (l : Loc) (m : Id) (vs : List Val) : M ω (List Val) :=
  if m = id!"FromBytes" then args1 vs fun a => do
    let key ← arrAt 32 a
    match S.ed.fromBytes key with
    | some A => do
      store l (EdSrc.encExt A)
      return [.bool true]
    | none => return [.bool false]
  else stuck

/-- A method of a library. -/
def libMethod (r : Val) (m : Id) (vs : List Val) : M ω (List Val) :=
  match r with
  | .obj k h =>
    if k = id!"File" then libFile S h m vs
    else if k = id!"FileInfo" then if m = id!"Size" then args0 vs (return [.int .int64 h]) else stuck
    else if k = id!"StdEncoding" then libStdEncoding m vs
    else if k = id!"BigEndian" then libBigEndian m vs
    else stuck
  | .ptr l => do
    match ← load l with
    | .str t => libBuffer l t m vs
    | .arr [.str t, .str line] => libScanner l t line m vs
    | .struct _ _ => libPoint S l m vs
    | _ => stuck
  | _ => stuck

/-- The libraries. -/
def lib : Extern ω where
  value := libValue
  func := libFunc S
  method := libMethod S
  zero := libZero

end

/-! ### The libraries are local -/

namespace Emb

variable {E : Emb} {α β : Type}

theorem renV_libErr (e : GoErr) : E.renV (libErr e) = libErr e := rfl

theorem comm_feAt (h : E.Valid) (v : Val) : E.Comm id (feAt v : M ω Ed.Fe) (feAt (E.renV v)) := by
  unfold feAt
  refine Comm.bind (comm_locOf v) fun l => Comm.bind (comm_load h l) fun u => Comm.the fun f hf => ?_
  obtain rfl := EdSrc.decFe_some hf
  rw [E.renV_plain _ (EdSrc.encFe_plain f)]
  rfl

theorem comm_putAt (h : E.Valid) (v u : Val) : E.Comm id (putAt v u : M ω Unit) (putAt (E.renV v) (E.renV u)) := by
  unfold putAt
  exact Comm.bind (comm_locOf v) fun l => comm_store h l u

theorem comm_fillArr (h : E.Valid) {n : Nat} (d : Val) (a : Arr n) : E.Comm id (fillArr d a : M ω Unit) (fillArr (E.renV d) a) := by
  unfold fillArr
  have ea : encArr a = .arr ((List.range n).map fun i => .int .uint8 (EdSrc.intsOf a i)) := rfl
  cases d <;> simp only [renV, ea] <;> first | exact Comm.stuck _ _ | skip
  refine Comm.bind (comm_load h _) fun u => ?_
  cases u <;> simp only [renV] <;> first | exact Comm.stuck _ _ | skip
  next l off len cap vs =>
    have := comm_store (ω := ω) h l (.arr (splice vs off
      (((List.range n).map fun i => .int .uint8 (EdSrc.intsOf a i)).take len)))
    rw [renV, renVs_splice, renVs_take, renVs_eq, renVs_eq, List.map_map] at this
    rw [renVs_eq]
    exact this

theorem encArr_plain {n : Nat} (a : Arr n) : (encArr a).refers 0 = false := by
  unfold encArr
  exact EdSrc.encInts_plain _ _ _

theorem comm_newPtrP {v : Val} (h : v.refers 0 = false) : E.Comm E.renV (newPtr v : M ω Val) (newPtr v) := by
  have := comm_newPtr (E := E) (ω := ω) v
  rwa [E.renV_plain v h] at this

theorem comm_storeP (hv : E.Valid) (l : Loc) {v : Val} (h : v.refers 0 = false) :
    E.Comm id (store l v : M ω Unit) (store (E.ren l) v) := by
  have := comm_store (E := E) (ω := ω) hv l v
  rwa [E.renV_plain v h] at this

theorem comm_putAtP (hv : E.Valid) (d : Val) {v : Val} (h : v.refers 0 = false) :
    E.Comm id (putAt d v : M ω Unit) (putAt (E.renV d) v) := by
  have := comm_putAt (E := E) (ω := ω) hv d v
  rwa [E.renV_plain v h] at this

theorem renV_encArr' {n : Nat} (a : Arr n) : E.renV (encArr a) = encArr a := E.renV_plain _ (encArr_plain a)

theorem Comm.bindId {q : β → β} {x y : M ω α} {f g : α → M ω β} (h : E.Comm id x y) (k : ∀ a, E.Comm q (f a) (g a)) :
    E.Comm q (x >>= f) (y >>= g) := Comm.bind h k

theorem Comm.ite {c : Prop} [Decidable c] {q : β → β} {x y x' y' : M ω β} (h : E.Comm q x y) (k : E.Comm q x' y') :
    E.Comm q (if c then x else x') (if c then y else y') := by
  by_cases hc : c
  · rw [if_pos hc, if_pos hc]; exact h
  · rw [if_neg hc, if_neg hc]; exact k

/-- Prove that a computation built from local computations is local. -/
macro "local_lib" h:term : tactic => `(tactic| repeat' first
  | exact Comm.stuck _ _
  | exact Comm.panic _
  | refine Comm.ite ?_ ?_
  | refine comm_args0 ?_
  | refine comm_args1 fun _ => ?_
  | refine comm_args2 fun _ _ => ?_
  | refine comm_args3 fun _ _ _ => ?_
  | refine comm_args4 fun _ _ _ _ => ?_
  | refine comm_act (fun _ => ?_) (fun _ => ?_)
  | refine Comm.bindId (comm_bytesOf $h _) fun _ => ?_
  | refine Comm.bindId (comm_strOf _) fun _ => ?_
  | refine Comm.bindId (comm_intOf _) fun _ => ?_
  | refine Comm.bind (comm_locOf _) fun _ => ?_
  | refine Comm.bindId (comm_lengthOf _) fun _ => ?_
  | refine Comm.bindId (comm_textAt $h _) fun _ => ?_
  | refine Comm.bindId (comm_arrAt $h _ _) fun _ => ?_
  | refine Comm.bindId (comm_feAt $h _) fun _ => ?_
  | refine Comm.bind (comm_newBytes _) fun _ => ?_
  | refine Comm.bind (comm_newArr _) fun _ => ?_
  | refine Comm.bind (comm_newPtrP rfl) fun _ => ?_
  | refine Comm.bind (comm_newPtrP (encArr_plain _)) fun _ => ?_
  | refine Comm.bindId (comm_storeP $h _ rfl) fun _ => ?_
  | refine Comm.bindId (comm_putAtP $h _ rfl) fun _ => ?_
  | refine Comm.bindId (comm_putAtP $h _ (encArr_plain _)) fun _ => ?_
  | refine Comm.bindId (comm_fill $h _ _) fun _ => ?_
  | refine Comm.bindId (comm_fillArr $h _ _) fun _ => ?_
  | refine Comm.bindId (Comm.check _) fun _ => ?_
  | refine Comm.bindId (Comm.the (r := id) fun _ e => e) fun _ => ?_
  | exact Comm.pure' rfl
  | exact Comm.pure' (by rw [renVs, renV_encArr', renVs])
  | split)

set_option linter.unusedSectionVars false

variable (S : Sys ω) (h : E.Valid)

include h

theorem comm_libBytes (f : Id) (vs : List Val) : E.Comm E.renVs (libBytes f vs : M ω _) (libBytes f (E.renVs vs)) := by
  unfold libBytes; local_lib h

theorem comm_libBufio (f : Id) (vs : List Val) : E.Comm E.renVs (libBufio f vs : M ω _) (libBufio f (E.renVs vs)) := by
  unfold libBufio; local_lib h

theorem comm_libStrings (f : Id) (vs : List Val) : E.Comm E.renVs (libStrings f vs : M ω _) (libStrings f (E.renVs vs)) := by
  unfold libStrings; local_lib h

theorem comm_libFilepath (f : Id) (vs : List Val) : E.Comm E.renVs (libFilepath f vs : M ω _) (libFilepath f (E.renVs vs)) := by
  unfold libFilepath; local_lib h

theorem comm_libErrors (f : Id) (vs : List Val) : E.Comm E.renVs (libErrors f vs : M ω _) (libErrors f (E.renVs vs)) := by
  unfold libErrors; local_lib h

theorem comm_libFmt (f : Id) (vs : List Val) : E.Comm E.renVs (libFmt S f vs) (libFmt S f (E.renVs vs)) := by
  unfold libFmt; local_lib h

theorem comm_libIoutil (f : Id) (vs : List Val) : E.Comm E.renVs (libIoutil S f vs) (libIoutil S f (E.renVs vs)) := by
  unfold libIoutil failing2 failing; local_lib h

theorem comm_libOs (f : Id) (vs : List Val) : E.Comm E.renVs (libOs S f vs) (libOs S f (E.renVs vs)) := by
  unfold libOs failing2; local_lib h

theorem comm_libTerminal (f : Id) (vs : List Val) : E.Comm E.renVs (libTerminal S f vs) (libTerminal S f (E.renVs vs)) := by
  unfold libTerminal failing2; local_lib h

theorem comm_libRand (f : Id) (vs : List Val) : E.Comm E.renVs (libRand S f vs) (libRand S f (E.renVs vs)) := by
  unfold libRand failing2; local_lib h

theorem comm_libBinary (f : Id) (vs : List Val) : E.Comm E.renVs (libBinary f vs : M ω _) (libBinary f (E.renVs vs)) := by
  unfold libBinary failing; local_lib h

theorem comm_libSha512 (f : Id) (vs : List Val) : E.Comm E.renVs (libSha512 S f vs) (libSha512 S f (E.renVs vs)) := by
  unfold libSha512; local_lib h

theorem comm_libBcrypt (f : Id) (vs : List Val) : E.Comm E.renVs (libBcrypt S f vs) (libBcrypt S f (E.renVs vs)) := by
  unfold libBcrypt failing2; local_lib h

theorem comm_libEd25519 (f : Id) (vs : List Val) : E.Comm E.renVs (libEd25519 S f vs) (libEd25519 S f (E.renVs vs)) := by
  unfold libEd25519; local_lib h

theorem comm_libBox (f : Id) (vs : List Val) : E.Comm E.renVs (libBox S f vs) (libBox S f (E.renVs vs)) := by
  unfold libBox; local_lib h

theorem comm_libAuth (f : Id) (vs : List Val) : E.Comm E.renVs (libAuth S f vs) (libAuth S f (E.renVs vs)) := by
  unfold libAuth; local_lib h

theorem comm_libEdwards (f : Id) (vs : List Val) : E.Comm E.renVs (libEdwards S f vs) (libEdwards S f (E.renVs vs)) := by
  unfold libEdwards; local_lib h

theorem comm_libFunc (p f : Id) (vs : List Val) : E.Comm E.renVs (libFunc S p f vs) (libFunc S p f (E.renVs vs)) := by
  unfold libFunc
  refine Comm.ite (comm_libBytes h _ _) ?_
  refine Comm.ite (comm_libBufio h _ _) ?_
  refine Comm.ite (comm_libStrings h _ _) ?_
  refine Comm.ite (comm_libFilepath h _ _) ?_
  refine Comm.ite (comm_libErrors h _ _) ?_
  refine Comm.ite (comm_libFmt S h _ _) ?_
  refine Comm.ite (comm_libIoutil S h _ _) ?_
  refine Comm.ite (comm_libOs S h _ _) ?_
  refine Comm.ite (comm_libTerminal S h _ _) ?_
  refine Comm.ite (comm_libRand S h _ _) ?_
  refine Comm.ite (comm_libBinary h _ _) ?_
  refine Comm.ite (comm_libSha512 S h _ _) ?_
  refine Comm.ite (comm_libBcrypt S h _ _) ?_
  refine Comm.ite (comm_libEd25519 S h _ _) ?_
  refine Comm.ite (comm_libBox S h _ _) ?_
  refine Comm.ite (comm_libAuth S h _ _) ?_
  refine Comm.ite (comm_libEdwards S h _ _) ?_
  exact Comm.stuck _ _

theorem comm_libFile (n : Nat) (f : Id) (vs : List Val) : E.Comm E.renVs (libFile S n f vs) (libFile S n f (E.renVs vs)) := by
  unfold libFile failing2; local_lib h

theorem comm_libStdEncoding (f : Id) (vs : List Val) :
    E.Comm E.renVs (libStdEncoding f vs : M ω _) (libStdEncoding f (E.renVs vs)) := by
  unfold libStdEncoding failing2; local_lib h

theorem comm_libBigEndian (f : Id) (vs : List Val) :
    E.Comm E.renVs (libBigEndian f vs : M ω _) (libBigEndian f (E.renVs vs)) := by
  unfold libBigEndian; local_lib h

theorem comm_libBuffer (l : Loc) (t : Bytes) (f : Id) (vs : List Val) :
    E.Comm E.renVs (libBuffer l t f vs : M ω _) (libBuffer (E.ren l) t f (E.renVs vs)) := by
  unfold libBuffer failing2; local_lib h

theorem comm_libScanner (l : Loc) (t line : Bytes) (f : Id) (vs : List Val) :
    E.Comm E.renVs (libScanner l t line f vs : M ω _) (libScanner (E.ren l) t line f (E.renVs vs)) := by
  unfold libScanner; local_lib h

theorem comm_libPoint (l : Loc) (f : Id) (vs : List Val) :
    E.Comm E.renVs (libPoint S l f vs) (libPoint S (E.ren l) f (E.renVs vs)) := by
  unfold libPoint; local_lib h

theorem comm_libMethod (r : Val) (f : Id) (vs : List Val) :
    E.Comm E.renVs (libMethod S r f vs) (libMethod S (E.renV r) f (E.renVs vs)) := by
  cases r <;> simp only [renV, libMethod] <;> first | exact Comm.stuck _ _ | skip
  · refine Comm.bind (comm_load h _) fun u => ?_
    cases u with
    | str t => exact comm_libBuffer h _ _ _ _
    | struct t fs => exact comm_libPoint S h _ _ _
    | arr us =>
      rcases us with _ | ⟨a, _ | ⟨b, _ | ⟨c, us⟩⟩⟩
      · exact Comm.stuck _ _
      · cases a <;> exact Comm.stuck _ _
      · cases a <;> cases b <;> first | exact Comm.stuck _ _ | exact comm_libScanner h _ _ _ _ _
      · cases a <;> cases b <;> exact Comm.stuck _ _
    | _ => exact Comm.stuck _ _
  · repeat' split
    · exact comm_libFile S h _ _ _
    · exact comm_args0 (Comm.pure' rfl)
    · exact Comm.stuck _ _
    · exact comm_libStdEncoding h _ _
    · exact comm_libBigEndian h _ _
    · exact Comm.stuck _ _

end Emb

theorem libValue_plain (p x : Id) (v : Val) (h : libValue p x = some v) : v.refers 0 = false := by
  unfold libValue at h
  repeat' split at h
  all_goals first | cases h; rfl | cases h

theorem libZero_plain (p x : Id) (v : Val) (h : libZero p x = some v) : v.refers 0 = false := by
  unfold libZero at h
  repeat' split at h
  all_goals first | cases h; rfl | cases h

end Verif.Src
