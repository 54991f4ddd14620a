/-
The texts that `Sign` of signify/key.go calls, on a few blocks of memory and then in any memory: `Private.Check`,
`Private.decrypt`, `Private.sign`, `Signature.encode` and `writeDataFile`.
-/
import Verif.Source.PrivRun
import Verif.Source.VerifyRun

namespace Verif.Src

variable {ω : Type} (S : Sys ω) (v0 v1 : Val)

/-- A call that returns, in any memory. -/
theorem carry_ok {n m : Nat} (hn : n ≤ m) {p : Id} {f : Func} {args us us' new rs : List Val} {s : St ω} {ρ : List Loc} {v0 v1 : Val} {w' : ω}
    (G : Globals s v0 v1) (own : ∀ l ∈ ρ, 2 ≤ l.blk) (apart : ρ.Pairwise fun l m => l.disjoint m = true)
    (get : getAll s.mem ρ = some ((beside s ρ).renVs us)) (hl : us'.length = us.length)
    (h : (interp (repo S) n).call p f args ⟨v0 :: v1 :: us, us.length + 2, [], s.world⟩ = .ok rs ⟨v0 :: v1 :: us' ++ new, us.length + 2, [], w'⟩) :
    ∃ M, writeAll s.mem (ρ.zip ((beside s ρ).renVs us')) = some M ∧
      (interp (repo S) m).call p f ((beside s ρ).renVs args) s = .ok ((beside s ρ).renVs rs) ⟨M ++ (beside s ρ).renVs new, s.base, s.defers, w'⟩ := by
  have len : us'.length = ρ.length := by rw [hl, getAll_length get, Emb.renVs_length]
  have c := carry S hn (o := (.ok (), w')) (world := id) (ok := fun _ t r => r = .ok rs ⟨v0 :: v1 :: us' ++ new, us.length + 2, [], t⟩)
    (err := fun _ _ _ => False) G own apart get h
  obtain ⟨r0, rfl, k⟩ := c
  exact k _ us' new _ _ _ rfl len

/-- The same, for a call that leaves the places it is given as they are. -/
theorem carry_same {n m : Nat} (hn : n ≤ m) {p : Id} {f : Func} {args us new rs : List Val} {s : St ω} {ρ : List Loc} {v0 v1 : Val} {w' : ω}
    (G : Globals s v0 v1) (own : ∀ l ∈ ρ, 2 ≤ l.blk) (apart : ρ.Pairwise fun l m => l.disjoint m = true)
    (get : getAll s.mem ρ = some ((beside s ρ).renVs us))
    (h : (interp (repo S) n).call p f args ⟨v0 :: v1 :: us, us.length + 2, [], s.world⟩ = .ok rs ⟨v0 :: v1 :: us ++ new, us.length + 2, [], w'⟩) :
    (interp (repo S) m).call p f ((beside s ρ).renVs args) s = .ok ((beside s ρ).renVs rs) ⟨s.mem ++ (beside s ρ).renVs new, s.base, s.defers, w'⟩ := by
  obtain ⟨M, k1, k2⟩ := carry_ok S hn G own apart get rfl h
  rw [writeAll_same get] at k1
  cases k1
  exact k2

/-- A private key in memory, field by field. -/
def privateL (priv : Private) (r : Int) : Val :=
  .struct id!"Private" [(id!"keyAlgo", encL priv.keyAlgo), (id!"kdfAlgo", encL priv.kdfAlgo), (id!"kdfRounds", .int .uint32 r),
    (id!"salt", encL priv.salt), (id!"checksum", encL priv.checksum), (id!"keyNum", encL priv.keyNum), (id!"key", encL priv.key)]

theorem privateL_eq (priv : Private) : privateL priv priv.kdfRounds.toNat = privateVal priv := by simp only [privateL, privateVal, encL_eq]

/-! ### `Private.Check` -/

/-- The digest of the key. -/
def digestL (priv : Private) : Arr 64 := S.prims.sha512 (rawL priv.key)

section
variable (priv : Private) (r : Int) (w : ω)

theorem check_bad (h : (!decide ((rawL (digestL S priv)).take 8 = rawL priv.checksum)) = true) :
    (interp (repo S) 20).call id!"signify" key.Private.Check [.ptr ⟨2, []⟩] ⟨[v0, v1, privateL priv r], 3, [], w⟩ =
      .ok [.err (.text b!"signify: invalid private key checksum" none)] ⟨[v0, v1, privateL priv r], 3, [], w⟩ := by
  sevalf [h]

theorem check_good (h : ¬(!decide ((rawL (digestL S priv)).take 8 = rawL priv.checksum)) = true) :
    (interp (repo S) 20).call id!"signify" key.Private.Check [.ptr ⟨2, []⟩] ⟨[v0, v1, privateL priv r], 3, [], w⟩ =
      .ok [.nil] ⟨[v0, v1, privateL priv r], 3, [], w⟩ := by
  sevalf [h]

end

/-- `(priv *Private) Check() error`, key.go:89-96. -/
theorem check_run (priv : Private) (w : ω) :
    Agrees (priv.check S.prims, w) id
      (fun _ w' r => ∃ rs new, (new = [] ∧ rs = [.nil]) ∧ r = .ok rs ⟨v0 :: v1 :: [privateVal priv] ++ new, 3, [], w'⟩)
      (fun e w' r => ∃ rs new, (new = [] ∧ ∃ v, Means e v ∧ rs = [v]) ∧ r = .ok rs ⟨v0 :: v1 :: [privateVal priv] ++ new, 3, [], w'⟩)
      ((interp (repo S) 20).call id!"signify" key.Private.Check [.ptr ⟨2, []⟩] ⟨v0 :: v1 :: [privateVal priv], 3, [], w⟩) := by
  rw [← privateL_eq]
  by_cases h : (!decide ((rawL (digestL S priv)).take 8 = rawL priv.checksum)) = true
  · refine Agrees.of (o' := (.err .badChecksum, w)) ?_ (check_bad S v0 v1 priv _ w h) ⟨_, [], ⟨rfl, _, rfl, rfl⟩, rfl⟩
    rw [digestL, rawL_eq, rawL_eq, rawL_eq] at h
    rw [Private.check, if_pos (by simpa using h)]
  · refine Agrees.of (o' := (.ok (), w)) ?_ (check_good S v0 v1 priv _ w h) ⟨_, [], ⟨rfl, rfl⟩, rfl⟩
    rw [digestL, rawL_eq, rawL_eq, rawL_eq] at h
    rw [Private.check, if_neg (by simpa using h)]

/-- The same in any memory. -/
theorem check_in {s : St ω} {v0 v1 : Val} (G : Globals s v0 v1) {l : Loc} (hl : 2 ≤ l.blk) {priv : Private}
    (E : l.get s.mem = some (privateVal priv)) {n : Nat} (hn : 20 ≤ n) :
    Ends s.defers (priv.check S.prims, s.world) id
      (fun _ w' r => r = .ok [.nil] ⟨s.mem, s.base, s.defers, w'⟩)
      (fun e w' r => ∃ v, Means e v ∧ r = .ok [v] ⟨s.mem, s.base, s.defers, w'⟩)
      ((interp (repo S) n).call id!"signify" key.Private.Check [.ptr l] s) := by
  have c := carry_keep S hn (ρ := [l]) (us := [privateVal priv]) G (by simp [hl]) (by simp)
    (by simp only [getAll, E, Emb.renVs, Emb.renV_plain _ _ (privateVal_plain priv 0)]) (check_run S v0 v1 priv s.world)
  have ea : (beside s [l]).renVs [.ptr ⟨2, []⟩] = [.ptr l] := by
    simp only [Emb.renVs, Emb.renV]
    rw [ren_two 0 l rfl]
  rw [ea] at c
  refine c.mono ?_ ?_
  · rintro a t ⟨rs, new, ⟨rfl, rfl⟩, k⟩
    refine k.trans ?_
    simp only [Emb.renVs, Emb.renV, List.append_nil]
    rfl
  · rintro e t ⟨rs, new, ⟨rfl, v, hv, rfl⟩, k⟩
    refine ⟨v, hv, k.trans ?_⟩
    simp only [Emb.renVs, hv.ren, List.append_nil]
    rfl

/-! ### `Private.decrypt` -/

/-- A summary of `Check`. -/
def decK (FC : List Val → M ω (List Val)) : Known ω := knownK [] [(id!"Private", id!"Check", FC)]

theorem decK_sound (k : Nat) : (decK (callOf S k key.Private.Check)).Sound (repo S) k := by
  refine knownK_sound (by rintro t ⟨⟩) ?_
  intro t ht
  rcases List.mem_cons.1 ht with rfl | h
  · exact ⟨id!"signify", key.Private.Check, by krfl, fun _ => .refl _⟩
  · cases h

/-- Two arrays, element by element exclusive-or. -/
def xoredL (k a : Arr 64) : List Val :=
  (List.range 64).map fun i => .int .uint8 (ITy.uint8.bitwise (· ^^^ ·) (k.toList.getD i 0).toNat (a.toList.getD i 0).toNat)

theorem xoredL_eq (k a : Arr 64) : Val.arr (xoredL k a) = encArr (xorArr k a) := by
  have hx : ∀ x y : UInt8, ITy.uint8.bitwise (· ^^^ ·) x.toNat y.toNat = ((x ^^^ y).toNat : Int) := EdSrc.xor8_eq
  rw [encArr_bytes, xoredL]
  refine congrArg Val.arr ?_
  simp only [hx]
  refine List.ext_getElem (by simp [byteVals]) ?_
  intro i h1 h2
  have hi : i < 64 := by simpa using h1
  simp [byteVals, xorArr, List.getD_eq_getElem?_getD, hi]

section
variable (FC : List Val → M ω (List Val)) (priv : Private) {r : Int} {ms : List Val} {n : Nat} (cap : Nat) (w : ω)

/-- The call. -/
noncomputable abbrev decrypting (FC : List Val → M ω (List Val)) (priv : Private) (r : Int) (ms : List Val) (n cap : Nat) (w : ω) : R ω (List Val) :=
  (interpK (repo S) (decK FC) 20).call id!"signify" key.Private.decrypt [.ptr ⟨2, []⟩, .slice ⟨3, []⟩ 0 n cap]
    ⟨[v0, v1, privateL priv r, .arr ms], 4, [], w⟩

theorem decrypt_plain (h1 : ¬r > 0) :
    decrypting S v0 v1 FC priv r ms n cap w = .ok [.nil] ⟨[v0, v1, privateL priv r, .arr ms], 4, [], w⟩ := by
  sevalf [h1]

variable (h1 : r > 0)
include h1

theorem decrypt_algo (h2 : ¬rawL priv.kdfAlgo = b!"BK") :
    decrypting S v0 v1 FC priv r ms n cap w =
      .ok [.err (.text (b!"signify: unsupported KDF algorithm " ++ rawL priv.kdfAlgo) none)] ⟨[v0, v1, privateL priv r, .arr ms], 4, [], w⟩ := by
  sevalf [h1, h2]

variable (h2 : rawL priv.kdfAlgo = b!"BK")
include h2

theorem decrypt_kdf {e : GoErr} (h3 : S.prims.bcryptKey (readOf ms n) priv.salt (ITy.int.wrap r) = .err e) :
    decrypting S v0 v1 FC priv r ms n cap w = .ok [libErr e] ⟨[v0, v1, privateL priv r, .arr ms], 4, [], w⟩ := by
  sevalf [h1, h2, h3]

/-- A private key whose key field was overwritten. -/
def privateX (priv : Private) (r : Int) (a : Arr 64) : Val :=
  .struct id!"Private" [(id!"keyAlgo", encL priv.keyAlgo), (id!"kdfAlgo", encL priv.kdfAlgo), (id!"kdfRounds", .int .uint32 r),
    (id!"salt", encL priv.salt), (id!"checksum", encL priv.checksum), (id!"keyNum", encL priv.keyNum), (id!"key", .arr (xoredL priv.key a))]

/-- Memory when `Check` is called. -/
def xoredMem (priv : Private) (r : Int) (ms : List Val) (n cap : Nat) (a : Arr 64) : List Val :=
  [v0, v1, privateX priv r a, .arr ms, .ptr ⟨2, []⟩, .slice ⟨3, []⟩ 0 n cap, encArr a, .slice ⟨6, []⟩ 0 64 64, .nil, .int .int 63]

variable {a : Arr 64} (h3 : S.prims.bcryptKey (readOf ms n) priv.salt (ITy.int.wrap r) = .ok a)
include h3

theorem decrypt_bad {x : EVal} (h4 : FC [.ptr ⟨2, []⟩] ⟨xoredMem v0 v1 priv r ms n cap a, 4, [], w⟩ = .ok [.err x] ⟨xoredMem v0 v1 priv r ms n cap a, 4, [], w⟩) :
    decrypting S v0 v1 FC priv r ms n cap w = .ok [.err x] ⟨[v0, v1, privateX priv r a, .arr ms], 4, [], w⟩ := by
  sevalf [h1, h2, h3, h4]

theorem decrypt_good (h4 : FC [.ptr ⟨2, []⟩] ⟨xoredMem v0 v1 priv r ms n cap a, 4, [], w⟩ = .ok [.nil] ⟨xoredMem v0 v1 priv r ms n cap a, 4, [], w⟩) :
    decrypting S v0 v1 FC priv r ms n cap w = .ok [.nil] ⟨[v0, v1, privateX priv r a, .arr ms], 4, [], w⟩ := by
  sevalf [h1, h2, h3, h4]

end

theorem privateX_eq (priv : Private) (a : Arr 64) :
    privateX priv priv.kdfRounds.toNat a = privateVal { priv with key := xorArr priv.key a } := by
  simp only [privateX, privateVal, encL_eq, xoredL_eq]

theorem wrap_rounds (r : BitVec 32) : ITy.int.wrap (r.toNat : Int) = (r.toNat : Int) := by
  have h := r.isLt
  exact if_pos (by omega)

theorem readOf_all (d : Bytes) : readOf (byteVals d) d.length = d := by
  rw [readOf, List.drop_zero, List.take_of_length_le (by rw [byteVals_length]), map_valByte_byteVals]

/-- What `decrypt` does: a return, with the key as the model leaves it. -/
def Decrypts (S : Sys ω) (pw : Bytes) (priv : Private) (ret : Val → Private → Prop) : Prop :=
  match Private.decrypt S.prims pw priv with
  | (.ok _, priv') => ret .nil priv'
  | (.err e, priv') => ∃ v, Says e v ∧ ret v priv'
  | _ => False

theorem Decrypts.mono {S : Sys ω} {pw : Bytes} {priv : Private} {ret ret' : Val → Private → Prop} (h : Decrypts S pw priv ret)
    (k : ∀ v p, Val.refers 0 v = false → ret v p → ret' v p) : Decrypts S pw priv ret' := by
  unfold Decrypts at *
  split at h
  · exact k _ _ rfl h
  · obtain ⟨v, h1, h2⟩ := h
    refine ⟨v, h1, k _ _ ?_ h2⟩
    obtain ⟨x, rfl⟩ := h1.err
    rfl
  · exact h

theorem bcryptKey_cases (P : Prims) (pw : Bytes) (salt : Arr 16) (r : Int) : (∃ a, P.bcryptKey pw salt r = .ok a) ∨ ∃ e, P.bcryptKey pw salt r = .err e := by
  unfold Prims.bcryptKey
  (repeat' split) <;> simp

/-! ### `Private.sign`, `Signature.encode`, `writeDataFile` -/

section
variable (priv : Private) (sig : Signature) (r : Int) (ms : List Val) (n cap : Nat) (w : ω)

/-- What `sign` returns. -/
def signedL : Signature := ⟨priv.keyAlgo, priv.keyNum, S.prims.edSign (remade priv.key) (readOf ms n)⟩

theorem sign_raw :
    (interp (repo S) 20).call id!"signify" key.Private.sign [.ptr ⟨2, []⟩, .slice ⟨3, []⟩ 0 n cap] ⟨[v0, v1, privateL priv r, .arr ms], 4, [], w⟩ =
      .ok [.ptr ⟨6, []⟩, .nil] ⟨[v0, v1, privateL priv r, .arr ms, .ptr ⟨2, []⟩, .slice ⟨3, []⟩ 0 n cap, signatureL (signedL S priv ms n), .ptr ⟨6, []⟩,
        encL priv.key, .slice ⟨8, []⟩ 0 64 64, encArr (signedL S priv ms n).sig, .slice ⟨10, []⟩ 0 64 64], 4, [], w⟩ := by
  sevalf []

/-- What `encode` returns. -/
def encodeL : Bytes := rawL sig.pkAlgo ++ rawL sig.keyNum ++ rawL sig.sig

theorem encode_raw :
    (interp (repo S) 20).call id!"signify" signature.Signature.encode [.ptr ⟨2, []⟩] ⟨[v0, v1, signatureL sig], 3, [], w⟩ =
      .ok [.slice ⟨6, []⟩ 0 74 (byteVals (encodeL sig)).length] ⟨[v0, v1, signatureL sig, .ptr ⟨2, []⟩, .str (encodeL sig), .ptr ⟨4, []⟩,
        .arr (byteVals (encodeL sig))], 3, [], w⟩ := by
  sevalf []

end

section
variable {path comment : Bytes} {ms : List Val} {n : Nat} (cap : Nat) {w w' : ω} 

/-- The buffer with the encoded text. -/
def b64Buf (ms : List Val) (n : Nat) : List Val :=
  splice (List.replicate ((B64.encodedLen (n : Int).toNat : Nat) : Int).toNat (.int .uint8 0)) 0
    ((byteVals (B64.encode (readOf ms n))).take ((B64.encodedLen (n : Int).toNat : Nat) : Int).toNat)

/-- The text of the file. -/
def fileText (comment : Bytes) (ms : List Val) (n : Nat) : Bytes :=
  comment ++ [10] ++ readOf (b64Buf ms n) ((B64.encodedLen (n : Int).toNat : Nat) : Int).toNat ++ [10]

variable (h1 : (0 : Int) ≤ ↑(B64.encodedLen n)) (h2 : B64.encodedLen (readOf ms n).length ≤ B64.encodedLen n)
include h1 h2

noncomputable abbrev writing (path comment : Bytes) (ms : List Val) (n cap : Nat) (w : ω) : R ω (List Val) :=
  (interp (repo S) 20).call id!"signify" common.writeDataFile [.str path, .str comment, .slice ⟨2, []⟩ 0 n cap] ⟨[v0, v1, .arr ms], 3, [], w⟩

theorem write_ok (h : S.writeFile path (readOf (byteVals (fileText comment ms n)) (fileText comment ms n).length) 420 w = (.ok (), w')) :
    writing S v0 v1 path comment ms n cap w = .ok [.nil] ⟨[v0, v1, .arr ms], 3, [], w'⟩ := by
  unfold fileText b64Buf at h
  sevalf [h1, h2, h]

theorem write_err {e : GoErr} (h : S.writeFile path (readOf (byteVals (fileText comment ms n)) (fileText comment ms n).length) 420 w = (.err e, w')) :
    writing S v0 v1 path comment ms n cap w = .ok [libErr e] ⟨[v0, v1, .arr ms], 3, [], w'⟩ := by
  unfold fileText b64Buf at h
  sevalf [h1, h2, h]

/-- Memory when the file is written. -/
def textMem (path comment : Bytes) (ms : List Val) (n cap : Nat) : List Val :=
  let k := ((B64.encodedLen (n : Int).toNat : Nat) : Int).toNat
  let sl := Val.slice ⟨6, []⟩ 0 k (List.replicate k (Val.int .uint8 0)).length
  [v0, v1, .arr ms, .str path, .str comment, .slice ⟨2, []⟩ 0 n cap, .arr (b64Buf ms n), sl,
    .struct id!"dataFile" [(id!"comment", .str comment), (id!"data", sl)], .ptr ⟨8, []⟩, .ptr ⟨8, []⟩, .str (fileText comment ms n), .ptr ⟨11, []⟩,
    .arr (byteVals (fileText comment ms n))]

theorem write_panic (h : S.writeFile path (readOf (byteVals (fileText comment ms n)) (fileText comment ms n).length) 420 w = (.panic, w')) :
    writing S v0 v1 path comment ms n cap w = .panic ⟨textMem v0 v1 path comment ms n cap, 3, [], w'⟩ := by
  unfold fileText b64Buf at h
  sevalf [h1, h2, h]

theorem write_crash (h : S.writeFile path (readOf (byteVals (fileText comment ms n)) (fileText comment ms n).length) 420 w = (.crash, w')) :
    writing S v0 v1 path comment ms n cap w = .crash ⟨textMem v0 v1 path comment ms n cap, 3, [], w'⟩ := by
  unfold fileText b64Buf at h
  sevalf [h1, h2, h]

end

end Verif.Src
