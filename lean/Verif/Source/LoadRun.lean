/-
The text of `LoadPublicKey` of signify/key.go and of `readSignaturePath` of signify/signature.go, with the functions that
they call, run from the start of a program; then in any memory.
-/
import Verif.Source.DataRun
import Verif.Model.Keys
import Verif.Lemmas.Bytes

namespace Verif.Src

variable {ω : Type} (S : Sys ω) (v0 v1 : Val)

/-- The value that an error of the model stands for: the texts of the errors that the repository makes, and the errors
of the libraries. -/
def Means : GoErr → Val → Prop
  | .badChecksum, v => v = .err (.text b!"signify: invalid private key checksum" none)
  | .unsupportedKdf, v => ∃ a, v = .err (.text (b!"signify: unsupported KDF algorithm " ++ a) none)
  | .notEdPublicKey, v => v = .err (.text b!"signify: not an Ed25519 public key" none)
  | .notEdSignature, v => ∃ a, v = .err (.text (b!"signify: not an Ed25519 signature (" ++ a ++ b!")") none)
  | .keyNumMismatch, v => v = .err (.text b!"signify: key number mismatch" none)
  | .invalidSignature, v => v = .err (.text b!"signify: invalid signature" none)
  | .unknownKeyAlgo, v => ∃ a, v = .err (.text (b!"signify: unknown key algo " ++ a) none)
  | .invalidPublicKey, v => v = .err (.text b!"signify: invalid public key" none)
  | .publicKeyLength n, v => v = .err (.text b!"signify: invalid public key length %d" (some n))
  | .passphraseMismatch, v => v = .err (.text b!"passphrases don't match" none)
  | .nonceReused, v => v = .err (.text b!"signify/crypto: message is too large, nonce reused" none)
  | e, v => v = libErr e

theorem Means.err {e : GoErr} {v : Val} (h : Means e v) : ∃ x, v = .err x := by
  cases e <;> first | exact ⟨_, h⟩ | (obtain ⟨a, h⟩ := h; exact ⟨_, h⟩)

theorem Means.plain {e : GoErr} {v : Val} (h : Means e v) (k : Nat) : v.refers k = false := by
  obtain ⟨x, rfl⟩ := h.err
  rfl

theorem Means.ren {e : GoErr} {v : Val} (h : Means e v) (E : Emb) : E.renV v = v := by
  obtain ⟨x, rfl⟩ := h.err
  rfl

/-- A list, element by element. -/
def spread (k : Nat) (vs : List Val) : List Val := (List.range k).map fun i => vs.getD i .nil

theorem spread_eq {k : Nat} {vs : List Val} (h : vs.length = k) : spread k vs = vs := by
  subst h
  refine List.ext_getElem (by simp [spread]) fun i h1 h2 => ?_
  simp [spread, h2]

theorem data_shape {new : List Val} {x y : Val} (h : new.length = 10) (h2 : new[2]? = some x) (h9 : new[9]? = some y) :
    ∃ pre post, new = spread 2 pre ++ x :: spread 6 post ++ [y] := by
  refine ⟨new, new.drop 3, ?_⟩
  rcases new with _ | ⟨a0, _ | ⟨a1, _ | ⟨a2, _ | ⟨a3, _ | ⟨a4, _ | ⟨a5, _ | ⟨a6, _ | ⟨a7, _ | ⟨a8, _ | ⟨a9, _ | ⟨a10, l⟩⟩⟩⟩⟩⟩⟩⟩⟩⟩⟩ <;> simp at h
  simp at h2 h9
  subst h2 h9
  rfl

/-- An array in memory, element by element. -/
def encL {n : Nat} (a : Arr n) : Val := .arr ((listed a).map byteVal)

theorem encL_eq {n : Nat} (a : Arr n) : encL a = encArr a := by rw [encL, listed_eq, encArr_bytes]; rfl

theorem encL_copyZ {n : Nat} {d : Bytes} (h : d.length = n) : encL (copyZ n d) = .arr (byteVals d) := by
  rw [encL_eq, encArr_bytes, copyZ_toList_eq h]

theorem enc_copyZ (n : Nat) (d : Bytes) :
    encArr (copyZ n d) = .arr (splice (List.replicate n (.int .uint8 0)) 0 ((byteVals d).take n)) := by
  have : List.replicate n (Val.int .uint8 0) = byteVals (List.replicate n 0) := by simp [byteVals]
  rw [encArr_bytes, copyZ_toList, this, splice]
  simp only [List.take_zero, List.nil_append, Nat.zero_add, byteVals_take, byteVals_drop, byteVals_length, ← byteVals_append, List.take_append]
  congr 2
  simp only [List.take_replicate, List.drop_replicate, List.length_take]
  congr 2
  omega

/-- A signature in memory. -/
def signatureVal (sig : Signature) : Val :=
  .struct id!"Signature" [(id!"pkAlgo", encArr sig.pkAlgo), (id!"keyNum", encArr sig.keyNum), (id!"sig", encArr sig.sig)]

theorem signatureVal_plain (sig : Signature) (k : Nat) : (signatureVal sig).refers k = false := by
  refine Val.refers_mono (Nat.zero_le k) _ ?_
  simp [signatureVal, Val.refers, Val.fieldRefers, Emb.encArr_plain]

/-- Memory when `readDataFileBytes` is called. -/
def fileMem (path data : Bytes) : List Val :=
  [v0, v1, .str path, .arr (byteVals data), .slice ⟨3, []⟩ 0 data.length (byteVals data).length, .nil,
    .slice ⟨3, []⟩ 0 data.length (byteVals data).length]

/-- A summary of `readDataFileBytes`. -/
def dataK (FD : List Val → M ω (List Val)) : Known ω := knownK [(id!"signify", id!"readDataFileBytes", FD)] []

/-- A call of a function or method of the package signify. -/
noncomputable def callOf (k : Nat) (f : Func) (vs : List Val) : M ω (List Val) := (interp (repo S) k).call id!"signify" f vs

theorem func_sound {k : Nat} {x : Id} {f : Func} (h : (common.funcs ++ signature.funcs ++ key.funcs).lookup x = some f) :
    ∃ g f', (repo S).pkgs.lookup id!"signify" = some g ∧ g.funcs.lookup x = some f' ∧
      ∀ vs, Le (callOf S k f vs) ((interp (repo S) k).call id!"signify" f' vs) :=
  ⟨⟨common.types ++ signature.types ++ key.types, common.funcs ++ signature.funcs ++ key.funcs⟩, f, by krfl, h, fun _ => .refl _⟩

theorem dataK_sound (k : Nat) : (dataK (callOf S k common.readDataFileBytes)).Sound (repo S) k := by
  refine knownK_sound ?_ (by simp)
  intro t ht
  rcases List.mem_cons.1 ht with rfl | h
  · exact func_sound S (by krfl)
  · cases h

/-- What `readDataFileBytes` leaves behind. -/
structure Left (k : Nat) (d : DataFile) (new : List Val) : Prop where
  length : new.length = 10
  file : new[2]? = some (dataVal d.comment (.slice ⟨k + 9, []⟩ 0 d.data.length d.data.length))
  data : new[9]? = some (.arr (byteVals d.data))
  plain : Val.anyRefers (k + 10) new = false

/-- How `readDataFileBytes` ends in the functions that follow. -/
def ReadTo (FD : List Val → M ω (List Val)) (path data : Bytes) (w1 : ω) (new : List Val) (w2 : ω) : Prop :=
  FD [.slice ⟨3, []⟩ 0 data.length (byteVals data).length] ⟨fileMem v0 v1 path data, 6, [], w1⟩ =
    .ok [.ptr ⟨9, []⟩, .nil] ⟨fileMem v0 v1 path data ++ new, 6, [], w2⟩

section
variable (FD : List Val → M ω (List Val)) {path data : Bytes} {w w1 w2 : ω} {new : List Val}
variable (h1 : S.readFile path w = (.ok data, w1))
include h1

theorem loadPublic_ok {d : DataFile} (a : Arr 42) (ha : d.data = listed a) (h2 : ReadTo v0 v1 FD path data w1 new w2) (hn : Left 7 d new) :
    (interpK (repo S) (dataK FD) 20).call id!"signify" key.LoadPublicKey [.str path] ⟨[v0, v1], 2, [], w⟩ =
      .ok [.ptr ⟨20, []⟩, .nil] ⟨fileMem v0 v1 path data ++ new ++ [.ptr ⟨9, []⟩, .nil, .slice ⟨16, []⟩ 0 42 42,
        publicVal ⟨copyZ 2 (d.data.take 2), copyZ 8 ((d.data.drop 2).take 8), copyZ 32 ((d.data.drop 10).take 32)⟩, .ptr ⟨20, []⟩, .int .int 10], 2, [], w2⟩ := by
  obtain ⟨c, d⟩ := d
  subst ha
  have hl : (listed a).length = 42 := by simp [listed]
  obtain ⟨pre, post, rfl⟩ := data_shape hn.length hn.file hn.data
  unfold ReadTo at h2
  simp only [hl] at h2 ⊢
  rw [publicVal, enc_copyZ, enc_copyZ, enc_copyZ]
  seval [h1, h2]

theorem loadPublic_bad {e : GoErr} (h2 : FD [.slice ⟨3, []⟩ 0 data.length (byteVals data).length] ⟨fileMem v0 v1 path data, 6, [], w1⟩ =
      .ok [.nil, libErr e] ⟨fileMem v0 v1 path data, 6, [], w2⟩) :
    (interpK (repo S) (dataK FD) 20).call id!"signify" key.LoadPublicKey [.str path] ⟨[v0, v1], 2, [], w⟩ = .ok [.nil, libErr e] ⟨[v0, v1], 2, [], w2⟩ := by
  seval [h1, h2]

theorem loadPublic_panic {m : List Val} {b : Nat} (h2 : FD [.slice ⟨3, []⟩ 0 data.length (byteVals data).length] ⟨fileMem v0 v1 path data, 6, [], w1⟩ =
      .panic ⟨m, b, [], w2⟩) :
    ∃ t, (interpK (repo S) (dataK FD) 20).call id!"signify" key.LoadPublicKey [.str path] ⟨[v0, v1], 2, [], w⟩ = .panic t ∧ t.world = w2 ∧ t.defers = [] := by
  exact ⟨_, by seval [h1, h2], rfl, rfl⟩

theorem loadSig_bad {e : GoErr} (h2 : FD [.slice ⟨3, []⟩ 0 data.length (byteVals data).length] ⟨fileMem v0 v1 path data, 6, [], w1⟩ =
      .ok [.nil, libErr e] ⟨fileMem v0 v1 path data, 6, [], w2⟩) :
    (interpK (repo S) (dataK FD) 20).call id!"signify" signature.readSignaturePath [.str path] ⟨[v0, v1], 2, [], w⟩ = .ok [.nil, libErr e] ⟨[v0, v1], 2, [], w2⟩ := by
  seval [h1, h2]

theorem loadSig_panic {m : List Val} {b : Nat} (h2 : FD [.slice ⟨3, []⟩ 0 data.length (byteVals data).length] ⟨fileMem v0 v1 path data, 6, [], w1⟩ =
      .panic ⟨m, b, [], w2⟩) :
    ∃ t, (interpK (repo S) (dataK FD) 20).call id!"signify" signature.readSignaturePath [.str path] ⟨[v0, v1], 2, [], w⟩ = .panic t ∧ t.world = w2 ∧ t.defers = [] := by
  exact ⟨_, by seval [h1, h2], rfl, rfl⟩

theorem loadPrivate_bad {e : GoErr} (h2 : FD [.slice ⟨3, []⟩ 0 data.length (byteVals data).length] ⟨fileMem v0 v1 path data, 6, [], w1⟩ =
      .ok [.nil, libErr e] ⟨fileMem v0 v1 path data, 6, [], w2⟩) :
    (interpK (repo S) (dataK FD) 20).call id!"signify" key.LoadPrivateKey [.str path] ⟨[v0, v1], 2, [], w⟩ = .ok [.nil, libErr e] ⟨[v0, v1], 2, [], w2⟩ := by
  seval [h1, h2]

theorem loadPrivate_panic {m : List Val} {b : Nat} (h2 : FD [.slice ⟨3, []⟩ 0 data.length (byteVals data).length] ⟨fileMem v0 v1 path data, 6, [], w1⟩ =
      .panic ⟨m, b, [], w2⟩) :
    ∃ t, (interpK (repo S) (dataK FD) 20).call id!"signify" key.LoadPrivateKey [.str path] ⟨[v0, v1], 2, [], w⟩ = .panic t ∧ t.world = w2 ∧ t.defers = [] := by
  exact ⟨_, by seval [h1, h2], rfl, rfl⟩

theorem loadPublic_long {d : DataFile} (hd : ¬(d.data.length : Int) = 42) (h2 : ReadTo v0 v1 FD path data w1 new w2) (hn : Left 7 d new) :
    (interpK (repo S) (dataK FD) 20).call id!"signify" key.LoadPublicKey [.str path] ⟨[v0, v1], 2, [], w⟩ =
      .ok [.nil, .err (.text b!"signify: invalid public key length %d" (some d.data.length))] ⟨[v0, v1], 2, [], w2⟩ := by
  obtain ⟨c, d⟩ := d
  obtain ⟨pre, post, rfl⟩ := data_shape hn.length hn.file hn.data
  unfold ReadTo at h2
  simp only at h2 hd ⊢
  generalize d.length = k at h2 hd ⊢
  seval [h1, h2, hd]

theorem loadSig_ok {d : DataFile} (a : Arr 10) (rest : Bytes) (ha : d.data = listed a ++ rest) (h2 : ReadTo v0 v1 FD path data w1 new w2) (hn : Left 7 d new) :
    (interpK (repo S) (dataK FD) 20).call id!"signify" signature.readSignaturePath [.str path] ⟨[v0, v1], 2, [], w⟩ =
      .ok [.ptr ⟨20, []⟩, .nil] ⟨fileMem v0 v1 path data ++ new ++ [.ptr ⟨9, []⟩, .nil, .slice ⟨16, []⟩ 0 d.data.length d.data.length,
        signatureVal ⟨copyZ 2 (d.data.take 2), copyZ 8 ((d.data.drop 2).take 8), copyZ 64 (d.data.drop 10)⟩, .ptr ⟨20, []⟩], 2, [], w2⟩ := by
  obtain ⟨c, d⟩ := d
  simp only at ha
  have hl : (listed a).length = 10 := by simp [listed]
  have l0 : d.length - 10 = rest.length := by rw [ha, List.length_append, hl]; omega
  have l1 : (2 : Int) ≤ d.length := by rw [ha, List.length_append, hl]; omega
  have l2 : (10 : Int) ≤ d.length := by rw [ha, List.length_append, hl]; omega
  have l3 : (d.length : Int) ≤ d.length := Int.le_refl _
  obtain ⟨pre, post, rfl⟩ := data_shape hn.length hn.file hn.data
  unfold ReadTo at h2
  simp only at h2 ⊢
  generalize hk : d.length = k at h2 l0 l1 l2 l3 ⊢
  subst ha
  rw [byteVals_append] at h2 ⊢
  have tk : (byteVals rest).take (k - 10) = byteVals rest := List.take_of_length_le (by rw [byteVals_length]; omega)
  have hd : List.drop 10 (listed a ++ rest) = rest := by rw [List.drop_append, hl]; simp [hl]
  have e64 : encArr (copyZ 64 rest) = .arr (splice (List.replicate 64 (.int .uint8 0)) 0 (((byteVals rest).take (k - 10)).take 64)) := by
    rw [tk]; exact enc_copyZ _ _
  rw [signatureVal, hd, enc_copyZ 2, enc_copyZ 8, e64]
  seval [h1, h2, l1, l2, l3]

theorem loadSig_short {d : DataFile} (hd : d.data.length < 10) (h2 : ReadTo v0 v1 FD path data w1 new w2) (hn : Left 7 d new) :
    ∃ t, (interpK (repo S) (dataK FD) 20).call id!"signify" signature.readSignaturePath [.str path] ⟨[v0, v1], 2, [], w⟩ = .panic t ∧
      t.world = w2 ∧ t.defers = [] := by
  obtain ⟨c, d⟩ := d
  simp only at hd
  have l2 : ¬(10 : Int) ≤ d.length := by omega
  obtain ⟨pre, post, rfl⟩ := data_shape hn.length hn.file hn.data
  unfold ReadTo at h2
  simp only at h2
  generalize d.length = k at h2 hd l2
  rcases Nat.lt_or_ge k 2 with l1 | l1
  · replace l1 : ¬(2 : Int) ≤ k := by omega
    exact ⟨_, by seval [h1, h2, l1], rfl, rfl⟩
  · replace l1 : (2 : Int) ≤ k := by omega
    exact ⟨_, by seval [h1, h2, l1, l2], rfl, rfl⟩

end

section
variable (FD : List Val → M ω (List Val)) {path : Bytes} {w w1 : ω}

theorem loadPublic_err {e : GoErr} (h1 : S.readFile path w = (.err e, w1)) :
    (interpK (repo S) (dataK FD) 20).call id!"signify" key.LoadPublicKey [.str path] ⟨[v0, v1], 2, [], w⟩ = .ok [.nil, libErr e] ⟨[v0, v1], 2, [], w1⟩ := by
  seval [h1]

theorem loadPublic_stop (h1 : S.readFile path w = (.panic, w1)) :
    ∃ t, (interpK (repo S) (dataK FD) 20).call id!"signify" key.LoadPublicKey [.str path] ⟨[v0, v1], 2, [], w⟩ = .panic t ∧ t.world = w1 ∧ t.defers = [] := by
  exact ⟨_, by seval [h1], rfl, rfl⟩

theorem loadPublic_crash (h1 : S.readFile path w = (.crash, w1)) :
    ∃ t, (interpK (repo S) (dataK FD) 20).call id!"signify" key.LoadPublicKey [.str path] ⟨[v0, v1], 2, [], w⟩ = .crash t ∧ t.world = w1 := by
  exact ⟨_, by seval [h1], rfl⟩

theorem loadSig_err {e : GoErr} (h1 : S.readFile path w = (.err e, w1)) :
    (interpK (repo S) (dataK FD) 20).call id!"signify" signature.readSignaturePath [.str path] ⟨[v0, v1], 2, [], w⟩ = .ok [.nil, libErr e] ⟨[v0, v1], 2, [], w1⟩ := by
  seval [h1]

theorem loadSig_stop (h1 : S.readFile path w = (.panic, w1)) :
    ∃ t, (interpK (repo S) (dataK FD) 20).call id!"signify" signature.readSignaturePath [.str path] ⟨[v0, v1], 2, [], w⟩ = .panic t ∧ t.world = w1 ∧ t.defers = [] := by
  exact ⟨_, by seval [h1], rfl, rfl⟩

theorem loadSig_crash (h1 : S.readFile path w = (.crash, w1)) :
    ∃ t, (interpK (repo S) (dataK FD) 20).call id!"signify" signature.readSignaturePath [.str path] ⟨[v0, v1], 2, [], w⟩ = .crash t ∧ t.world = w1 := by
  exact ⟨_, by seval [h1], rfl⟩

theorem loadPrivate_err {e : GoErr} (h1 : S.readFile path w = (.err e, w1)) :
    (interpK (repo S) (dataK FD) 20).call id!"signify" key.LoadPrivateKey [.str path] ⟨[v0, v1], 2, [], w⟩ = .ok [.nil, libErr e] ⟨[v0, v1], 2, [], w1⟩ := by
  seval [h1]

theorem loadPrivate_stop (h1 : S.readFile path w = (.panic, w1)) :
    ∃ t, (interpK (repo S) (dataK FD) 20).call id!"signify" key.LoadPrivateKey [.str path] ⟨[v0, v1], 2, [], w⟩ = .panic t ∧ t.world = w1 ∧ t.defers = [] := by
  exact ⟨_, by seval [h1], rfl, rfl⟩

theorem loadPrivate_crash (h1 : S.readFile path w = (.crash, w1)) :
    ∃ t, (interpK (repo S) (dataK FD) 20).call id!"signify" key.LoadPrivateKey [.str path] ⟨[v0, v1], 2, [], w⟩ = .crash t ∧ t.world = w1 := by
  exact ⟨_, by seval [h1], rfl⟩

end

end Verif.Src
