/-
The text of `LoadPrivateKey` of signify/key.go, with `readPrivateKeyFile` and `readPrivateKeyData`, compared with the model.
-/
import Verif.Source.LoadAny
import Verif.Source.EvalFar

namespace Verif.Src

variable {ω : Type} (S : Sys ω) (v0 v1 : Val)

/-- A private key in memory. -/
def privateVal (priv : Private) : Val :=
  .struct id!"Private" [(id!"keyAlgo", encArr priv.keyAlgo), (id!"kdfAlgo", encArr priv.kdfAlgo), (id!"kdfRounds", .int .uint32 priv.kdfRounds.toNat),
    (id!"salt", encArr priv.salt), (id!"checksum", encArr priv.checksum), (id!"keyNum", encArr priv.keyNum), (id!"key", encArr priv.key)]

theorem privateVal_plain (priv : Private) (k : Nat) : (privateVal priv).refers k = false := by
  refine Val.refers_mono (Nat.zero_le k) _ ?_
  simp [privateVal, Val.refers, Val.fieldRefers, Emb.encArr_plain]

/-- The bytes of a slice, as the program reads them from memory. -/
abbrev readOf (vs : List Val) (k : Nat) : Bytes := ((vs.drop 0).take k).map valByte

section
variable (FD : List Val → M ω (List Val)) {path data c : Bytes} {w w1 w2 : ω} {pre post vs : List Val} {k : Nat}
variable (h1 : S.readFile path w = (.ok data, w1))
variable (h2 : FD [.slice ⟨3, []⟩ 0 data.length (byteVals data).length] ⟨fileMem v0 v1 path data, 6, [], w1⟩ =
    .ok [.ptr ⟨9, []⟩, .nil] ⟨fileMem v0 v1 path data ++ (spread 2 pre ++ dataVal c (.slice ⟨7 + 9, []⟩ 0 k k) :: spread 6 post ++ [.arr vs]), 6, [], w2⟩)
include h1 h2

theorem private_0 {e : GoErr} (e1 : bufRead 2 (readOf vs k) = .err e) :
    loading S v0 v1 key.LoadPrivateKey FD path w = .ok [.nil, libErr e] ⟨[v0, v1], 2, [], w2⟩ := by
  sevalf [h1, h2, e1]

variable {g1 d1 : Bytes} (e1 : bufRead 2 (readOf vs k) = .ok (g1, d1))
include e1

theorem private_1 {e : GoErr} (e2 : bufRead 2 (d1) = .err e) :
    loading S v0 v1 key.LoadPrivateKey FD path w = .ok [.nil, libErr e] ⟨[v0, v1], 2, [], w2⟩ := by
  sevalf [h1, h2, e1, e2]

variable {g2 d2 : Bytes} (e2 : bufRead 2 (d1) = .ok (g2, d2))
include e2

theorem private_2 {e : GoErr} (e3 : binReadU32 (d2) = .err e) :
    loading S v0 v1 key.LoadPrivateKey FD path w = .ok [.nil, libErr e] ⟨[v0, v1], 2, [], w2⟩ := by
  sevalf [h1, h2, e1, e2, e3]

variable {r : BitVec 32} {d3 : Bytes} (e3 : binReadU32 (d2) = .ok (r, d3))
include e3

theorem private_3 {e : GoErr} (e4 : bufRead 16 (d3) = .err e) :
    loading S v0 v1 key.LoadPrivateKey FD path w = .ok [.nil, libErr e] ⟨[v0, v1], 2, [], w2⟩ := by
  sevalf [h1, h2, e1, e2, e3, e4]

variable {g4 d4 : Bytes} (e4 : bufRead 16 (d3) = .ok (g4, d4))
include e4

theorem private_4 {e : GoErr} (e5 : bufRead 8 (d4) = .err e) :
    loading S v0 v1 key.LoadPrivateKey FD path w = .ok [.nil, libErr e] ⟨[v0, v1], 2, [], w2⟩ := by
  sevalf [h1, h2, e1, e2, e3, e4, e5]

variable {g5 d5 : Bytes} (e5 : bufRead 8 (d4) = .ok (g5, d5))
include e5

theorem private_5 {e : GoErr} (e6 : bufRead 8 (d5) = .err e) :
    loading S v0 v1 key.LoadPrivateKey FD path w = .ok [.nil, libErr e] ⟨[v0, v1], 2, [], w2⟩ := by
  sevalf [h1, h2, e1, e2, e3, e4, e5, e6]

variable {g6 d6 : Bytes} (e6 : bufRead 8 (d5) = .ok (g6, d6))
include e6

theorem private_6 {e : GoErr} (e7 : bufRead 64 (d6) = .err e) :
    loading S v0 v1 key.LoadPrivateKey FD path w = .ok [.nil, libErr e] ⟨[v0, v1], 2, [], w2⟩ := by
  sevalf [h1, h2, e1, e2, e3, e4, e5, e6, e7]

theorem private_ok {g7 d7 : Bytes} (e7 : bufRead 64 (d6) = .ok (g7, d7)) :
    loading S v0 v1 key.LoadPrivateKey FD path w = .ok [.ptr ⟨22, []⟩, .nil] ⟨fileMem v0 v1 path data ++
      (spread 2 pre ++ dataVal c (.slice ⟨7 + 9, []⟩ 0 k k) :: spread 6 post ++ [.arr vs]) ++ [.ptr ⟨9, []⟩, .nil, .slice ⟨16, []⟩ 0 k k,
        .str d7, .ptr ⟨20, []⟩,
        privateVal ⟨copyZ 2 g1, copyZ 2 g2, r, copyZ 16 g4, copyZ 8 g5, copyZ 8 g6, copyZ 64 g7⟩, .ptr ⟨22, []⟩, .nil], 2, [], w2⟩ := by
  rw [privateVal]
  simp only [enc_copyZ]
  sevalf [h1, h2, e1, e2, e3, e4, e5, e6, e7]

end

theorem bufRead_cases (n : Nat) (b : Bytes) : (∃ g t, bufRead n b = .ok (g, t)) ∨ ∃ e, bufRead n b = .err e := by
  unfold bufRead
  split
  · exact .inr ⟨_, rfl⟩
  · exact .inl ⟨_, _, rfl⟩

theorem binReadU32_cases (b : Bytes) : (∃ g t, binReadU32 b = .ok (g, t)) ∨ ∃ e, binReadU32 b = .err e := by
  unfold binReadU32
  (repeat' split) <;> simp

/-- `LoadPrivateKey(path string) (*Private, error)`, key.go:187-195. -/
theorem loadPrivate_run (p0 : v0.refers 2 = false) (p1 : v1.refers 2 = false) (path : Bytes) (w : ω) {n : Nat} (hn' : 20 ≤ n)
    (hn : ∀ data w1, S.readFile path w = (.ok data, w1) → data.length + 43 ≤ n) :
    Agrees (loadWith S readPrivateKeyData path w) id
      (fun a t r => ∃ rs new, Loaded 23 20 privateVal a rs new ∧ r = .ok rs ⟨v0 :: v1 :: [] ++ new, 2, [], t⟩)
      (fun e t r => ∃ rs new, Failed e rs new ∧ r = .ok rs ⟨v0 :: v1 :: [] ++ new, 2, [], t⟩)
      ((interp (repo S) n).call id!"signify" key.LoadPrivateKey [.str path] ⟨[v0, v1], 2, [], w⟩) := by
  refine load_run S v0 v1 key.LoadPrivateKey readPrivateKeyData p0 p1 path w hn' hn
    (fun FD e w1 h => loadPrivate_err S v0 v1 FD h) (fun FD w1 h => loadPrivate_stop S v0 v1 FD h) (fun FD w1 h => loadPrivate_crash S v0 v1 FD h)
    (fun FD data w1 w2 e h k => loadPrivate_bad S v0 v1 FD h k) (fun FD data w1 w2 m b h k => loadPrivate_panic S v0 v1 FD h k) ?_
  intro FD data w1 w2 new d hr h2 hl
  have hl' := hl
  obtain ⟨c, d⟩ := d
  obtain ⟨pre, post, rfl⟩ := data_shape hl.length hl.file hl.data
  have ht : readOf (byteVals d) d.length = d := by
    rw [readOf, List.drop_zero, List.take_of_length_le (by rw [byteVals_length]), map_valByte_byteVals]
  have fail : ∀ e (t : ω), ∃ rs new, Failed e rs new ∧ (.ok [.nil, libErr e] ⟨[v0, v1], 2, [], t⟩ : R ω (List Val)) = .ok rs ⟨v0 :: v1 :: [] ++ new, 2, [], t⟩ :=
    fun e t => ⟨_, [], ⟨rfl, _, .inl rfl, rfl⟩, rfl⟩
  simp only
  unfold readPrivateKeyData
  rcases bufRead_cases 2 d with ⟨g1, d1, e1⟩ | ⟨e, e1⟩ <;> rw [e1]
  rotate_left
  · exact Agrees.of (o' := (.err e, w2)) rfl (private_0 S v0 v1 FD hr h2  (ht.symm ▸ e1)) (fail _ _)
  simp only [Res.bind_ok]
  rcases bufRead_cases 2 d1 with ⟨g2, d2, e2⟩ | ⟨e, e2⟩ <;> rw [e2]
  rotate_left
  · exact Agrees.of (o' := (.err e, w2)) rfl (private_1 S v0 v1 FD hr h2 (ht.symm ▸ e1) e2) (fail _ _)
  simp only [Res.bind_ok]
  rcases binReadU32_cases d2 with ⟨r, d3, e3⟩ | ⟨e, e3⟩ <;> rw [e3]
  rotate_left
  · exact Agrees.of (o' := (.err e, w2)) rfl (private_2 S v0 v1 FD hr h2 (ht.symm ▸ e1) e2 e3) (fail _ _)
  simp only [Res.bind_ok]
  rcases bufRead_cases 16 d3 with ⟨g4, d4, e4⟩ | ⟨e, e4⟩ <;> rw [e4]
  rotate_left
  · exact Agrees.of (o' := (.err e, w2)) rfl (private_3 S v0 v1 FD hr h2 (ht.symm ▸ e1) e2 e3 e4) (fail _ _)
  simp only [Res.bind_ok]
  rcases bufRead_cases 8 d4 with ⟨g5, d5, e5⟩ | ⟨e, e5⟩ <;> rw [e5]
  rotate_left
  · exact Agrees.of (o' := (.err e, w2)) rfl (private_4 S v0 v1 FD hr h2 (ht.symm ▸ e1) e2 e3 e4 e5) (fail _ _)
  simp only [Res.bind_ok]
  rcases bufRead_cases 8 d5 with ⟨g6, d6, e6⟩ | ⟨e, e6⟩ <;> rw [e6]
  rotate_left
  · exact Agrees.of (o' := (.err e, w2)) rfl (private_5 S v0 v1 FD hr h2 (ht.symm ▸ e1) e2 e3 e4 e5 e6) (fail _ _)
  simp only [Res.bind_ok]
  rcases bufRead_cases 64 d6 with ⟨g7, d7, e7⟩ | ⟨e, e7⟩ <;> rw [e7]
  rotate_left
  · exact Agrees.of (o' := (.err e, w2)) rfl (private_6 S v0 v1 FD hr h2 (ht.symm ▸ e1) e2 e3 e4 e5 e6 e7) (fail _ _)
  simp only [Res.bind_ok]
  refine Agrees.of (o' := (.ok _, w2)) rfl (private_ok S v0 v1 FD hr h2 (ht.symm ▸ e1) e2 e3 e4 e5 e6 e7) ?_
  refine ⟨_, (fileMem v0 v1 path data).drop 2 ++ _ ++ _, ⟨rfl, ?_, ?_, left_plain hl' (by omega) ?_⟩, rfl⟩
  · simp [fileMem, spread]
  · simp [fileMem, spread]
  · simp [Val.anyRefers, Val.refers, privateVal_plain]

end Verif.Src
