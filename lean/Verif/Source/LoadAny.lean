/-
The text of `LoadPublicKey` and of `readSignaturePath` compared with the model, for every file.
-/
import Verif.Source.LoadRun

namespace Verif.Src

variable {ω : Type} (S : Sys ω) (v0 v1 : Val)

/-- What an error of the model stands for, when it may also come from a library. -/
def Says (e : GoErr) (v : Val) : Prop := v = libErr e ∨ Means e v

theorem Says.err {e : GoErr} {v : Val} (h : Says e v) : ∃ x, v = .err x := by
  rcases h with rfl | h
  · exact ⟨_, rfl⟩
  · exact h.err

theorem Says.ren {e : GoErr} {v : Val} (h : Says e v) (E : Emb) : E.renV v = v := by
  obtain ⟨x, rfl⟩ := h.err
  rfl

theorem Agrees.more {α σ : Type} {o : Res α × σ} {world : σ → ω} {ok : α → σ → R ω (List Val) → Prop}
    {err : GoErr → σ → R ω (List Val) → Prop} {x y : M ω (List Val)} {s : St ω} (h : Agrees o world ok err (x s)) (le : Le x y)
    (h1 : ∀ a t, ¬ok a t .stuck) (h2 : ∀ e t, ¬err e t .stuck) : Agrees o world ok err (y s) := by
  rcases le s with st | st
  · rw [st] at h
    rcases o with ⟨a | e | _ | _ | _, t⟩
    · exact absurd h (h1 _ _)
    · exact absurd h (h2 _ _)
    · obtain ⟨t, e, _⟩ := h; cases e
    · obtain ⟨t, e, _⟩ := h; cases e
    · trivial
  · rw [st]; exact h

/-- A file that is read and parsed. -/
def loadWith {α : Type} (parse : Bytes → Res α) (path : Bytes) : Act ω α := do
  let data ← S.readFile path
  Act.ofRes (readDataFileBytes data >>= fun d => parse d.data)

/-- A run of a function that loads something. -/
noncomputable abbrev loading (f : Func) (FD : List Val → M ω (List Val)) (path : Bytes) (w : ω) : R ω (List Val) :=
  (interpK (repo S) (dataK FD) 20).call id!"signify" f [.str path] ⟨[v0, v1], 2, [], w⟩

/-- The good end of a function that loads something. -/
def Loaded {α : Type} (len i : Nat) (enc : α → Val) (a : α) (rs new : List Val) : Prop :=
  rs = [.ptr ⟨i + 2, []⟩, .nil] ∧ new.length = len ∧ new[i]? = some (enc a) ∧ Val.anyRefers (len + 2) new = false

/-- The bad end. -/
def Failed (e : GoErr) (rs new : List Val) : Prop := new = [] ∧ ∃ v, Says e v ∧ rs = [.nil, v]

theorem load_run {α : Type} (f : Func) (parse : Bytes → Res α) {len i : Nat} {enc : α → Val} (p0 : v0.refers 2 = false) (p1 : v1.refers 2 = false)
    (path : Bytes) (w : ω) {n : Nat} (hn' : 20 ≤ n) (hn : ∀ data w1, S.readFile path w = (.ok data, w1) → data.length + 43 ≤ n)
    (he : ∀ FD e w1, S.readFile path w = (.err e, w1) → loading S v0 v1 f FD path w = .ok [.nil, libErr e] ⟨[v0, v1], 2, [], w1⟩)
    (hp : ∀ FD w1, S.readFile path w = (.panic, w1) → ∃ t, loading S v0 v1 f FD path w = .panic t ∧ t.world = w1 ∧ t.defers = [])
    (hc : ∀ FD w1, S.readFile path w = (.crash, w1) → ∃ t, loading S v0 v1 f FD path w = .crash t ∧ t.world = w1)
    (hb : ∀ FD data w1 w2 e, S.readFile path w = (.ok data, w1) →
      FD [.slice ⟨3, []⟩ 0 data.length (byteVals data).length] ⟨fileMem v0 v1 path data, 6, [], w1⟩ =
        .ok [.nil, libErr e] ⟨fileMem v0 v1 path data, 6, [], w2⟩ → loading S v0 v1 f FD path w = .ok [.nil, libErr e] ⟨[v0, v1], 2, [], w2⟩)
    (hs : ∀ FD data w1 w2 m b, S.readFile path w = (.ok data, w1) →
      FD [.slice ⟨3, []⟩ 0 data.length (byteVals data).length] ⟨fileMem v0 v1 path data, 6, [], w1⟩ = .panic ⟨m, b, [], w2⟩ →
        ∃ t, loading S v0 v1 f FD path w = .panic t ∧ t.world = w2 ∧ t.defers = [])
    (ho : ∀ FD data w1 w2 new d, S.readFile path w = (.ok data, w1) → ReadTo v0 v1 FD path data w1 new w2 → Left 7 d new →
      Agrees (parse d.data, w2) id
        (fun a t r => ∃ rs new, Loaded len i enc a rs new ∧ r = .ok rs ⟨v0 :: v1 :: [] ++ new, 2, [], t⟩)
        (fun e t r => ∃ rs new, Failed e rs new ∧ r = .ok rs ⟨v0 :: v1 :: [] ++ new, 2, [], t⟩) (loading S v0 v1 f FD path w)) :
    Agrees (loadWith S parse path w) id
      (fun a t r => ∃ rs new, Loaded len i enc a rs new ∧ r = .ok rs ⟨v0 :: v1 :: [] ++ new, 2, [], t⟩)
      (fun e t r => ∃ rs new, Failed e rs new ∧ r = .ok rs ⟨v0 :: v1 :: [] ++ new, 2, [], t⟩)
      ((interp (repo S) n).call id!"signify" f [.str path] ⟨[v0, v1], 2, [], w⟩) := by
  have fail : ∀ e (t : ω), ∃ rs new, Failed e rs new ∧ (.ok [.nil, libErr e] ⟨[v0, v1], 2, [], t⟩ : R ω (List Val)) = .ok rs ⟨v0 :: v1 :: [] ++ new, 2, [], t⟩ :=
    fun e t => ⟨_, [], ⟨rfl, _, .inl rfl, rfl⟩, rfl⟩
  have le := (interpK_le (dataK_sound S (n - 20)) 20).trans (interp_mono (.refl (repo S)) (show 20 + (n - 20) ≤ n by omega))
  refine Agrees.more ?_ (le.call _ _ _) (by rintro a t ⟨_, _, _, h⟩; cases h) (by rintro a t ⟨_, _, _, h⟩; cases h)
  rw [loadWith, Act.bind_eq]
  rcases hr : S.readFile path w with ⟨data | e | _ | _ | _, w1⟩
  · have hk := hn data w1 hr
    have dn := data_in S (s := ⟨fileMem v0 v1 path data, 6, [], w1⟩) (v0 := v0) (v1 := v1) ⟨rfl, rfl, p0, p1⟩ (l := ⟨3, []⟩) (by simp)
      (bs := data) rfl (byteVals data).length (n := n - 20) (by omega)
    simp only [Act.ofRes]
    rcases hd : readDataFileBytes data with d | e | _ | _ | _
    · rw [hd] at dn
      obtain ⟨new, k1, k2, k3, k4, k5⟩ := dn
      exact ho _ data w1 w1 new d hr k5 ⟨k1, k2, k3, k4⟩
    · rw [hd] at dn
      have := hb (callOf S (n - 20) common.readDataFileBytes) data w1 w1 e hr dn
      exact Agrees.of (o' := (.err e, w1)) rfl this (fail e w1)
    · rw [hd] at dn
      obtain ⟨⟨m, b, df, w'⟩, k1, k2, k3⟩ := dn
      cases k2
      cases k3
      exact hs _ data _ _ m b hr k1
    · rw [hd] at dn
      exact absurd hd (by unfold readDataFileBytes; split; split <;> simp)
    · exact absurd hd (by unfold readDataFileBytes; split; split <;> simp)
  · exact Agrees.of (o' := (.err e, w1)) rfl (he _ e w1 hr) (fail e w1)
  · exact hp _ w1 hr
  · exact hc _ w1 hr
  · trivial


theorem anyRefers_append {b : Nat} {us vs : List Val} (h : Val.anyRefers b us = false) (k : Val.anyRefers b vs = false) :
    Val.anyRefers b (us ++ vs) = false := by
  rw [Val.anyRefers_false] at *
  intro v hv
  rcases List.mem_append.1 hv with hv | hv
  · exact h v hv
  · exact k v hv

theorem left_plain {path data : Bytes} {d : DataFile} {new tail : List Val} (hn : Left 7 d new) {k : Nat} (hk : 17 ≤ k) (ht : Val.anyRefers k tail = false) :
    Val.anyRefers k ((fileMem .nil .nil path data).drop 2 ++ new ++ tail) = false := by
  refine anyRefers_append (anyRefers_append ?_ ?_) ht
  · simp [fileMem, Val.anyRefers, Val.refers, byteVals_plain]
    omega
  · exact Val.anyRefers_mono hk _ hn.plain

/-- `LoadPublicKey(path string) (*Public, error)`, key.go:367-375. -/
theorem loadPublic_run (p0 : v0.refers 2 = false) (p1 : v1.refers 2 = false) (path : Bytes) (w : ω) {n : Nat} (hn' : 20 ≤ n)
    (hn : ∀ data w1, S.readFile path w = (.ok data, w1) → data.length + 43 ≤ n) :
    Agrees (loadWith S readPublicKeyData path w) id
      (fun a t r => ∃ rs new, Loaded 21 18 publicVal a rs new ∧ r = .ok rs ⟨v0 :: v1 :: [] ++ new, 2, [], t⟩)
      (fun e t r => ∃ rs new, Failed e rs new ∧ r = .ok rs ⟨v0 :: v1 :: [] ++ new, 2, [], t⟩)
      ((interp (repo S) n).call id!"signify" key.LoadPublicKey [.str path] ⟨[v0, v1], 2, [], w⟩) := by
  refine load_run S v0 v1 key.LoadPublicKey readPublicKeyData p0 p1 path w hn' hn
    (fun FD e w1 h => loadPublic_err S v0 v1 FD h) (fun FD w1 h => loadPublic_stop S v0 v1 FD h) (fun FD w1 h => loadPublic_crash S v0 v1 FD h)
    (fun FD data w1 w2 e h k => loadPublic_bad S v0 v1 FD h k) (fun FD data w1 w2 m b h k => loadPublic_panic S v0 v1 FD h k) ?_
  intro FD data w1 w2 new d hr h2 hl
  by_cases hd : d.data.length = 42
  · refine Agrees.of (o' := (.ok _, w2)) (by rw [readPublicKeyData, if_neg (by omega)])
      (loadPublic_ok S v0 v1 FD hr (copyZ 42 d.data) (by rw [listed_eq, copyZ_toList_eq hd]) h2 hl) ?_
    refine ⟨_, (fileMem v0 v1 path data).drop 2 ++ new ++ _, ⟨rfl, ?_, ?_, ?_⟩, rfl⟩
    · simp [fileMem, hl.length]
    · simp [fileMem, hl.length]
    · refine left_plain hl (by omega) ?_
      simp [Val.anyRefers, Val.refers, publicVal_plain]
  · refine Agrees.of (o' := (.err (.publicKeyLength d.data.length), w2)) (by rw [readPublicKeyData, if_pos (by omega)])
      (loadPublic_long S v0 v1 FD hr (by omega) h2 hl) ⟨_, [], ⟨rfl, _, .inr rfl, rfl⟩, rfl⟩

/-- `readSignaturePath(path string) (*Signature, error)`, signature.go:44-51. -/
theorem loadSig_run (p0 : v0.refers 2 = false) (p1 : v1.refers 2 = false) (path : Bytes) (w : ω) {n : Nat} (hn' : 20 ≤ n)
    (hn : ∀ data w1, S.readFile path w = (.ok data, w1) → data.length + 43 ≤ n) :
    Agrees (loadWith S readSignatureData path w) id
      (fun a t r => ∃ rs new, Loaded 20 18 signatureVal a rs new ∧ r = .ok rs ⟨v0 :: v1 :: [] ++ new, 2, [], t⟩)
      (fun e t r => ∃ rs new, Failed e rs new ∧ r = .ok rs ⟨v0 :: v1 :: [] ++ new, 2, [], t⟩)
      ((interp (repo S) n).call id!"signify" signature.readSignaturePath [.str path] ⟨[v0, v1], 2, [], w⟩) := by
  refine load_run S v0 v1 signature.readSignaturePath readSignatureData p0 p1 path w hn' hn
    (fun FD e w1 h => loadSig_err S v0 v1 FD h) (fun FD w1 h => loadSig_stop S v0 v1 FD h) (fun FD w1 h => loadSig_crash S v0 v1 FD h)
    (fun FD data w1 w2 e h k => loadSig_bad S v0 v1 FD h k) (fun FD data w1 w2 m b h k => loadSig_panic S v0 v1 FD h k) ?_
  intro FD data w1 w2 new d hr h2 hl
  by_cases hd : d.data.length < 10
  · exact Agrees.of (o' := (.panic, w2)) (by rw [readSignatureData, if_pos hd]) rfl (loadSig_short S v0 v1 FD hr hd h2 hl)
  · refine Agrees.of (o' := (.ok _, w2)) (by rw [readSignatureData, if_neg hd])
      (loadSig_ok S v0 v1 FD hr (copyZ 10 d.data) (d.data.drop 10) (by
        rw [listed_eq, copyZ_toList_of_le (by omega), List.take_append_drop]) h2 hl) ?_
    refine ⟨_, (fileMem v0 v1 path data).drop 2 ++ new ++ _, ⟨rfl, ?_, ?_, ?_⟩, rfl⟩
    · simp [fileMem, hl.length]
    · simp [fileMem, hl.length]
    · refine left_plain hl (by omega) ?_
      simp [Val.anyRefers, Val.refers, signatureVal_plain]

/-- A function that loads something, in any memory. -/
theorem load_in {α : Type} {f : Func} {parse : Bytes → Res α} {len i : Nat} {enc : α → Val} (henc : ∀ a, (enc a).refers 0 = false) {s : St ω} {v0 v1 : Val}
    (G : Globals s v0 v1) {path : Bytes} {n : Nat}
    (h : Agrees (loadWith S parse path s.world) id
      (fun a t r => ∃ rs new, Loaded len i enc a rs new ∧ r = .ok rs ⟨v0 :: v1 :: [] ++ new, 2, [], t⟩)
      (fun e t r => ∃ rs new, Failed e rs new ∧ r = .ok rs ⟨v0 :: v1 :: [] ++ new, 2, [], t⟩)
      ((interp (repo S) n).call id!"signify" f [.str path] ⟨[v0, v1], 2, [], s.world⟩)) :
    Ends s.defers (loadWith S parse path s.world) id
      (fun a t r => ∃ new, new.length = len ∧ new[i]? = some (enc a) ∧ Val.anyRefers (s.mem.length + len) new = false ∧
        r = .ok [.ptr ⟨s.mem.length + i, []⟩, .nil] ⟨s.mem ++ new, s.base, s.defers, t⟩)
      (fun e t r => ∃ v, Says e v ∧ r = .ok [.nil, v] ⟨s.mem, s.base, s.defers, t⟩)
      ((interp (repo S) n).call id!"signify" f [.str path] s) := by
  have c := carry_keep S (Nat.le_refl n) (ρ := []) (us := []) G (by simp) (by simp) rfl h
  refine c.mono ?_ ?_
  · rintro a t ⟨rs, new, ⟨rfl, h1, h2, h3⟩, k⟩
    refine ⟨(beside s []).renVs new, by rw [Emb.renVs_length, h1], ?_, ?_, ?_⟩
    · rw [Emb.renVs_eq, List.getElem?_map, h2, Option.map_some, Emb.renV_plain _ _ (henc a)]
    · have v := beside_valid G (ρ := []) (by simp) (by simp) (by simp)
      rw [← h3]
      exact Emb.renVs_refers (fun m => Emb.ren_lt v (b := len + 2) (by simp)) new
    · refine k.trans ?_
      simp only [Emb.renVs, Emb.renV]
      rfl
  · rintro e t ⟨rs, new, ⟨rfl, v, hv, rfl⟩, k⟩
    refine ⟨v, hv, ?_⟩
    refine k.trans ?_
    simp only [Emb.renVs, List.append_nil, hv.ren, Emb.renV]
    rfl

end Verif.Src
