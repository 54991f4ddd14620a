/-
What `Seal` leaves in the encrypted file, however it ends, when reads are not cut short.
-/
import Verif.Props.SealFiles

namespace Verif
open Spec World B64

variable {σ : Type}

/-! ### The encoder after a failure -/

theorem encWriteLoop_fail (under : Writer σ) (bs : Bytes) (n : Nat) (s : EncState × σ)
    (h : ∀ k, (encWriteLoop under n bs s).1 ≠ .ok k) : (encWriteLoop under n bs s).2.1.pending = [] := by
  induction bs generalizing n s with
  | nil => exact absurd rfl (h n)
  | cons b bs ih =>
    rw [encWriteLoop] at h ⊢
    rw [Act.bind_eq] at h ⊢
    simp only [Act.getFst] at h ⊢
    split at h
    · rename_i hl
      rw [if_pos hl]
      rw [Act.bind_eq] at h ⊢
      simp only [Act.setFst] at h ⊢
      rw [Act.bind_eq] at h ⊢
      simp only [Act.onSnd] at h ⊢
      rcases hu : under (encode (s.1.pending ++ [b])) s.2 with ⟨r1, s1⟩
      rw [hu] at h
      cases r1 with
      | ok k =>
        simp only at h ⊢
        rw [Act.bind_eq] at h ⊢
        simp only [Act.setFst] at h ⊢
        split at h
        · rename_i h54
          rw [if_pos h54]
          rw [Act.bind_eq] at h ⊢
          simp only [Act.onSnd] at h ⊢
          rcases hu2 : under [10] s1 with ⟨r2, s2⟩
          rw [hu2] at h
          cases r2 with
          | ok k2 =>
            simp only at h ⊢
            rw [Act.bind_eq] at h ⊢
            simp only [Act.setFst] at h ⊢
            exact ih _ _ h
          | _ => rfl
        · rename_i h54
          rw [if_neg h54]
          exact ih _ _ h
      | _ => rfl
    · rename_i hl
      rw [if_neg hl]
      rw [Act.bind_eq] at h ⊢
      simp only [Act.setFst] at h ⊢
      exact ih _ _ h

theorem encClose_empty (under : Writer σ) (e : EncState) (s : σ) (h : e.pending = []) :
    (encClose under (e, s)).2.2 = (under [10] s).2 := by
  unfold encClose
  rw [Act.bind_eq]
  simp only [Act.getFst, h, List.length_nil, Nat.lt_irrefl, if_false, gt_iff_lt]
  rw [Act.bind_eq]
  simp only [Act.onSnd]
  rcases hu : under [10] s with ⟨r, s'⟩
  cases r <;> rfl

/-! ### The loop -/

/-- Reads of the chunk size that succeed return all that is left of `m`, up to that size; `d` is what has been given to the
writer, also by a failing write. -/
structure Filled (rd : Reader σ) (w : Writer σ) (m : Bytes) (J : Bytes → Bytes → σ → Prop) (F : Bytes → σ → Prop) : Prop where
  read : ∀ {l d s got s'}, J l d s → rd chunkSize s = (.ok got, s') → got ≠ [] ∧ got = (m.drop l.length).take chunkSize ∧ J (l ++ got) d s'
  readFail : ∀ {l d s r s'}, J l d s → rd chunkSize s = (r, s') → (∀ g, r ≠ .ok g) → F d s'
  write : ∀ {l d s bs k s'}, J l d s → w bs s = (.ok k, s') → J l (d ++ bs) s'
  writeFail : ∀ {l d s bs r s'}, J l d s → w bs s = (r, s') → (∀ k, r ≠ .ok k) → F (d ++ bs) s'
  stop : ∀ {l d s}, J l d s → F d s

variable {rd : Reader σ} {w : Writer σ} {m : Bytes} {J : Bytes → Bytes → σ → Prop} {F : Bytes → σ → Prop}

theorem sealLoop_filled (hc : Filled rd w m J F) (P : Prims) (sh : Arr 32) (n i : Nat) {l d : Bytes} {s : σ}
    (hJ : J l d s) :
    ∃ k, F (d ++ (sealedFrom P sh i ((pieces 16385 (by decide) (m.drop l.length)).take k)).flatten)
      (sealLoop P sh rd w n (nonceOf i) s).2 := by
  have h0 : ∀ {s'}, F d s' → ∃ k, F (d ++ (sealedFrom P sh i ((pieces 16385 (by decide) (m.drop l.length)).take k)).flatten) s' :=
    fun h => ⟨0, by simpa [sealedFrom] using h⟩
  induction n generalizing i l d s with
  | zero => exact h0 (by simpa [sealLoop] using hc.stop hJ)
  | succ n ih =>
    simp only [sealLoop]
    rw [Act.bind_eq]
    rcases h1 : rd chunkSize s with ⟨r1, s1⟩
    cases r1 with
    | err e => exact h0 (hc.readFail hJ h1 (by simp))
    | panic => exact h0 (hc.readFail hJ h1 (by simp))
    | crash => exact h0 (hc.readFail hJ h1 (by simp))
    | hang => exact h0 (hc.readFail hJ h1 (by simp))
    | ok chunk =>
      obtain ⟨hne, hchunk, hJ1⟩ := hc.read hJ h1
      have hcne : m.drop l.length ≠ [] := by
        intro h; rw [h] at hchunk; exact hne (by simpa using hchunk)
      have hp : pieces 16385 (by decide) (m.drop l.length) =
          chunk :: pieces 16385 (by decide) ((m.drop l.length).drop 16385) := by
        rw [pieces, if_neg hcne, hchunk]; rfl
      simp only
      rw [Act.bind_eq]
      rcases h2 : w (P.boxSeal sh (nonceOf i) chunk) s1 with ⟨r2, s2⟩
      have h1' : ∀ {s'}, F (d ++ P.boxSeal sh (nonceOf i) chunk) s' →
          ∃ k, F (d ++ (sealedFrom P sh i ((pieces 16385 (by decide) (m.drop l.length)).take k)).flatten) s' :=
        fun h => ⟨1, by rw [hp]; simpa [sealedFrom] using h⟩
      cases r2 with
      | err e => exact h1' (hc.writeFail hJ1 h2 (by simp))
      | panic => exact h1' (hc.writeFail hJ1 h2 (by simp))
      | crash => exact h1' (hc.writeFail hJ1 h2 (by simp))
      | hang => exact h1' (hc.writeFail hJ1 h2 (by simp))
      | ok k =>
        have hJ2 := hc.write hJ1 h2
        rcases incrementNonce_cases i with hn | hn
        · simp only [Act.bind_eq, Act.ofRes_apply, hn]
          obtain ⟨k, hF⟩ := ih (i + 1) hJ2 (fun h => ⟨0, by simpa [sealedFrom] using h⟩)
          refine ⟨k + 1, ?_⟩
          have hd : m.drop (l ++ chunk).length = (m.drop l.length).drop 16385 ∨ (m.drop (l ++ chunk).length = [] ∧ (m.drop l.length).drop 16385 = []) := by
            have hlen := congrArg List.length hchunk
            rw [List.length_take, List.length_drop] at hlen
            unfold chunkSize at hlen
            rw [List.length_append, ← List.drop_drop]
            by_cases hc16 : 16385 ≤ m.length - l.length
            · left; rw [hlen, Nat.min_eq_left hc16]
            · right
              rw [hlen, Nat.min_eq_right (by omega)]
              constructor <;> (apply List.drop_eq_nil_of_le; rw [List.length_drop]; omega)
          have hd' : pieces 16385 (by decide) (m.drop (l ++ chunk).length) = pieces 16385 (by decide) ((m.drop l.length).drop 16385) := by
            rcases hd with h | ⟨h, h'⟩
            · rw [h]
            · rw [h, h']
          rw [hp, List.take_succ_cons, sealedFrom, List.flatten_cons, ← hd', ← List.append_assoc]
          exact hF
        · simp only [Act.bind_eq, Act.ofRes_apply, hn]
          exact h1' (hc.stop hJ2)

theorem sealRest_filled (hc : Filled rd w m J F) (P : Prims) (sh epub : Arr 32) (n : Nat) {d : Bytes} {s : σ} (hJ : J [] d s) :
    ∃ k, F (d ++ (headerOf P sh epub n ++ (sealedFrom P sh 0 ((pieces 16385 (by decide) m).take k)).flatten))
        ((w (headerOf P sh epub n) >>= fun _ => sealLoop P sh rd w n (nonceOf 0)) s).2 := by
  generalize headerOf P sh epub n = hdr
  rw [Act.bind_eq]
  rcases h3 : w hdr s with ⟨r3, s3⟩
  have h0 : F (d ++ hdr) s3 → ∃ k, F (d ++ (hdr ++ (sealedFrom P sh 0 ((pieces 16385 (by decide) m).take k)).flatten)) s3 :=
    fun h => ⟨0, by simpa [sealedFrom] using h⟩
  cases r3 with
  | err e => exact h0 (hc.writeFail hJ h3 (by simp))
  | panic => exact h0 (hc.writeFail hJ h3 (by simp))
  | crash => exact h0 (hc.writeFail hJ h3 (by simp))
  | hang => exact h0 (hc.writeFail hJ h3 (by simp))
  | ok k =>
    obtain ⟨k, hF⟩ := sealLoop_filled hc P sh n 0 (hc.write hJ h3)
    exact ⟨k, by rw [← List.append_assoc]; exact hF⟩

theorem sealKeys_filled (hc : Filled rd w m J F) (P : Prims) (tb : Res (Arr 32)) {rand : Act σ (Arr 32)}
    (hr : Silent rand J (fun _ d s => F d s)) (n : Nat) {d : Bytes} {s : σ} (hJ : J [] d s) :
    F d ((Act.ofRes tb >>= fun edpub => rand >>= fun epriv =>
      w (headerOf P (P.precompute edpub epriv) (P.x25519Base epriv) n) >>= fun _ =>
      sealLoop P (P.precompute edpub epriv) rd w n (nonceOf 0)) s).2 ∨
    ∃ edpub epriv k, tb = .ok edpub ∧ (rand s).1 = .ok epriv ∧
      F (d ++ (headerOf P (P.precompute edpub epriv) (P.x25519Base epriv) n ++
        (sealedFrom P (P.precompute edpub epriv) 0 ((pieces 16385 (by decide) m).take k)).flatten))
        ((Act.ofRes tb >>= fun edpub => rand >>= fun epriv =>
      w (headerOf P (P.precompute edpub epriv) (P.x25519Base epriv) n) >>= fun _ =>
      sealLoop P (P.precompute edpub epriv) rd w n (nonceOf 0)) s).2 := by
  rw [Act.bind_eq, Act.ofRes_apply]
  cases tb with
  | err e => exact .inl (hc.stop hJ)
  | panic => exact .inl (hc.stop hJ)
  | crash => exact .inl (hc.stop hJ)
  | hang => exact .inl (hc.stop hJ)
  | ok edpub =>
    simp only
    rw [Act.bind_eq]
    rcases h2 : rand s with ⟨r2, s2⟩
    cases r2 with
    | err e => exact .inl (hr.fail hJ h2 (by simp))
    | panic => exact .inl (hr.fail hJ h2 (by simp))
    | crash => exact .inl (hr.fail hJ h2 (by simp))
    | hang => exact .inl (hr.fail hJ h2 (by simp))
    | ok epriv =>
      right
      obtain ⟨k, h4⟩ := sealRest_filled hc P (P.precompute edpub epriv) (P.x25519Base epriv) n (hr.ok hJ h2)
      exact ⟨edpub, epriv, k, rfl, rfl, h4⟩

theorem sealBox_filled (hc : Filled rd w m J F) (P : Prims) (pub : Public) {rand : Act σ (Arr 32)}
    (hr : Silent rand J (fun _ d s => F d s)) (len : Nat) {d : Bytes} {s : σ} (hJ : J [] d s) :
    F d (sealBox P pub rand rd len w s).2 ∨
    ∃ edpub epriv k, pub.toBox = .ok edpub ∧ (rand s).1 = .ok epriv ∧
      F (d ++ (headerOf P (P.precompute edpub epriv) (P.x25519Base epriv) (chunkCount len) ++
        (sealedFrom P (P.precompute edpub epriv) 0 ((pieces 16385 (by decide) m).take k)).flatten)) (sealBox P pub rand rd len w s).2 := by
  by_cases hlen : len = 0
  · left
    rw [sealBox_empty P pub rand len hlen s]; exact hc.stop hJ
  rw [sealBox_unfold P pub rand len hlen s]
  exact sealKeys_filled hc P pub.toBox hr (chunkCount len) hJ

/-! ### Files -/

/-- No read is cut short from now on. -/
def NoShort (w : World) : Prop := ∀ i, w.tick ≤ i → ∀ n, w.sched i ≠ .short n

theorem readHandle_full {h n : Nat} {p : Path} {off : Nat} {w : World} {f : File} {got : Bytes} {w' : World}
    (hh : w.handles[h]? = some ⟨p, off⟩) (hf : w.fs p = some f) (hs : ∀ k, w.sched w.tick ≠ .short k) (hn : 0 < n)
    (h' : readHandle h n w = (.ok got, w')) : got = (f.data.drop off).take n := by
  unfold readHandle at h'
  simp only [hh, hf, if_neg (show n ≠ 0 by omega)] at h'
  cases hd : w.sched w.tick with
  | ok =>
    rw [hd] at h'
    simp only at h'
    split at h'
    · simp at h'
    · simp only [Prod.mk.injEq, Res.ok.injEq] at h'
      exact h'.1.symm
  | short k => exact absurd hd (hs k)
  | fail k => rw [hd] at h'; simp at h'
  | crash k => rw [hd] at h'; simp at h'

section Tail

variable (w0 : World) (mp ep : Path) (mode hm he : Nat)

/-- After any end: the encoder holds nothing and a beginning of its output was written, or it works as it should. -/
def SealEnd (d : Bytes) (s : EncState × World) : Prop :=
  ∃ c, Sealing w0 mp ep mode hm he c s.2 ∧ (s.1.pending = [] ∧ c <+: emitted d ∨ s.1 = stateOf d ∧ c = emitted d)

variable {w0 mp ep mode hm he}

theorem sealFilled (hne : hm ≠ he) (hpath : mp ≠ ep) (hs : NoShort w0) {f0 : File} (hfile : w0.fs mp = some f0) :
    Filled (fun n => Act.onSnd (World.readHandle hm n)) (encWrite (World.writeHandle he)) f0.data
      (SealJ w0 mp ep mode hm he f0.data) (SealEnd w0 mp ep mode hm he) := by
  have hc := sealChannel (w0 := w0) (ep := ep) (mode := mode) (m := f0.data) hne ⟨f0, hfile, rfl⟩
  have hstop : ∀ {l d s}, SealJ w0 mp ep mode hm he f0.data l d s → SealEnd w0 mp ep mode hm he d s :=
    fun ⟨hS, he', _⟩ => ⟨_, hS, .inr ⟨he', rfl⟩⟩
  refine ⟨fun {l d s got s'} hJ h => ?_, fun {l d s r s'} hJ h hr => ?_, hc.write, fun {l d s bs r s'} hJ h hr => ?_, hstop⟩
  · have hJ' := hc.read (by decide) hJ h
    obtain ⟨e, w⟩ := s
    obtain ⟨hS, he', hm'⟩ := hJ
    simp only at hS hm'
    obtain ⟨hl, -⟩ := hm' hpath
    have hf : w.fs mp = some f0 := by rw [hS.enc.other hpath, hfile]
    rw [Act.onSnd_apply] at h
    rcases hrd : readHandle hm chunkSize w with ⟨r1, w1⟩
    simp only [hrd, Prod.mk.injEq] at h
    obtain ⟨rfl, rfl⟩ := h
    have hgot := readHandle_full hl hf (by rw [hS.frame.sched]; exact hs _ hS.tick) (by decide) hrd
    refine ⟨?_, hgot, hJ'⟩
    obtain ⟨r, w', h1, -, -, -, -, h6⟩ := readHandle_at hl hf (n := chunkSize) (by decide)
    rw [hrd] at h1
    obtain ⟨rfl, rfl⟩ := Prod.mk.inj h1
    rcases h6 with ⟨got', h, hx, -⟩ | ⟨h, -⟩ | ⟨-, h | h, -⟩
    · obtain rfl := Res.ok.inj h; exact hx
    · cases h
    · cases h
    · cases h
  · obtain ⟨e, w⟩ := s
    obtain ⟨hS, he', hm'⟩ := hJ
    simp only at hS hm' he'
    obtain ⟨hl, -⟩ := hm' hpath
    have hf : w.fs mp = some f0 := by rw [hS.enc.other hpath, hfile]
    rw [Act.onSnd_apply] at h
    obtain ⟨r1, w', h1, h2, h3, h4, h5, h6⟩ := readHandle_at hl hf (n := chunkSize) (by decide)
    simp only [h1, Prod.mk.injEq] at h
    obtain ⟨rfl, rfl⟩ := h
    refine ⟨emitted d, ⟨⟨by rw [h2]; exact hS.enc.fs, by rw [h5 he (Ne.symm hne)]; exact hS.enc.hd⟩, hS.frame.trans h3.toIOR,
      by have := hS.tick; simp only at *; omega, ?_⟩, .inr ⟨he', rfl⟩⟩
    rcases h6 with ⟨got, -, -, -, -, h, -⟩ | ⟨-, -, h⟩ | ⟨-, -, h⟩ <;> exact ⟨_, h⟩
  · obtain ⟨e, w⟩ := s
    have hp := encWriteLoop_fail (writeHandle he) bs 0 (e, w) (by
      intro k hk
      have : (encWrite (writeHandle he) bs (e, w)).1 = .ok k := hk
      rw [h] at this; exact hr k this)
    have h' : encWriteLoop (writeHandle he) 0 bs (e, w) = (r, s') := h
    rw [h'] at hp
    obtain ⟨hS, he', -⟩ := hJ
    simp only at he' hS
    subst he'
    obtain ⟨off, hoff⟩ := hS.msg
    obtain ⟨⟨hpre, -⟩, -, ⟨c, h3⟩, -⟩ := encWrite_on (writeHandle_faithful hne off) bs d w ⟨⟨_, hS⟩, hoff⟩
    rw [h] at hpre h3
    obtain ⟨ext, he1, he2⟩ := hpre
    rw [recv_at h3, recv_at hS, List.append_assoc] at he1
    refine ⟨c, h3, .inl ⟨hp, ?_⟩⟩
    rw [List.append_cancel_left he1]; exact he2

theorem sealRandEnd : Silent (Act.onSnd (World.entropy 32) : Act (EncState × World) (Arr 32))
      (SealJ w0 mp ep mode hm he m) (fun _ d s => SealEnd w0 mp ep mode hm he d s) := by
  have hr := sealRand (w0 := w0) (mp := mp) (ep := ep) (mode := mode) (hm := hm) (he := he) (m := m)
  refine ⟨hr.ok, fun {l d s r s'} hJ h _ => ?_⟩
  obtain ⟨e, w⟩ := s
  obtain ⟨hS, he', -⟩ := hJ
  simp only at hS he'
  rw [Act.onSnd_apply] at h
  obtain ⟨-, rfl⟩ := Prod.mk.inj h
  refine ⟨emitted d, ?_, .inr ⟨he', rfl⟩⟩
  rcases entropy_spec 32 w with ⟨-, h⟩ | ⟨-, h⟩ <;> rw [h] <;>
    exact ⟨⟨hS.enc.fs, hS.enc.hd⟩, hS.frame.trans rfl, by have := hS.tick; simp only; omega, hS.msg⟩

theorem stripNL_mono {a b : Bytes} (h : a <+: b) : stripNL a <+: stripNL b := by
  obtain ⟨t, rfl⟩ := h
  rw [stripNL_append]; exact List.prefix_append _ _

theorem emitted_encode (d : Bytes) : stripNL (emitted d) <+: encode d := by
  rw [← Props.stripNL_encodedText, encodedText_eq, List.append_assoc]
  exact stripNL_mono (List.prefix_append _ _)

theorem SealEnd.text {d : Bytes} {s : EncState × World} (h : SealEnd w0 mp ep mode hm he d s) :
    ∃ c, Sealing w0 mp ep mode hm he c s.2 ∧ stripNL c <+: encode d := by
  obtain ⟨c, hS, ⟨-, hc⟩ | ⟨-, rfl⟩⟩ := h
  · exact ⟨c, hS, (stripNL_mono hc).trans (emitted_encode d)⟩
  · exact ⟨_, hS, emitted_encode d⟩

theorem SealEnd.close (hne : hm ≠ he) {d : Bytes} {s : EncState × World} (h : SealEnd w0 mp ep mode hm he d s) :
    ∃ c, Sealing w0 mp ep mode hm he c (encClose (writeHandle he) s).2.2 ∧ stripNL c <+: encode d := by
  obtain ⟨e, w⟩ := s
  obtain ⟨c, hS, ⟨hp, hc⟩ | ⟨he', rfl⟩⟩ := h
  · simp only at hp hS
    rw [encClose_empty _ _ _ hp]
    obtain ⟨off, hoff⟩ := hS.msg
    have hf := writeHandle_faithful (w0 := w0) (mode := mode) (ep := ep) (mp := mp) hne off
    obtain ⟨⟨c', hS'⟩, -⟩ := hf.keeps [10] w ⟨⟨c, hS⟩, hoff⟩
    obtain ⟨k, hk⟩ := hf.any [10] w ⟨⟨c, hS⟩, hoff⟩
    rw [recv_at hS, recv_at hS', List.append_assoc] at hk
    refine ⟨c', hS', ?_⟩
    rw [List.append_cancel_left hk, stripNL_append]
    have : stripNL (([10] : Bytes).take k) = [] := by cases k <;> simp [stripNL]
    rw [this, List.append_nil]
    exact (stripNL_mono hc).trans (emitted_encode d)
  · simp only at he' hS
    subst he'
    obtain ⟨off, hoff⟩ := hS.msg
    obtain ⟨⟨hpre, -⟩, ⟨c, h3⟩, -⟩ := encClose_on (writeHandle_faithful hne off) d w ⟨⟨_, hS⟩, hoff⟩
    obtain ⟨ext, he1, he2⟩ := hpre
    rw [recv_at h3, recv_at hS, List.append_assoc] at he1
    refine ⟨c, h3, ?_⟩
    rw [List.append_cancel_left he1, ← Props.stripNL_encodedText]
    exact stripNL_mono he2

theorem sealTail_any (P : Prims) (pub : Public) {w : World} (hne : hm ≠ he) (hpath : mp ≠ ep) (hs : NoShort w0) {f0 : File}
    (hfile : w0.fs mp = some f0) (hA : At w0 ep mode he encryptedComment w) (hfr : FrameIOR w0 w) (ht : w0.tick ≤ w.tick)
    (hmsg : w.handles[hm]? = some ⟨mp, 0⟩) :
    ∃ c, Sealing w0 mp ep mode hm he c (sealTail P pub hm f0.data.length he w).2 ∧
      (stripNL c = [] ∨ ∃ edpub epriv k, pub.toBox = .ok edpub ∧ (entropy 32 w).1 = .ok epriv ∧
        stripNL c <+: encode (headerOf P (P.precompute edpub epriv) (P.x25519Base epriv) (chunkCount f0.data.length) ++
          (sealedFrom P (P.precompute edpub epriv) 0 ((pieces 16385 (by decide) f0.data).take k)).flatten)) := by
  have hJ : SealJ w0 mp ep mode hm he f0.data [] [] (EncState.new, w) :=
    ⟨⟨by rw [emitted_nil, List.append_nil]; exact hA, hfr, ht, ⟨0, hmsg⟩⟩, rfl, fun _ => ⟨hmsg, List.nil_prefix⟩⟩
  have hany := sealBox_filled (sealFilled hne hpath hs hfile) P pub sealRandEnd f0.data.length hJ
  rcases hb : sealBox P pub (Act.onSnd (World.entropy 32)) (fun n => Act.onSnd (World.readHandle hm n)) f0.data.length
        (encWrite (writeHandle he)) (EncState.new, w) with ⟨r, s⟩
  rw [hb] at hany
  -- from the state of the encoder to the file
  have hfin : ∀ w', (∀ d, SealEnd w0 mp ep mode hm he d s → ∃ c, Sealing w0 mp ep mode hm he c w' ∧ stripNL c <+: encode d) →
      ∃ c, Sealing w0 mp ep mode hm he c w' ∧
      (stripNL c = [] ∨ ∃ edpub epriv k, pub.toBox = .ok edpub ∧ (entropy 32 w).1 = .ok epriv ∧
        stripNL c <+: encode (headerOf P (P.precompute edpub epriv) (P.x25519Base epriv) (chunkCount f0.data.length) ++
          (sealedFrom P (P.precompute edpub epriv) 0 ((pieces 16385 (by decide) f0.data).take k)).flatten)) := by
    intro w' hw'
    rcases hany with h | ⟨edpub, epriv, k, h1, h2, h3⟩
    · obtain ⟨c, h4, h5⟩ := hw' _ h
      exact ⟨c, h4, .inl (by simpa [encode] using h5)⟩
    · rw [List.nil_append] at h3
      obtain ⟨c, h4, h5⟩ := hw' _ h3
      rw [Act.onSnd_apply] at h2
      exact ⟨c, h4, .inr ⟨edpub, epriv, k, h1, h2, h5⟩⟩
  have hnow := hfin s.2 (fun d h => h.text)
  have hclose := hfin (encClose (writeHandle he) s).2.2 (fun d h => h.close hne)
  unfold sealTail
  simp only [hb]
  cases r with
  | crash => exact hnow
  | hang => exact hnow
  | panic => cases (encClose (writeHandle he) s).1 <;> exact hclose
  | err e => cases (encClose (writeHandle he) s).1 <;> exact hclose
  | ok u => cases (encClose (writeHandle he) s).1 <;> exact hclose

end Tail

/-- What `Seal` leaves at the path of the encrypted file, however it ends: what was there; a beginning of the comment line; or
the comment line and a text that, newlines aside, is a beginning of the encoding of the header and the first sealed pieces. -/
def Left (P : Prims) (pp mp : Path) (w : World) (old new : Option File) : Prop :=
  new = old ∨ (∃ f, new = some f ∧ f.data <+: encryptedComment) ∨
  ∃ f text, new = some f ∧ f.data = encryptedComment ++ text ∧ (stripNL text = [] ∨
    ∃ fp pub fm edpub k, w.fs pp = some fp ∧ readPublicKeyFile fp.data = .ok pub ∧ w.fs mp = some fm ∧ pub.toBox = .ok edpub ∧
      stripNL text <+: encode (headerOf P (P.precompute edpub (draw w w.rngPos 32)) (P.x25519Base (draw w w.rngPos 32))
        (chunkCount fm.data.length) ++
          (sealedFrom P (P.precompute edpub (draw w w.rngPos 32)) 0 ((pieces 16385 (by decide) fm.data).take k)).flatten))

theorem Seal_any (P : Prims) (pp mp ep : Path) (w : World) (hpath : mp ≠ encPath mp ep) (hs : NoShort w) :
    Left P pp mp w (w.fs (encPath mp ep)) ((Seal P pp mp ep w).2.fs (encPath mp ep)) := by
  rw [Seal_unfold]
  revert hpath
  generalize encPath mp ep = ep
  intro hpath
  rw [Act.bind_eq]
  have hw1 := loadPublicKey_world pp w
  rcases h1 : loadPublicKey pp w with ⟨r1, w1⟩
  rw [h1] at hw1
  simp only at hw1
  subst hw1
  have hload : ∀ pub, r1 = .ok pub → ∃ f, w.fs pp = some f ∧ readPublicKeyFile f.data = .ok pub :=
    fun pub h => loadPublicKey_ok (by rw [h1, h])
  cases r1 with
  | err e => exact .inl rfl
  | panic => exact .inl rfl
  | crash => exact .inl rfl
  | hang => exact .inl rfl
  | ok pub =>
    obtain ⟨fp, hfp, hpub⟩ := hload pub rfl
    simp only
    rw [Act.bind_eq]
    obtain ⟨r2, w2, h2, fr2, fs2, t2, -, hcase⟩ := openFile_spec mp { w with tick := w.tick + 1 }
    rw [h2]
    simp only at fs2 t2 hcase
    have fr2' : FrameIO w w2 := FrameIO.trans (b := { w with tick := w.tick + 1 }) rfl fr2
    rcases hcase with ⟨rfl, hh2, fm, hfm⟩ | ⟨⟨e, rfl⟩ | rfl, -⟩
    · simp only
      have hhm : w2.handles[w.handles.length]? = some ⟨mp, 0⟩ := by rw [hh2]; simp
      rw [Act.bind_eq]
      obtain ⟨hw3, -, hr3⟩ := fileSize_spec hhm (show w2.fs mp = some fm by rw [fs2, hfm])
      rcases h3 : fileSize w.handles.length w2 with ⟨r3, w3⟩
      rw [h3] at hw3 hr3
      simp only at hw3 hr3
      subst hw3
      have fr3 : FrameIO w { w2 with tick := w2.tick + 1 } := FrameIO.trans fr2' rfl
      rcases hr3 with rfl | rfl | rfl
      · simp only
        rw [Act.bind_eq]
        obtain ⟨r4, w4, h4, fr4, t4, -, hc4⟩ := create_spec ep { w2 with tick := w2.tick + 1 }
        rw [h4]
        have fr4' : FrameIO w w4 := FrameIO.trans fr3 fr4
        simp only at t4 hc4
        have hat : ∀ (h : Nat) (c : Bytes) (mode : Nat) (w' : World), At { w2 with tick := w2.tick + 1 } ep mode h c w' →
            At w ep mode h c w' := by
          intro h c mode w' hA
          refine ⟨?_, hA.hd⟩
          rw [hA.fs]; simp only [setFile, fs2]
        rcases hc4 with ⟨rfl, hA4, hh4⟩ | ⟨hr4, hh4, hfs4⟩
        · have hA4 := hat _ _ _ _ hA4
          generalize hhe : w2.handles.length = he at *
          have hne : w.handles.length ≠ he := by rw [← hhe, hh2]; simp
          simp only
          rw [Act.bind_eq]
          obtain ⟨k, r5, w5, h5, hA5, hall, hoth, fr5, t5, -, hr5⟩ := writeHandle_at hA4 encryptedComment
          rw [h5]
          have fr5' : FrameIO w w5 := FrameIO.trans fr4' fr5
          have ht5 : w.tick ≤ w5.tick := by omega
          have hpart : Left P pp mp w (w.fs ep) (w5.fs ep) :=
            .inr (.inl ⟨_, hA5.file, by simp only [List.nil_append]; exact List.take_prefix _ _⟩)
          rcases hr5 with rfl | rfl | rfl
          · rw [hall ⟨_, rfl⟩, List.nil_append] at hA5
            have hm5 : w5.handles[w.handles.length]? = some ⟨mp, 0⟩ := by
              rw [hoth _ hne, hh4, List.getElem?_append_left (by rw [hh2]; simp), hhm]
            obtain ⟨c, hS, hc⟩ := sealTail_any P pub hne hpath hs hfm hA5 fr5'.toIOR ht5 hm5
            refine .inr (.inr ⟨_, c, hS.enc.file, rfl, ?_⟩)
            rcases hc with hx | ⟨edpub, epriv, k, a2, a3, a4⟩
            · exact .inl hx
            · have hd : epriv = draw w w.rngPos 32 := by
                rcases entropy_spec 32 w5 with ⟨he5, -⟩ | ⟨he5 | he5, -⟩
                · rw [he5] at a3
                  rw [← Res.ok.inj a3, fr5'.rng, fr5'.rngPos]; rfl
                · rw [he5] at a3; cases a3
                · rw [he5] at a3; cases a3
              rw [hd] at a4
              exact .inr ⟨fp, pub, fm, edpub, k, hfp, hpub, hfm, a2, a4⟩
          · exact hpart
          · exact hpart
        · have hq : Left P pp mp w (w.fs ep) (w4.fs ep) := by
            rcases hfs4 with h | h
            · exact .inl (by rw [h, fs2])
            · refine .inr (.inl ⟨_, by rw [h, setFile_self], ?_⟩)
              unfold truncated
              split <;> exact List.nil_prefix
          rcases hr4 with rfl | rfl
          · exact hq
          · exact hq
      · exact .inl (by simp only [fs2])
      · exact .inl (by simp only [fs2])
    · exact .inl (by simp only [fs2])
    · exact .inl (by simp only [fs2])

end Verif
