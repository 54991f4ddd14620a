/-
What `Seal` does, under every schedule of the system.
-/
import Verif.Lemmas.SealLoop
import Verif.Lemmas.EncOn
import Verif.Lemmas.Handles
import Verif.Lemmas.Keygen
import Verif.Lemmas.Verify

namespace Verif
open Spec World B64

/-- The part of `Seal` after the comment line has been written. -/
def sealTail (P : Prims) (pub : Public) (hm len he : Nat) : Act World Unit := fun w =>
  let under := World.writeHandle he
  let r := sealBox P pub (Act.onSnd (World.entropy 32)) (fun n => Act.onSnd (World.readHandle hm n)) len
    (encWrite under) (EncState.new, w)
  match r.1 with
  | .crash => (.crash, r.2.2)
  | .hang => (.hang, r.2.2)
  | res =>
    let c := encClose under r.2
    match c.1 with
    | .panic => (.panic, c.2.2)
    | .crash => (.crash, c.2.2)
    | .hang => (.hang, c.2.2)
    | _ => (res, c.2.2)

theorem Seal_unfold (P : Prims) (pp mp ep : Path) :
    Seal P pp mp ep = (do
      let pub ← loadPublicKey pp
      let message ← World.openFile mp
      let messageLen ← World.fileSize message
      let encrypted ← World.create (encPath mp ep)
      let _ ← World.writeHandle encrypted encryptedComment
      sealTail P pub message messageLen encrypted) := rfl

section Tail

variable (w0 : World) (mp ep : Path) (mode hm he : Nat) (m : Bytes)

/-- The file being written holds the comment line and `c`; the message file is open. -/
structure Sealing (c : Bytes) (w : World) : Prop where
  enc : At w0 ep mode he (encryptedComment ++ c) w
  frame : FrameIOR w0 w
  tick : w0.tick ≤ w.tick
  msg : ∃ off, w.handles[hm]? = some ⟨mp, off⟩

/-- `l` has been read from the message, `d` has been written to the encoder. -/
def SealJ (l d : Bytes) (s : EncState × World) : Prop :=
  Sealing w0 mp ep mode hm he (emitted d) s.2 ∧ s.1 = stateOf d ∧
    (mp ≠ ep → s.2.handles[hm]? = some ⟨mp, l.length⟩ ∧ l <+: m)

/-- The same after a failure. -/
def SealF (l d : Bytes) (s : EncState × World) : Prop :=
  (∃ c, Sealing w0 mp ep mode hm he c s.2 ∧ c <+: emitted d) ∧ (mp ≠ ep → l <+: m)

variable {w0 mp ep mode hm he m}

theorem recv_at {c : Bytes} {w : World} (h : Sealing w0 mp ep mode hm he c w) :
    (((w.fs ep).map File.data).getD []) = encryptedComment ++ c := by rw [h.enc.file]; rfl

theorem writeHandle_faithful (hne : hm ≠ he) (off : Nat) :
    FaithfulOn (fun w => (∃ c, Sealing w0 mp ep mode hm he c w) ∧ w.handles[hm]? = some ⟨mp, off⟩)
      (writeHandle he) (fun w => ((w.fs ep).map File.data).getD []) := by
  have key : ∀ bs w, ((∃ c, Sealing w0 mp ep mode hm he c w) ∧ w.handles[hm]? = some ⟨mp, off⟩) →
      ∃ k r w', writeHandle he bs w = (r, w') ∧
        ((∃ c, Sealing w0 mp ep mode hm he c w') ∧ w'.handles[hm]? = some ⟨mp, off⟩) ∧
        ((w'.fs ep).map File.data).getD [] = ((w.fs ep).map File.data).getD [] ++ bs.take k ∧
        ((∃ n, r = .ok n) → bs.take k = bs) := by
    rintro bs w ⟨⟨c, hS⟩, hh⟩
    obtain ⟨k, r, w', h1, h2, h3, h4, h5, h6, -⟩ := writeHandle_at hS.enc bs
    rw [List.append_assoc] at h2
    have hS' : Sealing w0 mp ep mode hm he (c ++ bs.take k) w' :=
      ⟨h2, hS.frame.trans h5.toIOR, by have := hS.tick; omega, ⟨off, by rw [h4 _ hne, hh]⟩⟩
    exact ⟨k, r, w', h1, ⟨⟨_, hS'⟩, by rw [h4 _ hne, hh]⟩, by rw [recv_at hS, recv_at hS', List.append_assoc], h3⟩
  refine ⟨fun bs w hI => ?_, fun bs w n hI hok => ?_, fun bs w hI => ?_⟩
  · obtain ⟨k, r, w', h1, h2, -⟩ := key bs w hI
    rw [h1]; exact h2
  · obtain ⟨k, r, w', h1, -, h3, h4⟩ := key bs w hI
    rw [h1] at hok ⊢
    simp only at hok ⊢
    rw [h3, h4 ⟨n, hok⟩]
  · obtain ⟨k, r, w', h1, -, h3, -⟩ := key bs w hI
    exact ⟨k, by rw [h1]; exact h3⟩

theorem sealChannel (hne : hm ≠ he) (hfile : ∃ f, w0.fs mp = some f ∧ f.data = m) :
    Channel (fun n => Act.onSnd (World.readHandle hm n)) (encWrite (World.writeHandle he))
      (SealJ w0 mp ep mode hm he m) (SealF w0 mp ep mode hm he m) := by
  -- what a read does
  have hread : ∀ {l d : Bytes} {s : EncState × World} {n : Nat}, 0 < n → SealJ w0 mp ep mode hm he m l d s →
      ∃ r w', (Act.onSnd (World.readHandle hm n) : Act (EncState × World) Bytes) s = (r, (s.1, w')) ∧
        Sealing w0 mp ep mode hm he (emitted d) w' ∧
        (∀ got, r = .ok got → mp ≠ ep → w'.handles[hm]? = some ⟨mp, (l ++ got).length⟩ ∧ l ++ got <+: m) := by
    rintro l d ⟨e, w⟩ n hn ⟨hS, he', hm'⟩
    obtain ⟨off, hoff⟩ := hS.msg
    obtain ⟨f0, hf0, rfl⟩ := hfile
    obtain ⟨f, hf⟩ : ∃ f, w.fs mp = some f := by
      by_cases h : mp = ep
      · exact ⟨_, by rw [h]; exact hS.enc.file⟩
      · exact ⟨f0, by rw [hS.enc.other h, hf0]⟩
    obtain ⟨r, w', h1, h2, h3, h4, h5, h6⟩ := readHandle_at hoff hf hn
    have henc : At w0 ep mode he (encryptedComment ++ emitted d) w' :=
      ⟨by rw [h2]; exact hS.enc.fs, by rw [h5 he (Ne.symm hne)]; exact hS.enc.hd⟩
    have hmsg : ∃ off, w'.handles[hm]? = some ⟨mp, off⟩ := by
      rcases h6 with ⟨got, -, -, -, -, h, -⟩ | ⟨-, -, h⟩ | ⟨-, -, h⟩ <;> exact ⟨_, h⟩
    refine ⟨r, w', by rw [Act.onSnd_apply, h1], ⟨henc, hS.frame.trans h3.toIOR, by have := hS.tick; simp only at *; omega, hmsg⟩, ?_⟩
    intro got hr hne'
    obtain ⟨hl, hpre⟩ := hm' hne'
    simp only at hl
    rw [hoff] at hl
    obtain rfl : off = l.length := by simpa using hl
    have hff : f = f0 := by
      have := hS.enc.other hne'
      simp only at this
      rw [hf, hf0] at this; exact Option.some.inj this
    subst hff
    rcases h6 with ⟨got', hr', -, hg, -, hh, -⟩ | ⟨hr', -⟩ | ⟨-, hr', -⟩
    · rw [hr] at hr'
      obtain rfl := Res.ok.inj hr'
      refine ⟨by rw [hh, List.length_append], ?_⟩
      obtain ⟨t, ht⟩ := hpre
      refine ⟨t.drop got.length, ?_⟩
      have : f.data.drop l.length = t := by rw [← ht, List.drop_left]
      rw [this] at hg
      rw [← ht, List.append_assoc]
      congr 1
      conv => lhs; lhs; rw [hg]
      exact List.take_append_drop _ _
    · rw [hr] at hr'; cases hr'
    · rw [hr] at hr'; rcases hr' with hr' | hr' <;> cases hr'
  have hstop : ∀ {l d : Bytes} {s : EncState × World}, SealJ w0 mp ep mode hm he m l d s → SealF w0 mp ep mode hm he m l d s :=
    fun ⟨hS, _, hm'⟩ => ⟨⟨_, hS, List.prefix_rfl⟩, fun h => (hm' h).2⟩
  -- what a write does
  have hwrite : ∀ {l d : Bytes} {s : EncState × World} (bs : Bytes), SealJ w0 mp ep mode hm he m l d s →
      ∃ c, Sealing w0 mp ep mode hm he c (encWrite (writeHandle he) bs s).2.2 ∧ c <+: emitted (d ++ bs) ∧
        (encWrite (writeHandle he) bs s).2.2.handles[hm]? = s.2.handles[hm]? ∧
        ((∃ n, (encWrite (writeHandle he) bs s).1 = .ok n) →
          c = emitted (d ++ bs) ∧ (encWrite (writeHandle he) bs s).2.1 = stateOf (d ++ bs)) := by
    rintro l d ⟨e, w⟩ bs ⟨hS, he', -⟩
    simp only at he'
    subst he'
    obtain ⟨off, hoff⟩ := hS.msg
    obtain ⟨⟨hpre, hfull⟩, h2, ⟨c, h3⟩, h4⟩ := encWrite_on (writeHandle_faithful hne off) bs d w ⟨⟨_, hS⟩, hoff⟩
    have hc : ∀ ext : Bytes, ((((encWrite (writeHandle he) bs (stateOf d, w)).2.2.fs ep).map File.data).getD [] =
        ((w.fs ep).map File.data).getD [] ++ ext) → c = emitted d ++ ext := by
      intro ext h
      rw [recv_at h3, recv_at hS, List.append_assoc] at h
      exact List.append_cancel_left h
    obtain ⟨ext, he1, he2⟩ := hpre
    refine ⟨c, h3, by rw [hc ext he1]; exact he2, by simp only at hoff ⊢; rw [h4, hoff], fun hok => ⟨?_, h2 hok⟩⟩
    obtain ⟨ext', he3, he4⟩ := hfull hok
    rw [hc ext' he3, he4]
  refine ⟨fun {l d s n got s'} hn hJ h => ?_, fun {l d s n r s'} hn hJ h hr => ?_, fun {l d s bs k s'} hJ h => ?_,
    fun {l d s bs r s'} hJ h hr => ?_, hstop⟩
  · obtain ⟨r, w', h1, h2, h3⟩ := hread hn hJ
    rw [h] at h1
    obtain ⟨rfl, rfl⟩ := Prod.mk.inj h1
    exact ⟨h2, hJ.2.1, h3 got rfl⟩
  · obtain ⟨r', w', h1, h2, h3⟩ := hread hn hJ
    rw [h] at h1
    obtain ⟨rfl, rfl⟩ := Prod.mk.inj h1
    exact ⟨⟨_, h2, List.prefix_rfl⟩, fun hx => (hJ.2.2 hx).2⟩
  · obtain ⟨c, h1, -, h3, h4⟩ := hwrite bs hJ
    rw [h] at h1 h3 h4
    obtain ⟨rfl, h5⟩ := h4 ⟨k, rfl⟩
    exact ⟨h1, h5, fun hx => by rw [h3]; exact hJ.2.2 hx⟩
  · obtain ⟨c, h1, h2, -, -⟩ := hwrite bs hJ
    rw [h] at h1
    exact ⟨bs.length, ⟨c, h1, by rwa [List.take_length]⟩, fun hx => (hJ.2.2 hx).2⟩

theorem sealRand : Silent (Act.onSnd (World.entropy 32) : Act (EncState × World) (Arr 32))
      (SealJ w0 mp ep mode hm he m) (SealF w0 mp ep mode hm he m) := by
  have key : ∀ {c : Bytes} {w : World}, Sealing w0 mp ep mode hm he c w →
      Sealing w0 mp ep mode hm he c (World.entropy 32 w).2 ∧ (World.entropy 32 w).2.handles = w.handles := by
    intro c w hS
    rcases entropy_spec 32 w with ⟨-, h⟩ | ⟨-, h⟩
    · rw [h]
      exact ⟨⟨⟨hS.enc.fs, hS.enc.hd⟩, hS.frame.trans rfl, by have := hS.tick; simp only; omega, hS.msg⟩, rfl⟩
    · rw [h]
      exact ⟨⟨⟨hS.enc.fs, hS.enc.hd⟩, hS.frame.trans rfl, by have := hS.tick; simp only; omega, hS.msg⟩, rfl⟩
  refine ⟨fun {l d s x s'} hJ h => ?_, fun {l d s r s'} hJ h _ => ?_⟩
  · obtain ⟨h1, h2⟩ := key hJ.1
    rw [Act.onSnd_apply] at h
    obtain ⟨-, rfl⟩ := Prod.mk.inj h
    exact ⟨h1, hJ.2.1, fun hx => by simp only; rw [h2]; exact hJ.2.2 hx⟩
  · obtain ⟨h1, h2⟩ := key hJ.1
    rw [Act.onSnd_apply] at h
    obtain ⟨-, rfl⟩ := Prod.mk.inj h
    exact ⟨⟨_, h1, List.prefix_rfl⟩, fun hx => (hJ.2.2 hx).2⟩

/-- The final `encoder.Close()` from any state. -/
theorem encClose_keeps (hne : hm ≠ he) {c : Bytes} {s : EncState × World} (hS : Sealing w0 mp ep mode hm he c s.2) :
    ∃ c', Sealing w0 mp ep mode hm he c' (encClose (writeHandle he) s).2.2 := by
  obtain ⟨off, hoff⟩ := hS.msg
  have hf := writeHandle_faithful (w0 := w0) (mode := mode) (ep := ep) (mp := mp) hne off
  obtain ⟨e, w⟩ := s
  obtain ⟨-, -, hs⟩ := Act.Rel.encClose hf.rel (e, ⟨w, ⟨⟨c, hS⟩, hoff⟩⟩) (e, w) ⟨rfl, rfl⟩
  have := Subtype.property (encClose hf.sub (e, ⟨w, ⟨⟨c, hS⟩, hoff⟩⟩)).2.2
  rw [hs] at this
  exact this.1

/-- The part of `Seal` that writes the sealed data. -/
theorem sealTail_spec (P : Prims) (pub : Public) {w : World} (hne : hm ≠ he) (hfile : ∃ f, w0.fs mp = some f ∧ f.data = m)
    (hA : At w0 ep mode he encryptedComment w) (hfr : FrameIOR w0 w) (ht : w0.tick ≤ w.tick)
    (hmsg : w.handles[hm]? = some ⟨mp, 0⟩) :
    ∃ c, Sealing w0 mp ep mode hm he c (sealTail P pub hm m.length he w).2 ∧
      ((sealTail P pub hm m.length he w).1 = .ok () →
        (m = [] ∧ c <+: [10]) ∨
        ∃ edpub epriv ps, m ≠ [] ∧ pub.toBox = .ok edpub ∧ (entropy 32 w).1 = .ok epriv ∧
          ps.length = chunkCount m.length ∧ (mp ≠ ep → ps.flatten <+: m) ∧
          emitted (sealedStream P (P.precompute edpub epriv) (P.x25519Base epriv) ps) <+: c ∧
          c <+: encodedText (sealedStream P (P.precompute edpub epriv) (P.x25519Base epriv) ps)) := by
  have hc := sealChannel (w0 := w0) (ep := ep) (mode := mode) hne hfile
  have hr := sealRand (w0 := w0) (mp := mp) (ep := ep) (mode := mode) (hm := hm) (he := he) (m := m)
  have hJ : SealJ w0 mp ep mode hm he m [] [] (EncState.new, w) :=
    ⟨⟨by rw [emitted_nil, List.append_nil]; exact hA, hfr, ht, ⟨0, hmsg⟩⟩, rfl, fun _ => ⟨hmsg, List.nil_prefix⟩⟩
  have hany := sealBox_any hc P pub hr m.length hJ
  -- whatever happened, the state after sealBox is good
  obtain ⟨c1, hS1⟩ : ∃ c, Sealing w0 mp ep mode hm he c
      (sealBox P pub (Act.onSnd (World.entropy 32)) (fun n => Act.onSnd (World.readHandle hm n)) m.length
        (encWrite (writeHandle he)) (EncState.new, w)).2.2 := by
    rcases hany with ⟨⟨c, h, -⟩, -⟩ | ⟨_, _, _, _, -, -, -, ⟨c, h, -⟩, -⟩ <;> exact ⟨c, h⟩
  obtain ⟨c2, hS2⟩ := encClose_keeps hne hS1
  unfold sealTail
  simp only
  rcases hb : sealBox P pub (Act.onSnd (World.entropy 32)) (fun n => Act.onSnd (World.readHandle hm n)) m.length
        (encWrite (writeHandle he)) (EncState.new, w) with ⟨r, s⟩
  rw [hb] at hS1 hS2
  simp only at hS1 hS2 ⊢
  have hfail : ∀ (r : Res Unit), r ≠ .ok () → ∃ c, Sealing w0 mp ep mode hm he c (match (encClose (writeHandle he) s).1 with
      | .panic => (Res.panic, (encClose (writeHandle he) s).2.2)
      | .crash => (.crash, (encClose (writeHandle he) s).2.2)
      | .hang => (.hang, (encClose (writeHandle he) s).2.2)
      | _ => (r, (encClose (writeHandle he) s).2.2) : Res Unit × World).2 ∧
      (match (encClose (writeHandle he) s).1 with
      | .panic => (Res.panic, (encClose (writeHandle he) s).2.2)
      | .crash => (.crash, (encClose (writeHandle he) s).2.2)
      | .hang => (.hang, (encClose (writeHandle he) s).2.2)
      | _ => (r, (encClose (writeHandle he) s).2.2) : Res Unit × World).1 ≠ .ok () := by
    intro r hr
    cases (encClose (writeHandle he) s).1 <;> exact ⟨c2, hS2, by simp [hr]⟩
  cases r with
  | crash => exact ⟨c1, hS1, by simp⟩
  | hang => exact ⟨c1, hS1, by simp⟩
  | panic => obtain ⟨c, h1, h2⟩ := hfail .panic (by simp); exact ⟨c, h1, fun h => absurd h h2⟩
  | err e => obtain ⟨c, h1, h2⟩ := hfail (.err e) (by simp); exact ⟨c, h1, fun h => absurd h h2⟩
  | ok u =>
    clear hfail hS2 c2 hS1 c1 hany
    -- the data that was written to the encoder
    obtain ⟨D, l, hJ', hD⟩ : ∃ D l, SealJ w0 mp ep mode hm he m l D s ∧ ((m = [] ∧ D = []) ∨
        ∃ edpub epriv ps, m ≠ [] ∧ pub.toBox = .ok edpub ∧ (entropy 32 w).1 = .ok epriv ∧
          ps.length = chunkCount m.length ∧ (mp ≠ ep → ps.flatten <+: m) ∧
          D = sealedStream P (P.precompute edpub epriv) (P.x25519Base epriv) ps) := by
      by_cases hm0 : m = []
      · subst hm0
        simp only [sealBox, List.length_nil, if_true, Act.pure_apply] at hb
        obtain ⟨-, rfl⟩ := Prod.mk.inj hb
        exact ⟨[], [], hJ, .inl ⟨rfl, rfl⟩⟩
      · obtain ⟨edpub, epriv, ps, h1, h2, h3, h4⟩ := sealBox_ok hc P pub hr m.length
          (fun h => hm0 (List.length_eq_zero_iff.mp h)) hJ hb
        rw [List.nil_append, List.nil_append] at h4
        rw [Act.onSnd_apply] at h2
        exact ⟨_, _, h4, .inr ⟨edpub, epriv, ps, hm0, h1, h2, h3, fun hx => (h4.2.2 hx).2, rfl⟩⟩
    obtain ⟨e, w'⟩ := s
    obtain ⟨hS, he', -⟩ := hJ'
    simp only at he' hS
    subst he'
    obtain ⟨off, hoff⟩ := hS.msg
    obtain ⟨⟨hpre, -⟩, ⟨c, h3⟩, -⟩ := encClose_on (writeHandle_faithful hne off) D w' ⟨⟨_, hS⟩, hoff⟩
    obtain ⟨ext, he1, he2⟩ := hpre
    rw [recv_at h3, recv_at hS, List.append_assoc] at he1
    obtain rfl := List.append_cancel_left he1
    have hfin : (m = [] ∧ emitted D ++ ext <+: [10]) ∨
        ∃ edpub epriv ps, m ≠ [] ∧ pub.toBox = .ok edpub ∧ (entropy 32 w).1 = .ok epriv ∧
          ps.length = chunkCount m.length ∧ (mp ≠ ep → ps.flatten <+: m) ∧
          emitted (sealedStream P (P.precompute edpub epriv) (P.x25519Base epriv) ps) <+: emitted D ++ ext ∧
          emitted D ++ ext <+: encodedText (sealedStream P (P.precompute edpub epriv) (P.x25519Base epriv) ps) := by
      rcases hD with ⟨rfl, rfl⟩ | ⟨edpub, epriv, ps, h0, h1, h2, hn, h4, rfl⟩
      · left
        refine ⟨rfl, ?_⟩
        have : encodedText [] = [10] := by rw [encodedText_eq, emitted_nil]; rfl
        rwa [this] at he2
      · right
        exact ⟨edpub, epriv, ps, h0, h1, h2, hn, h4, List.prefix_append _ _, he2⟩
    cases (encClose (writeHandle he) (stateOf D, w')).1 <;> exact ⟨_, h3, fun _ => hfin⟩

end Tail

/-- What is known about a run of `Seal` that returned nil. -/
structure Sealed (P : Prims) (pp mp ep : Path) (w w' : World) (text : Bytes) : Prop where
  file : w'.fs ep = some ⟨encryptedComment ++ text, (w.truncated ep 0o666).mode⟩
  content : ∃ fp pub fm, w.fs pp = some fp ∧ readPublicKeyFile fp.data = .ok pub ∧ w.fs mp = some fm ∧
    ((fm.data = [] ∧ text <+: [10]) ∨
      ∃ edpub ps, fm.data ≠ [] ∧ pub.toBox = .ok edpub ∧ ps.length = chunkCount fm.data.length ∧
        (mp ≠ ep → ps.flatten <+: fm.data) ∧
        emitted (sealedStream P (P.precompute edpub (draw w w.rngPos 32)) (P.x25519Base (draw w w.rngPos 32)) ps) <+: text ∧
        text <+: encodedText (sealedStream P (P.precompute edpub (draw w w.rngPos 32)) (P.x25519Base (draw w w.rngPos 32)) ps))

theorem loadPublicKey_world (p : Path) (w : World) : (loadPublicKey p w).2 = { w with tick := w.tick + 1 } := by
  have h := (readFile_spec p w).1
  unfold loadPublicKey
  rw [Act.bind_eq]
  rcases hr : readFile p w with ⟨r, w'⟩
  rw [hr] at h
  cases r <;> exact h

theorem loadPublicKey_ok {p : Path} {w : World} {pub} (h : (loadPublicKey p w).1 = .ok pub) :
    ∃ f, w.fs p = some f ∧ readPublicKeyFile f.data = .ok pub := by
  unfold loadPublicKey at h
  rw [Act.bind_eq] at h
  rcases hr : readFile p w with ⟨r, w'⟩
  rw [hr] at h
  cases r with
  | ok d =>
    obtain ⟨f, h1, h2, -⟩ := readFile_ok hr
    exact ⟨f, h1, by rw [h2]; exact h⟩
  | _ => simp at h

theorem loadPublicKey_quiet {p : Path} {w : World} {f : File} (hq : w.Quiet) (h : w.fs p = some f) :
    (loadPublicKey p w).1 = readPublicKeyFile f.data := by
  unfold loadPublicKey
  rw [Act.bind_ok (readFile_quiet hq h)]; rfl

theorem truncated_congr {w w' : World} (p : Path) (perm : Nat) (h : w'.fs = w.fs) (hu : w'.umask = w.umask) :
    w'.truncated p perm = w.truncated p perm := by unfold truncated; rw [h, hu]

/-- `Seal` under every schedule: it changes no file but the encrypted one, and what that holds after a nil result. -/
theorem Seal_spec (P : Prims) (pp mp ep : Path) (w : World) :
    FrameIOR w (Seal P pp mp ep w).2 ∧ w.tick ≤ (Seal P pp mp ep w).2.tick ∧
    (∀ q, q ≠ encPath mp ep → (Seal P pp mp ep w).2.fs q = w.fs q) ∧
    ((Seal P pp mp ep w).1 = .ok () → ∃ text, Sealed P pp mp (encPath mp ep) w (Seal P pp mp ep w).2 text) := by
  rw [Seal_unfold]
  generalize encPath mp ep = ep
  -- the public key
  rw [Act.bind_eq]
  have hw1 := loadPublicKey_world pp w
  rcases h1 : loadPublicKey pp w with ⟨r1, w1⟩
  rw [h1] at hw1
  simp only at hw1
  subst hw1
  have hload : ∀ pub, r1 = .ok pub → ∃ f, w.fs pp = some f ∧ readPublicKeyFile f.data = .ok pub :=
    fun pub h => loadPublicKey_ok (by rw [h1, h])
  have hbad : ∀ (r : Res Unit), r ≠ .ok () → ∀ w', FrameIO w w' → w'.fs = w.fs → w.tick ≤ w'.tick →
      FrameIOR w w' ∧ w.tick ≤ w'.tick ∧ (∀ q, q ≠ ep → w'.fs q = w.fs q) ∧
      (r = .ok () → ∃ text, Sealed P pp mp ep w w' text) :=
    fun r hr w' hf hfs ht => ⟨hf.toIOR, ht, fun q _ => by rw [hfs], fun h => absurd h hr⟩
  cases r1 with
  | err e => exact hbad _ (by simp) _ rfl rfl (Nat.le_add_right _ _)
  | panic => exact hbad _ (by simp) _ rfl rfl (Nat.le_add_right _ _)
  | crash => exact hbad _ (by simp) _ rfl rfl (Nat.le_add_right _ _)
  | hang => exact hbad _ (by simp) _ rfl rfl (Nat.le_add_right _ _)
  | ok pub =>
    obtain ⟨fp, hfp, hpub⟩ := hload pub rfl
    -- the message
    simp only
    rw [Act.bind_eq]
    obtain ⟨r2, w2, h2, fr2, fs2, t2, -, hcase⟩ := openFile_spec mp { w with tick := w.tick + 1 }
    rw [h2]
    simp only at fs2 t2 hcase
    have fr2' : FrameIO w w2 := FrameIO.trans (b := { w with tick := w.tick + 1 }) rfl fr2
    rcases hcase with ⟨rfl, hh2, fm, hfm⟩ | ⟨⟨e, rfl⟩ | rfl, -⟩
    · simp only
      have hhm : w2.handles[w.handles.length]? = some ⟨mp, 0⟩ := by rw [hh2]; simp
      rw [Act.bind_eq]
      obtain ⟨hw3, -, hr3⟩ := fileSize_spec hhm (show w2.fs mp = some fm by rw [fs2, hfm])
      rcases h3 : fileSize w.handles.length w2 with ⟨r3, w3⟩
      rw [h3] at hw3 hr3
      simp only at hw3 hr3
      subst hw3
      have fr3 : FrameIO w { w2 with tick := w2.tick + 1 } := FrameIO.trans fr2' rfl
      rcases hr3 with rfl | rfl | rfl
      · simp only
        rw [Act.bind_eq]
        obtain ⟨r4, w4, h4, fr4, t4, -, hc4⟩ := create_spec ep { w2 with tick := w2.tick + 1 }
        rw [h4]
        have fr4' : FrameIO w w4 := FrameIO.trans fr3 fr4
        have htr : ({ w2 with tick := w2.tick + 1 } : World).truncated ep 0o666 = w.truncated ep 0o666 :=
          truncated_congr _ _ (by simp only; rw [fs2]) (by rw [fr3])
        rw [htr] at hc4
        simp only at t4 hc4
        have hat : ∀ (h : Nat) (c : Bytes) (mode : Nat) (w' : World), At { w2 with tick := w2.tick + 1 } ep mode h c w' →
            At w ep mode h c w' := by
          intro h c mode w' hA
          refine ⟨?_, hA.hd⟩
          rw [hA.fs]; simp only [setFile, fs2]
        rcases hc4 with ⟨rfl, hA4, hh4⟩ | ⟨hr4, hh4, hfs4⟩
        · have hA4 := hat _ _ _ _ hA4
          generalize hhe : w2.handles.length = he at *
          have hne : w.handles.length ≠ he := by rw [← hhe, hh2]; simp
          simp only
          rw [Act.bind_eq]
          obtain ⟨k, r5, w5, h5, hA5, hall, hoth, fr5, t5, -, hr5⟩ := writeHandle_at hA4 encryptedComment
          rw [h5]
          have fr5' : FrameIO w w5 := FrameIO.trans fr4' fr5
          have ht5 : w.tick ≤ w5.tick := by omega
          rcases hr5 with rfl | rfl | rfl
          · rw [hall ⟨_, rfl⟩, List.nil_append] at hA5
            have hm5 : w5.handles[w.handles.length]? = some ⟨mp, 0⟩ := by
              rw [hoth _ hne, hh4, List.getElem?_append_left (by rw [hh2]; simp), hhm]
            obtain ⟨c, hS, hok⟩ := sealTail_spec P pub hne ⟨fm, hfm, rfl⟩ hA5 fr5'.toIOR ht5 hm5
            refine ⟨hS.frame, hS.tick, fun q hq => hS.enc.other hq, fun h => ⟨c, hS.enc.file, fp, pub, fm, hfp, hpub, hfm, ?_⟩⟩
            rcases hok h with hx | ⟨edpub, epriv, ps, a1, a2, a3, a4, a5, a6, a7⟩
            · exact .inl hx
            · have hd : epriv = draw w w.rngPos 32 := by
                rcases entropy_spec 32 w5 with ⟨he5, -⟩ | ⟨he5 | he5, -⟩
                · rw [he5] at a3
                  rw [← Res.ok.inj a3, fr5'.rng, fr5'.rngPos]; rfl
                · rw [he5] at a3; cases a3
                · rw [he5] at a3; cases a3
              rw [hd] at a6 a7
              exact .inr ⟨edpub, ps, a1, a2, a4, a5, a6, a7⟩
          · exact ⟨fr5'.toIOR, ht5, fun q hq => hA5.other hq, by simp⟩
          · exact ⟨fr5'.toIOR, ht5, fun q hq => hA5.other hq, by simp⟩
        · have hq : ∀ q, q ≠ ep → w4.fs q = w.fs q := by
            intro q hq
            rcases hfs4 with h | h
            · rw [h, fs2]
            · rw [h, setFile_other _ _ hq]; simp only [fs2]
          rcases hr4 with rfl | rfl
          · exact ⟨fr4'.toIOR, by simp only; omega, hq, by simp⟩
          · exact ⟨fr4'.toIOR, by simp only; omega, hq, by simp⟩
      · exact hbad _ (by simp) _ fr3 fs2 (by simp only; omega)
      · exact hbad _ (by simp) _ fr3 fs2 (by simp only; omega)
    · exact hbad _ (by simp) _ fr2' fs2 (by simp only; omega)
    · exact hbad _ (by simp) _ fr2' fs2 (by simp only; omega)

/-! ### Without faults -/

/-- `m` is left of the message, `d` has been written to the encoder; no faults to come. -/
def SealS (w0 : World) (mp ep : Path) (mode hm he : Nat) (M : Bytes) (m d : Bytes) (s : EncState × World) : Prop :=
  Sealing w0 mp ep mode hm he (emitted d) s.2 ∧ s.1 = stateOf d ∧ s.2.Quiet ∧
    ∃ off, s.2.handles[hm]? = some ⟨mp, off⟩ ∧ m = M.drop off

theorem Sealing.quiet {w0 : World} {mp ep : Path} {mode hm he : Nat} {c : Bytes} {w : World}
    (h : Sealing w0 mp ep mode hm he c w) (hq : w0.Quiet) : w.Quiet := hq.mono h.frame.sched h.tick

theorem encWrite_quiet {w0 : World} {mp ep : Path} {mode hm he : Nat} (hne : hm ≠ he) (hq : w0.Quiet) {d : Bytes} {w : World}
    (hS : Sealing w0 mp ep mode hm he (emitted d) w) (bs : Bytes) :
    ∃ n w', encWrite (writeHandle he) bs (stateOf d, w) = (.ok n, (stateOf (d ++ bs), w')) ∧
      Sealing w0 mp ep mode hm he (emitted (d ++ bs)) w' ∧ w'.handles[hm]? = w.handles[hm]? := by
  obtain ⟨off, hoff⟩ := hS.msg
  have hf := writeHandle_faithful (w0 := w0) (mp := mp) (ep := ep) (mode := mode) hne off
  have htot := encWrite_on_total hf (fun bs s hI => by
    obtain ⟨⟨c, hS⟩, hh⟩ := hI
    obtain ⟨k, r, w', h1, -, -, -, -, -, h7, -⟩ := writeHandle_at hS.enc bs
    rw [h1]; exact h7 (hS.quiet hq)) bs d w ⟨⟨_, hS⟩, hoff⟩
  obtain ⟨⟨-, hfull⟩, h2, ⟨c, h3⟩, h4⟩ := encWrite_on hf bs d w ⟨⟨_, hS⟩, hoff⟩
  rcases hr : encWrite (writeHandle he) bs (stateOf d, w) with ⟨r, e, w'⟩
  rw [hr] at htot hfull h2 h3 h4
  simp only at htot hfull h2 h3 h4
  obtain ⟨ext, he3, he4⟩ := hfull htot
  rw [recv_at h3, recv_at hS, List.append_assoc] at he3
  rw [List.append_cancel_left he3, he4] at h3
  rw [h2 htot]
  obtain ⟨n, rfl⟩ := htot
  exact ⟨n, w', rfl, h3, by rw [h4, hoff]⟩

theorem sealSource {w0 : World} {mp ep : Path} {mode hm he : Nat} {M : Bytes} (hne : hm ≠ he) (hpath : mp ≠ ep)
    (hfile : ∃ f, w0.fs mp = some f ∧ f.data = M) (hq : w0.Quiet) :
    FullSource (fun n => Act.onSnd (World.readHandle hm n)) (encWrite (World.writeHandle he))
      (SealS w0 mp ep mode hm he M) := by
  refine ⟨?_, ?_⟩
  · rintro m d ⟨e, w⟩ n ⟨hS, he', hqw, off, hoff, rfl⟩ hne0 hn
    simp only at *
    obtain ⟨f0, hf0, rfl⟩ := hfile
    have hf : w.fs mp = some f0 := by rw [hS.enc.other hpath, hf0]
    obtain ⟨r, w', h1, h2, h3, h4, h5, h6⟩ := readHandle_at hoff hf hn
    rcases h6 with ⟨got, rfl, -, -, -, hh, hfull, -⟩ | ⟨-, hx, -⟩ | ⟨hx, -⟩
    · have hg := hfull hqw
      refine ⟨(e, w'), by rw [Act.onSnd_apply, h1, hg], ⟨⟨by rw [h2]; exact hS.enc.fs, by rw [h5 he (Ne.symm hne)]; exact hS.enc.hd⟩,
        hS.frame.trans h3.toIOR, by have := hS.tick; simp only; omega, ⟨_, hh⟩⟩, he', hqw.mono h3.sched (by simp only; omega), _, hh, ?_⟩
      rw [List.drop_drop, hg, List.length_take, List.length_drop]
      rcases Nat.le_total n (f0.data.length - off) with hle | hle
      · rw [Nat.min_eq_left hle]
      · rw [Nat.min_eq_right hle, List.drop_of_length_le (by omega), List.drop_of_length_le (by omega)]
    · exact absurd hx hne0
    · exact absurd hqw hx
  · rintro m d ⟨e, w⟩ bs ⟨hS, he', hqw, off, hoff, rfl⟩
    simp only at *
    subst he'
    obtain ⟨n, w', h1, h2, h3⟩ := encWrite_quiet hne hq hS bs
    exact ⟨n, _, h1, h2, rfl, h2.quiet hq, off, by rw [h3, hoff], rfl⟩

theorem sealTail_quiet (P : Prims) (pub : Public) {w0 w : World} {mp ep : Path} {mode hm he : Nat} {m : Bytes} (hne : hm ≠ he)
    (hpath : mp ≠ ep) (hfile : ∃ f, w0.fs mp = some f ∧ f.data = m) (hq : w0.Quiet)
    (hA : At w0 ep mode he encryptedComment w) (hfr : FrameIOR w0 w) (ht : w0.tick ≤ w.tick)
    (hmsg : w.handles[hm]? = some ⟨mp, 0⟩) (hlen : m.length < 2 ^ 63) {edpub : Arr 32} (he' : m ≠ [] → pub.toBox = .ok edpub) :
    (sealTail P pub hm m.length he w).1 = .ok () ∧
    Sealing w0 mp ep mode hm he (encodedText (if m = [] then [] else
      sealedStream P (P.precompute edpub (draw w w.rngPos 32)) (P.x25519Base (draw w w.rngPos 32)) (pieces 16385 (by decide) m)))
      (sealTail P pub hm m.length he w).2 := by
  have hs := sealSource (w0 := w0) (mode := mode) hne hpath hfile hq
  have hS0 : Sealing w0 mp ep mode hm he (emitted []) w :=
    ⟨by rw [emitted_nil, List.append_nil]; exact hA, hfr, ht, ⟨0, hmsg⟩⟩
  generalize hD : (if m = [] then [] else
      sealedStream P (P.precompute edpub (draw w w.rngPos 32)) (P.x25519Base (draw w w.rngPos 32)) (pieces 16385 (by decide) m)) = D
  obtain ⟨w', hb, hS'⟩ : ∃ w', sealBox P pub (Act.onSnd (World.entropy 32)) (fun n => Act.onSnd (World.readHandle hm n)) m.length
        (encWrite (writeHandle he)) (EncState.new, w) = (.ok (), (stateOf D, w')) ∧
        Sealing w0 mp ep mode hm he (emitted D) w' := by
    by_cases hm0 : m = []
    · rw [if_pos hm0] at hD
      subst hD
      refine ⟨w, ?_, hS0⟩
      rw [sealBox_empty _ _ _ _ (by rw [hm0]; rfl)]; rfl
    · rw [if_neg hm0] at hD
      have hqw := hS0.quiet hq
      have hr : (Act.onSnd (World.entropy 32) : Act (EncState × World) (Arr 32)) (EncState.new, w) =
          (.ok (draw w w.rngPos 32), (EncState.new, { w with tick := w.tick + 1, rngPos := w.rngPos + 32 })) := by
        rw [Act.onSnd_apply, entropy_quiet 32 hqw]; rfl
      obtain ⟨⟨e, w'⟩, h1, h2⟩ := sealBox_run hs P pub hm0 hlen (he' hm0) hr (d := [])
        ⟨⟨⟨hS0.enc.fs, hS0.enc.hd⟩, hS0.frame.trans rfl, by have := hS0.tick; simp only; omega, hS0.msg⟩, rfl,
          hqw.mono rfl (by simp only; omega), 0, hmsg, rfl⟩
      rw [List.nil_append, hD] at h2
      obtain ⟨h3, h4, -⟩ := h2
      simp only at h4
      subst h4
      exact ⟨w', h1, h3⟩
  obtain ⟨off, hoff⟩ := hS'.msg
  have hf := writeHandle_faithful (w0 := w0) (mp := mp) (ep := ep) (mode := mode) hne off
  have htot := encClose_on_total hf (fun bs s hI => by
    obtain ⟨⟨c, hS⟩, hh⟩ := hI
    obtain ⟨k, r, w', h1, -, -, -, -, -, h7, -⟩ := writeHandle_at hS.enc bs
    rw [h1]; exact h7 (hS.quiet hq)) (stateOf D) w' ⟨⟨_, hS'⟩, hoff⟩
  obtain ⟨⟨-, hfull⟩, ⟨c, h3⟩, h4⟩ := encClose_on hf D w' ⟨⟨_, hS'⟩, hoff⟩
  obtain ⟨ext, he3, he4⟩ := hfull htot
  rw [recv_at h3, recv_at hS', List.append_assoc] at he3
  rw [List.append_cancel_left he3, he4] at h3
  unfold sealTail
  simp only [hb, htot]
  exact ⟨trivial, h3⟩

/-- `Seal` without faults. -/
theorem Seal_quiet (P : Prims) (pp mp ep : Path) {w : World} (hq : w.Quiet) {fp fm : File} {pub : Public} {edpub : Arr 32}
    (hfp : w.fs pp = some fp) (hpub : readPublicKeyFile fp.data = .ok pub) 
    (hbox : fm.data ≠ [] → pub.toBox = .ok edpub) (hfm : w.fs mp = some fm) (hpath : mp ≠ encPath mp ep) (hlen : fm.data.length < 2 ^ 63) :
    (Seal P pp mp ep w).1 = .ok () ∧
    (Seal P pp mp ep w).2.fs = (w.setFile (encPath mp ep) ⟨encryptedComment ++ encodedText (if fm.data = [] then [] else
      sealedStream P (P.precompute edpub (draw w w.rngPos 32)) (P.x25519Base (draw w w.rngPos 32))
        (pieces 16385 (by decide) fm.data)), (w.truncated (encPath mp ep) 0o666).mode⟩).fs := by
  rw [Seal_unfold]
  revert hpath
  generalize encPath mp ep = ep
  intro hpath
  have h1 : loadPublicKey pp w = (.ok pub, { w with tick := w.tick + 1 }) :=
    Prod.ext (by rw [loadPublicKey_quiet hq hfp, hpub]) (loadPublicKey_world pp w)
  rw [Act.bind_ok h1]
  obtain ⟨r2, w2, h2, fr2, fs2, t2, hq2, hcase⟩ := openFile_spec mp { w with tick := w.tick + 1 }
  obtain ⟨x, rfl⟩ := hq2 (hq.tick 1) ⟨fm, hfm⟩
  simp only at fs2 t2 hcase
  have fr2' : FrameIO w w2 := FrameIO.trans (b := { w with tick := w.tick + 1 }) rfl fr2
  rcases hcase with ⟨hx, hh2, -⟩ | ⟨⟨e, hx⟩ | hx, -⟩
  · obtain rfl := Res.ok.inj hx
    rw [Act.bind_ok h2]
    have hhm : w2.handles[w.handles.length]? = some ⟨mp, 0⟩ := by rw [hh2]; simp
    obtain ⟨hw3, hq3, -⟩ := fileSize_spec hhm (show w2.fs mp = some fm by rw [fs2, hfm])
    have hqw2 : w2.Quiet := hq.mono fr2'.sched (by omega)
    rw [Act.bind_ok (Prod.ext (hq3 hqw2) hw3)]
    have fr3 : FrameIO w { w2 with tick := w2.tick + 1 } := FrameIO.trans fr2' rfl
    obtain ⟨r4, w4, h4, fr4, t4, hq4, hc4⟩ := create_spec ep { w2 with tick := w2.tick + 1 }
    obtain ⟨y, rfl⟩ := hq4 (hqw2.tick 1)
    have fr4' : FrameIO w w4 := FrameIO.trans fr3 fr4
    have htr : ({ w2 with tick := w2.tick + 1 } : World).truncated ep 0o666 = w.truncated ep 0o666 :=
      truncated_congr _ _ (by simp only; rw [fs2]) (by rw [fr3])
    rw [htr] at hc4
    simp only at t4 hc4
    rcases hc4 with ⟨hy, hA4, hh4⟩ | ⟨hr4, -⟩
    · obtain rfl := Res.ok.inj hy
      rw [Act.bind_ok h4]
      have hA4 : At w ep (w.truncated ep 0o666).mode w2.handles.length [] w4 :=
        ⟨by rw [hA4.fs]; simp only [setFile, fs2], hA4.hd⟩
      generalize hhe : w2.handles.length = he at *
      have hne : w.handles.length ≠ he := by rw [← hhe, hh2]; simp
      obtain ⟨k, r5, w5, h5, hA5, hall, hoth, fr5, t5, hq5, hr5⟩ := writeHandle_at hA4 encryptedComment
      obtain ⟨z, rfl⟩ := hq5 (hq.mono fr4'.sched (by omega))
      have fr5' : FrameIO w w5 := FrameIO.trans fr4' fr5
      rw [Act.bind_ok h5]
      rw [hall ⟨_, rfl⟩, List.nil_append] at hA5
      have hm5 : w5.handles[w.handles.length]? = some ⟨mp, 0⟩ := by
        rw [hoth _ hne, hh4, List.getElem?_append_left (by rw [hh2]; simp), hhm]
      have hdraw : draw w5 w5.rngPos 32 = draw w w.rngPos 32 := by
        unfold draw; rw [fr5'.rng, fr5'.rngPos]
      have := sealTail_quiet P pub hne hpath ⟨fm, hfm, rfl⟩ hq hA5 fr5'.toIOR (by omega) hm5 hlen hbox
      rw [hdraw] at this
      exact ⟨this.1, this.2.enc.fs⟩
    · rcases hr4 with h | h <;> cases h
  · cases hx
  · cases hx

end Verif
