/-
What `Open` does, under every schedule of the system.
-/
import Verif.Lemmas.SealLoop
import Verif.Lemmas.Handles
import Verif.Lemmas.Decoder
import Verif.Lemmas.ToBox

namespace Verif
open Spec World B64

/-! ### Readers that deliver a text byte by byte or fail -/

section Bytewise

variable {σ : Type}

/-- On the states satisfying `I`, reading one byte delivers the next byte of `left`, or io.EOF at the end; unless `q`, it may also
fail. -/
def Bytewise (I : σ → Prop) (q : Prop) (rd : Reader σ) (left : σ → Bytes) : Prop :=
  ∀ s, I s → ∃ r s', rd 1 s = (r, s') ∧ I s' ∧
    ((∃ c, r = .ok [c] ∧ left s = c :: left s') ∨ (r = .err .eof ∧ left s = [] ∧ left s' = []) ∨
      (¬ q ∧ (r = .err .io ∨ r = .crash) ∧ left s' = left s))

variable {I : σ → Prop} {q : Prop} {rd : Reader σ} {left : σ → Bytes}

theorem decReadLoop_on (hb : Bytewise I q rd left) (enclen fuel : Nat) (c : UInt8) (buf : Bytes) (s : σ) (hI : I s)
    (hbuf : buf.length ≤ enclen) :
    ∃ r s' t, decReadLoop rd enclen fuel c buf s = (r, s') ∧ I s' ∧ left s = t ++ left s' ∧
      (∀ out, r = .ok out → out = buf ++ stripNL t ∧ out.length ≤ enclen ∧ (out.length = enclen ∨ left s' = [])) ∧
      (q → (left s).length < fuel → ∃ out, r = .ok out) := by
  induction fuel generalizing c buf s with
  | zero => exact ⟨.hang, s, [], rfl, hI, rfl, by simp, fun _ h => absurd h (Nat.not_lt_zero _)⟩
  | succ fuel ih =>
    unfold decReadLoop
    by_cases he : buf.length = enclen
    · rw [if_pos he]
      refine ⟨_, _, [], rfl, hI, rfl, fun out h => ?_, fun _ _ => ⟨_, rfl⟩⟩
      obtain rfl := Res.ok.inj h
      exact ⟨by simp [stripNL], hbuf, .inl he⟩
    · rw [if_neg he]
      obtain ⟨r, s', h1, hI', h2 | ⟨rfl, h2, h3⟩ | ⟨hq, h2, h3⟩⟩ := hb s hI
      · obtain ⟨x, rfl, hl⟩ := h2
        rw [h1]
        show ∃ r s'' t, (if ([x] : Bytes).headD c = 10 then _ else _) = _ ∧ _
        rw [show ([x] : Bytes).headD c = x from rfl]
        by_cases hx : x = 10
        · rw [if_pos hx]
          obtain ⟨r, s'', t, a1, a2, a3, a4, a5⟩ := ih x buf s' hI' hbuf
          refine ⟨r, s'', x :: t, a1, a2, by rw [hl, a3]; rfl, fun out ho => ?_, fun hq hf => a5 hq ?_⟩
          · rw [hx, stripNL_cons_nl]; exact a4 out ho
          · rw [hl] at hf; simp only [List.length_cons] at hf; omega
        · rw [if_neg hx]
          obtain ⟨r, s'', t, a1, a2, a3, a4, a5⟩ := ih x (buf ++ [x]) s' hI' (by simp; omega)
          refine ⟨r, s'', x :: t, a1, a2, by rw [hl, a3]; rfl, fun out ho => ?_, fun hq hf => a5 hq ?_⟩
          · rw [stripNL_cons hx]
            have := a4 out ho
            rwa [List.append_assoc] at this
          · rw [hl] at hf; simp only [List.length_cons] at hf; omega
      · rw [h1]
        refine ⟨_, _, [], rfl, hI', by rw [h2, h3]; rfl, fun out ho => ?_, fun _ _ => ⟨_, rfl⟩⟩
        obtain rfl := Res.ok.inj ho
        exact ⟨by simp [stripNL], hbuf, .inr h3⟩
      · rw [h1]
        rcases h2 with rfl | rfl <;>
          exact ⟨_, _, [], rfl, hI', by rw [h3]; rfl, by simp, fun h => absurd h hq⟩

theorem decRead_on (hb : Bytewise I q rd left) (fuel n : Nat) (s : σ) (hI : I s) :
    ∃ r s' t, decRead fuel rd n s = (r, s') ∧ I s' ∧ left s = t ++ left s' ∧
      (∀ out, r = .ok out → B64.decode n (stripNL t) = .ok out) := by
  obtain ⟨r, s', t, h1, h2, h3, h4, -⟩ := decReadLoop_on hb (encodedLen n) fuel 0 [] s hI (by simp)
  unfold decRead
  cases r with
  | ok buf =>
    rw [Act.bind_ok h1]
    obtain ⟨rfl, -⟩ := h4 buf rfl
    rw [List.nil_append]
    cases hd : B64.decode n (stripNL t) with
    | ok out => exact ⟨_, _, t, rfl, h2, h3, fun o ho => by obtain rfl := Res.ok.inj ho; exact hd⟩
    | corrupt => exact ⟨_, _, t, rfl, h2, h3, by simp⟩
    | panic => exact ⟨_, _, t, rfl, h2, h3, by simp⟩
  | err e => exact ⟨_, _, t, Act.bind_err h1, h2, h3, by simp⟩
  | panic => exact ⟨.panic, s', t, by rw [Act.bind_eq, h1], h2, h3, by simp⟩
  | crash => exact ⟨_, _, t, Act.bind_crash h1, h2, h3, by simp⟩
  | hang => exact ⟨.hang, s', t, by rw [Act.bind_eq, h1], h2, h3, by simp⟩

/-- Reading well-formed text without faults. -/
theorem decRead_on_quiet (hb : Bytewise I q rd left) (hq : q) (fuel n : Nat) (h3 : 3 ∣ n) (data : Bytes) (s : σ) (hI : I s)
    (hfuel : (left s).length < fuel) (htext : stripNL (left s) = encode data) :
    ∃ s', decRead fuel rd n s = (.ok (data.take n), s') ∧ I s' ∧ stripNL (left s') = encode (data.drop n) ∧
      (left s').length ≤ (left s).length := by
  obtain ⟨r, s', t, h1, h2, h3', h4, h5⟩ := decReadLoop_on hb (encodedLen n) fuel 0 [] s hI (by simp)
  obtain ⟨buf, rfl⟩ := h5 hq hfuel
  obtain ⟨rfl, hle, hor⟩ := h4 buf rfl
  rw [List.nil_append] at *
  have hsplit : encode data = stripNL t ++ stripNL (left s') := by rw [← htext, h3', stripNL_append]
  obtain ⟨e1, e2⟩ := encode_take data n h3
  have ht : stripNL t = encode (data.take n) ∧ stripNL (left s') = encode (data.drop n) := by
    rw [← e1, ← e2, hsplit]
    rcases hor with h | h
    · rw [← h]; simp
    · rw [h]
      have : stripNL ([] : Bytes) = [] := rfl
      rw [this, List.append_nil, List.take_of_length_le hle, List.drop_of_length_le hle]
      exact ⟨rfl, rfl⟩
  refine ⟨s', ?_, h2, ht.2, by rw [h3']; simp⟩
  unfold decRead
  rw [Act.bind_ok h1, ht.1, decode_encode _ _ (by simp; omega)]
  rfl

theorem skipCommentLoop_on (hb : Bytewise I q rd left) (fuel : Nat) (c : UInt8) (s : σ) (hI : I s) :
    ∃ r s' t, skipCommentLoop rd fuel c s = (r, s') ∧ I s' ∧ left s = t ++ left s' ∧
      ((r = .ok () ∧ ∃ u, t = u ++ [10] ∧ 10 ∉ u) ∨ ((r = .err .eof ∨ ¬ q) ∧ r ≠ .ok () ∧ 10 ∉ t ∧ (r = .err .eof → left s' = [])) ∨
        (r = .hang ∧ fuel ≤ (left s).length)) := by
  induction fuel generalizing c s with
  | zero => exact ⟨.hang, s, [], rfl, hI, rfl, .inr (.inr ⟨rfl, Nat.zero_le _⟩)⟩
  | succ fuel ih =>
    unfold skipCommentLoop
    obtain ⟨r, s', h1, hI', h2 | ⟨rfl, h2, h3⟩ | ⟨hq, h2, h3⟩⟩ := hb s hI
    · obtain ⟨x, rfl, hl⟩ := h2
      rw [Act.bind_ok h1]
      show ∃ r s'' t, (if x = 10 then (pure () : Act σ Unit) else skipCommentLoop rd fuel x) s' = (r, s'') ∧ _
      by_cases hx : x = 10
      · rw [if_pos hx]
        exact ⟨_, _, [x], rfl, hI', by rw [hl]; rfl, .inl ⟨rfl, [], by rw [hx]; rfl, by simp⟩⟩
      · rw [if_neg hx]
        have hx' : (10 : UInt8) ≠ x := Ne.symm hx
        obtain ⟨r, s'', t, a1, a2, a3, a4⟩ := ih x s' hI'
        refine ⟨r, s'', x :: t, a1, a2, by rw [hl, a3]; rfl, ?_⟩
        rcases a4 with ⟨b1, u, rfl, b3⟩ | ⟨b1, b2, b3, b4⟩ | ⟨b1, b2⟩
        · exact .inl ⟨b1, x :: u, rfl, by simp [hx', b3]⟩
        · exact .inr (.inl ⟨b1, b2, by simp [hx', b3], b4⟩)
        · exact .inr (.inr ⟨b1, by rw [hl]; simp only [List.length_cons]; omega⟩)
    · exact ⟨_, _, [], Act.bind_err h1, hI', by rw [h2, h3]; rfl, .inr (.inl ⟨.inl rfl, by simp, by simp, fun _ => h3⟩)⟩
    · rcases h2 with rfl | rfl
      · exact ⟨_, _, [], Act.bind_err h1, hI', by rw [h3]; rfl, .inr (.inl ⟨.inr hq, by simp, by simp, by simp⟩)⟩
      · exact ⟨_, _, [], Act.bind_crash h1, hI', by rw [h3]; rfl, .inr (.inl ⟨.inr hq, by simp, by simp, by simp⟩)⟩

end Bytewise

/-! ### Open files as such readers -/

/-- What an open file has left to read. -/
def remaining (h : Nat) (w : World) : Bytes :=
  match w.handles[h]? with
  | none => []
  | some hd => match w.fs hd.path with
    | none => []
    | some f => f.data.drop hd.off

theorem remaining_eq {h : Nat} {w : World} {p : Path} {off : Nat} {f : File} (hh : w.handles[h]? = some ⟨p, off⟩)
    (hf : w.fs p = some f) : remaining h w = f.data.drop off := by
  simp only [remaining, hh, hf]

theorem readHandle_bytewise {h : Nat} {p : Path} {I : World → Prop} {q : Prop}
    (h1 : ∀ w, I w → ∃ off f, w.handles[h]? = some ⟨p, off⟩ ∧ w.fs p = some f)
    (h2 : ∀ w, I w → q → w.Quiet)
    (h3 : ∀ w w', I w → w'.fs = w.fs → FrameIO w w' → w'.tick = w.tick + 1 →
      (∀ h', h' ≠ h → w'.handles[h']? = w.handles[h']?) → (∃ off, w'.handles[h]? = some ⟨p, off⟩) → I w') :
    Bytewise I q (readHandle h) (remaining h) := by
  intro w hI
  obtain ⟨off, f, hh, hf⟩ := h1 w hI
  obtain ⟨r, w', a1, a2, a3, a4, a5, a6⟩ := readHandle_at (n := 1) hh hf (by decide)
  have hf' : w'.fs p = some f := by rw [a2, hf]
  refine ⟨r, w', a1, h3 w w' hI a2 a3 a4 a5 ?_, ?_⟩
  · rcases a6 with ⟨got, -, -, -, -, b, -⟩ | ⟨-, -, b⟩ | ⟨-, -, b⟩ <;> exact ⟨_, b⟩
  · rw [remaining_eq hh hf]
    rcases a6 with ⟨got, rfl, b1, -, -, b2, -, b3⟩ | ⟨rfl, b1, b2⟩ | ⟨b1, b2, b3⟩
    · left
      have hg := b3 rfl
      rw [remaining_eq b2 hf', ← List.drop_drop]
      cases hd : f.data.drop off with
      | nil => rw [hd] at hg; exact absurd hg b1
      | cons c t =>
        rw [hd] at hg
        rw [hg]
        exact ⟨c, rfl, rfl⟩
    · exact .inr (.inl ⟨rfl, b1, by rw [remaining_eq b2 hf', b1]⟩)
    · exact .inr (.inr ⟨fun hq => b1 (h2 w hI hq), b2, by rw [remaining_eq b3 hf']⟩)

/-- The new world differs at most in files, handles, call counter and terminal. -/
def FrameTTY (w w' : World) : Prop :=
  w' = { w with fs := w'.fs, handles := w'.handles, tick := w'.tick, prompts := w'.prompts, tty := w'.tty, bufs := w'.bufs,
                stdout := w'.stdout }

theorem FrameTTY.trans {a b c : World} (h1 : FrameTTY a b) (h2 : FrameTTY b c) : FrameTTY a c := by
  unfold FrameTTY at *; rw [h2, h1]

theorem FrameTTY.sched {a b : World} (h : FrameTTY a b) : b.sched = a.sched := by rw [h]

theorem FrameTTY.ofIO {a b : World} (h : FrameIO a b) : FrameTTY a b := by
  unfold FrameIO at h; unfold FrameTTY; rw [h]

/-! ### The part after the destination was created -/

section Tail

variable (w0 : World) (ep mp : Path) (mode hE hM : Nat)

/-- The destination holds `d`; the encrypted file is open. -/
structure Opening (d : Bytes) (w : World) : Prop where
  dest : At w0 mp mode hM d w
  frame : FrameTTY w0 w
  tick : w0.tick ≤ w.tick
  enc : ∃ off, w.handles[hE]? = some ⟨ep, off⟩

variable {w0 ep mp mode hE hM}

theorem Opening.quiet {d : Bytes} {w : World} (h : Opening w0 ep mp mode hE hM d w) (hq : w0.Quiet) : w.Quiet :=
  hq.mono h.frame.sched h.tick

theorem Opening.read {d : Bytes} {w : World} (hfe : ∃ fe, w0.fs ep = some fe)
    (h : Opening w0 ep mp mode hE hM d w) : ∃ off f, w.handles[hE]? = some ⟨ep, off⟩ ∧ w.fs ep = some f := by
  obtain ⟨off, ho⟩ := h.enc
  by_cases he : ep = mp
  · exact ⟨off, _, ho, by rw [he]; exact h.dest.file⟩
  · obtain ⟨fe, hfe⟩ := hfe
    exact ⟨off, fe, ho, by rw [h.dest.other he, hfe]⟩

theorem opening_bytewise (hne : hE ≠ hM) (hfe : ∃ fe, w0.fs ep = some fe) (d : Bytes) :
    Bytewise (Opening w0 ep mp mode hE hM d) w0.Quiet (readHandle hE) (remaining hE) := by
  apply readHandle_bytewise (p := ep)
  · intro w hI; exact hI.read hfe
  · intro w hI hq; exact hI.quiet hq
  · intro w w' hI h1 h2 h3 h4 h5
    exact ⟨⟨by rw [h1]; exact hI.dest.fs, by rw [h4 _ (Ne.symm hne)]; exact hI.dest.hd⟩,
      hI.frame.trans (.ofIO h2), by have := hI.tick; omega, h5⟩

/-- Writing to the destination. -/
theorem opening_write (hne : hE ≠ hM) {d : Bytes} {w : World} (h : Opening w0 ep mp mode hE hM d w) (bs : Bytes) :
    ∃ k r w', writeHandle hM bs w = (r, w') ∧ Opening w0 ep mp mode hE hM (d ++ bs.take k) w' ∧
      ((∃ n, r = .ok n) → bs.take k = bs) ∧ (w0.Quiet → ∃ n, r = .ok n) ∧ (ep ≠ mp → remaining hE w' = remaining hE w) := by
  obtain ⟨k, r, w', h1, h2, h3, h4, h5, h6, h7, -⟩ := writeHandle_at h.dest bs
  obtain ⟨off, ho⟩ := h.enc
  refine ⟨k, r, w', h1, ⟨h2, h.frame.trans (.ofIO h5), by have := h.tick; omega, ⟨off, by rw [h4 _ hne, ho]⟩⟩, h3,
    fun hq => h7 (h.quiet hq), fun he => ?_⟩
  simp only [remaining, h4 _ hne, ho]
  rw [h2.other he, h.dest.other he]

theorem DecodedFrom.snoc {T l rest a b : Bytes} {n : Nat} (h : DecodedFrom T l (a ++ rest)) (hd : B64.decode n a = .ok b) :
    DecodedFrom T (l ++ b) rest := by
  obtain ⟨segs, h1, h2, h3⟩ := h
  refine ⟨segs ++ [(a, b)], ?_, ?_, ?_⟩
  · intro sg hsg
    rcases List.mem_append.mp hsg with h | h
    · exact h1 sg h
    · simp only [List.mem_singleton] at h; subst h; exact ⟨n, hd⟩
  · rw [← h2]; simp
  · rw [← h3]; simp

variable (w0 ep mp mode hE hM) (T : Bytes)

/-- `l` has been read from the decoder, `d` has been written. -/
def OpenJ (l d : Bytes) (s : Private × World) : Prop :=
  Opening w0 ep mp mode hE hM d s.2 ∧ (ep ≠ mp → DecodedFrom T l (stripNL (remaining hE s.2)))

/-- The same after a failure. -/
def OpenF (l d : Bytes) (s : Private × World) : Prop :=
  Opening w0 ep mp mode hE hM d s.2 ∧ (ep ≠ mp → ∃ rest, DecodedFrom T l rest)

variable {w0 ep mp mode hE hM T}

theorem openChannel (hne : hE ≠ hM) (hfe : ∃ fe, w0.fs ep = some fe) (fuel : Nat) :
    Channel (fun n => Act.onSnd (decRead fuel (readHandle hE) n)) (fun bs => Act.onSnd (writeHandle hM bs))
      (OpenJ w0 ep mp mode hE hM T) (OpenF w0 ep mp mode hE hM T) := by
  have hb := fun d => opening_bytewise (mode := mode) (mp := mp) hne hfe d
  refine ⟨?_, ?_, ?_, ?_, ?_⟩
  · rintro l d ⟨k, w⟩ n got ⟨k', w'⟩ - ⟨hO, hT⟩ hr
    obtain ⟨r, w1, t, h1, h2, h3, h4⟩ := decRead_on (hb d) fuel n w hO
    rw [Act.onSnd_apply, h1] at hr
    simp only [Prod.mk.injEq] at hr
    obtain ⟨rfl, rfl, rfl⟩ := hr
    refine ⟨h2, fun he => ?_⟩
    have := hT he
    simp only at this
    rw [h3, stripNL_append] at this
    exact this.snoc (h4 got rfl)
  · rintro l d ⟨k, w⟩ n r' ⟨k', w'⟩ - ⟨hO, hT⟩ hr -
    obtain ⟨r, w1, t, h1, h2, h3, h4⟩ := decRead_on (hb d) fuel n w hO
    rw [Act.onSnd_apply, h1] at hr
    simp only [Prod.mk.injEq] at hr
    obtain ⟨rfl, rfl, rfl⟩ := hr
    exact ⟨h2, fun he => ⟨_, hT he⟩⟩
  · rintro l d ⟨k, w⟩ bs n ⟨k', w'⟩ ⟨hO, hT⟩ hr
    obtain ⟨j, r, w1, h1, h2, h3, -, h5⟩ := opening_write hne hO bs
    rw [Act.onSnd_apply, h1] at hr
    simp only [Prod.mk.injEq] at hr
    obtain ⟨rfl, rfl, rfl⟩ := hr
    rw [h3 ⟨_, rfl⟩] at h2
    exact ⟨h2, fun he => by simp only; rw [h5 he]; exact hT he⟩
  · rintro l d ⟨k, w⟩ bs r' ⟨k', w'⟩ ⟨hO, hT⟩ hr -
    obtain ⟨j, r, w1, h1, h2, h3, -, h5⟩ := opening_write hne hO bs
    rw [Act.onSnd_apply, h1] at hr
    simp only [Prod.mk.injEq] at hr
    obtain ⟨rfl, rfl, rfl⟩ := hr
    exact ⟨j, h2, fun he => ⟨_, hT he⟩⟩
  · rintro l d s ⟨hO, hT⟩
    exact ⟨hO, fun he => ⟨_, hT he⟩⟩

theorem Opening.toBox {d : Bytes} {priv : Private} {w : World} (P : Prims) (h : Opening w0 ep mp mode hE hM d w) :
    Opening w0 ep mp mode hE hM d (Private.toBox P (priv, w)).2.2 ∧
      remaining hE (Private.toBox P (priv, w)).2.2 = remaining hE w := by
  obtain ⟨a, b, c, e, hw⟩ := toBox_world P priv w
  rw [hw]
  exact ⟨⟨⟨h.dest.fs, h.dest.hd⟩, h.frame.trans rfl, h.tick, h.enc⟩, rfl⟩

theorem openToBox (P : Prims) : Silent (Private.toBox P) (OpenJ w0 ep mp mode hE hM T) (OpenF w0 ep mp mode hE hM T) := by
  refine ⟨?_, ?_⟩
  · rintro l d ⟨k, w⟩ x ⟨k', w'⟩ ⟨hO, hT⟩ hr
    obtain ⟨h1, h2⟩ := hO.toBox P (priv := k)
    simp only at h1 h2
    rw [hr] at h1 h2
    exact ⟨h1, fun he => by simp only at h2 ⊢; rw [h2]; exact hT he⟩
  · rintro l d ⟨k, w⟩ x ⟨k', w'⟩ ⟨hO, hT⟩ hr -
    obtain ⟨h1, h2⟩ := hO.toBox P (priv := k)
    simp only at h1 h2
    rw [hr] at h1 h2
    exact ⟨h1, fun he => ⟨_, hT he⟩⟩

/-! ### Without faults -/

/-- The text still to be read encodes `m`; `d` has been written. -/
def OpenS (w0 : World) (ep mp : Path) (mode hE hM fuel : Nat) (m d : Bytes) (s : Private × World) : Prop :=
  Opening w0 ep mp mode hE hM d s.2 ∧ stripNL (remaining hE s.2) = encode m ∧ (remaining hE s.2).length < fuel

theorem openSource (hne : hE ≠ hM) (hpath : ep ≠ mp) (hfe : ∃ fe, w0.fs ep = some fe) (hq : w0.Quiet) (fuel : Nat) :
    DataSource (fun n => Act.onSnd (decRead fuel (readHandle hE) n)) (fun bs => Act.onSnd (writeHandle hM bs))
      (OpenS w0 ep mp mode hE hM fuel) := by
  refine ⟨?_, ?_⟩
  · rintro m d ⟨k, w⟩ n ⟨hO, hT, hf⟩ h3
    obtain ⟨w', h1, h2, h4, h5⟩ := decRead_on_quiet (opening_bytewise hne hfe d) hq fuel n h3 m w hO hf hT
    exact ⟨(k, w'), by rw [Act.onSnd_apply, h1], h2, h4, Nat.lt_of_le_of_lt h5 hf⟩
  · rintro m d ⟨k, w⟩ bs ⟨hO, hT, hf⟩
    obtain ⟨j, r, w1, h1, h2, h3, h4, h5⟩ := opening_write hne hO bs
    obtain ⟨n, rfl⟩ := h4 hq
    rw [h3 ⟨_, rfl⟩] at h2
    exact ⟨n, (k, w1), by rw [Act.onSnd_apply, h1], h2, by simp only; rw [h5 hpath]; exact hT, by simp only; rw [h5 hpath]; exact hf⟩

end Tail

/-- The part of `Open` after the destination was created. -/
def openTail (P : Prims) (fuel : Nat) (priv : Private) (hE hM : Nat) : Act World Unit := fun w =>
  let r := openBox P (Private.toBox P) (fun n => Act.onSnd (decRead fuel (World.readHandle hE) n))
    (fun bs => Act.onSnd (World.writeHandle hM bs)) (priv, w)
  (r.1, r.2.2)

theorem Open_unfold (P : Prims) (fuel : Nat) (kp ep mp : Path) :
    Open P fuel kp ep mp = (do
      let priv ← loadPrivateKey kp
      let encrypted ← World.openFile ep
      skipComment fuel (World.readHandle encrypted)
      let message ← World.create mp
      openTail P fuel priv encrypted message) := rfl

/-- If there is nothing to decode, the header is too short: the destination stays empty. -/
theorem openTail_empty (P : Prims) (fuel : Nat) (priv : Private) {w0 w : World} {ep mp : Path} {mode hE hM : Nat} {d : Bytes}
    (hne : hE ≠ hM) (hfe : ∃ fe, w0.fs ep = some fe) (hO : Opening w0 ep mp mode hE hM d w)
    (hr : stripNL (remaining hE w) = []) :
    (openTail P fuel priv hE hM w).1 ≠ .ok () ∧ Opening w0 ep mp mode hE hM d (openTail P fuel priv hE hM w).2 := by
  unfold openTail openBox
  rw [Act.bind_eq]
  obtain ⟨hO1, hr1⟩ := hO.toBox P (priv := priv)
  rcases h1 : Private.toBox P (priv, w) with ⟨r1, k1, w1⟩
  rw [h1] at hO1 hr1
  simp only at hO1 hr1
  cases r1 with
  | err e => exact ⟨by simp, hO1⟩
  | panic => exact ⟨by simp, hO1⟩
  | crash => exact ⟨by simp, hO1⟩
  | hang => exact ⟨by simp, hO1⟩
  | ok edpriv =>
    simp only
    rw [Act.bind_eq, Act.onSnd_apply]
    obtain ⟨r2, w2, t, h2, hO2, h3, h4⟩ := decRead_on (opening_bytewise hne hfe d) fuel headerSize w1 hO1
    simp only [h2]
    cases r2 with
    | err e => exact ⟨by simp, hO2⟩
    | panic => exact ⟨by simp, hO2⟩
    | crash => exact ⟨by simp, hO2⟩
    | hang => exact ⟨by simp, hO2⟩
    | ok header =>
      have ht : stripNL t = [] := by
        rw [← hr1, h3, stripNL_append] at hr
        exact (List.append_eq_nil_iff.mp hr).1
      have hd := h4 header rfl
      rw [ht] at hd
      have hh : header = [] := by
        have h0 : B64.decode headerSize [] = .ok [] := decode_encode headerSize [] (by decide)
        rw [h0] at hd
        exact (Dec.ok.inj hd).symm
      subst hh
      simp only
      rw [if_pos (by decide)]
      exact ⟨by simp, hO2⟩

/-- The state of `Open` when the destination has just been created. -/
structure OpenReady (kp ep mp : Path) (w : World) (priv : Private) (hE hM : Nat) (first text : Bytes) (w' : World) : Prop where
  key : ∃ fk, w.fs kp = some fk ∧ readPrivateKeyFile fk.data = .ok priv
  file : ∃ fe, w.fs ep = some fe ∧ fe.data = first ++ 10 :: text
  noNL : 10 ∉ first
  opening : Opening w ep mp (w.truncated mp 0o666).mode hE hM [] w'
  ne : hE ≠ hM
  tty : w'.tty = w.tty
  rest : ep ≠ mp → remaining hE w' = text
  same : ep = mp → remaining hE w' = []

/-- Either `Open` fails before that, or it continues with `openTail` from such a state. -/
theorem Open_start (P : Prims) (fuel : Nat) (kp ep mp : Path) (w : World) :
    (FrameTTY w (Open P fuel kp ep mp w).2 ∧ (Open P fuel kp ep mp w).1 ≠ .ok () ∧
      ((Open P fuel kp ep mp w).2.fs = w.fs ∨
        ((Open P fuel kp ep mp w).2.fs = (w.setFile mp ⟨[], (w.truncated mp 0o666).mode⟩).fs ∧
          ∃ fk priv fe first text, w.fs kp = some fk ∧ readPrivateKeyFile fk.data = .ok priv ∧ w.fs ep = some fe ∧
            fe.data = first ++ 10 :: text ∧ 10 ∉ first)) ∧
      (w.Quiet → ∀ fk priv fe, w.fs kp = some fk → readPrivateKeyFile fk.data = .ok priv → w.fs ep = some fe →
        fe.data.length < fuel → 10 ∉ fe.data ∧ (Open P fuel kp ep mp w).1 = .err .eof ∧ (Open P fuel kp ep mp w).2.fs = w.fs)) ∨
    ∃ priv hE hM first text w', OpenReady kp ep mp w priv hE hM first text w' ∧
      Open P fuel kp ep mp w = openTail P fuel priv hE hM w' := by
  rw [Open_unfold]
  have hw1 := loadPrivateKey_world kp w
  rcases h1 : loadPrivateKey kp w with ⟨r1, w1⟩
  rw [h1] at hw1
  simp only at hw1
  subst hw1
  have hload : ∀ priv, r1 = .ok priv → ∃ f, w.fs kp = some f ∧ readPrivateKeyFile f.data = .ok priv :=
    fun priv h => loadPrivateKey_ok (by rw [h1, h])
  have hq1 : w.Quiet → ∀ fk priv, w.fs kp = some fk → readPrivateKeyFile fk.data = .ok priv → r1 = .ok priv := by
    intro hq fk priv hf hp
    have : loadPrivateKey kp w = (.ok priv, { w with tick := w.tick + 1 }) := by
      unfold loadPrivateKey
      rw [Act.bind_ok (readFile_quiet hq hf), hp]; rfl
    rw [h1] at this; exact (Prod.mk.injEq .. ▸ this).1
  rw [Act.bind_eq, h1]
  cases r1 with
  | err e =>
    exact .inl ⟨rfl, by simp, .inl rfl, fun hq fk priv _ a b _ _ => by cases hq1 hq fk priv a b⟩
  | panic =>
    exact .inl ⟨rfl, by simp, .inl rfl, fun hq fk priv _ a b _ _ => by cases hq1 hq fk priv a b⟩
  | crash =>
    exact .inl ⟨rfl, by simp, .inl rfl, fun hq fk priv _ a b _ _ => by cases hq1 hq fk priv a b⟩
  | hang =>
    exact .inl ⟨rfl, by simp, .inl rfl, fun hq fk priv _ a b _ _ => by cases hq1 hq fk priv a b⟩
  | ok priv =>
    clear hq1
    obtain ⟨fk, hfk, hpriv⟩ := hload priv rfl
    simp only
    rw [Act.bind_eq]
    obtain ⟨r2, w2, h2, fr2, fs2, t2, hq2, hcase⟩ := openFile_spec ep { w with tick := w.tick + 1 }
    rw [h2]
    simp only at fs2 t2 hcase
    have fr2' : FrameIO w w2 := FrameIO.trans (b := { w with tick := w.tick + 1 }) rfl fr2
    rcases hcase with ⟨rfl, hh2, fe, hfe⟩ | ⟨hr2, -⟩
    · simp only
      have hhe : w2.handles[w.handles.length]? = some ⟨ep, 0⟩ := by rw [hh2]; simp
      generalize w.handles.length = hE at *
      let I : World → Prop := fun w' => FrameIO w w' ∧ w'.fs = w.fs ∧ w.tick ≤ w'.tick ∧ ∃ off, w'.handles[hE]? = some ⟨ep, off⟩
      have hb : Bytewise I w.Quiet (readHandle hE) (remaining hE) := by
        apply readHandle_bytewise (p := ep)
        · rintro w' ⟨-, a, -, off, b⟩
          exact ⟨off, fe, b, by rw [a, hfe]⟩
        · rintro w' ⟨a, -, b, -⟩ hq
          exact hq.mono a.sched b
        · rintro x y ⟨a1, a2, a3, -⟩ b1 b2 b3 b4 b5
          exact ⟨a1.trans b2, by rw [b1, a2], by omega, b5⟩
      rw [Act.bind_eq]
      obtain ⟨r3, w3, t, h3, hI3, hleft, hcase3⟩ := skipCommentLoop_on hb fuel 0 w2 ⟨fr2', fs2, by omega, 0, hhe⟩
      rw [show skipComment fuel (readHandle hE) w2 = _ from h3]
      rw [remaining_eq hhe (show w2.fs ep = some fe by rw [fs2, hfe])] at hleft hcase3
      rw [List.drop_zero] at hleft hcase3
      obtain ⟨fr3, fs3, t3, off3, hoff3⟩ := hI3
      rcases hcase3 with ⟨rfl, first, rfl, hno⟩ | ⟨ha, hb', hc, hd⟩ | ⟨rfl, ha⟩
      · -- the comment has been skipped
        have hdata : fe.data = first ++ 10 :: remaining hE w3 := by rw [hleft, List.append_assoc]; rfl
        simp only
        rw [Act.bind_eq]
        obtain ⟨r4, w4, h4, fr4, t4, hq4, hc4⟩ := create_spec mp w3
        rw [h4]
        have htr : w3.truncated mp 0o666 = w.truncated mp 0o666 := by
          unfold truncated; rw [fs3, fr3]
        rw [htr] at hc4
        have fr4' : FrameIO w w4 := fr3.trans fr4
        rcases hc4 with ⟨rfl, hA4, hh4⟩ | ⟨hr4, hh4, hfs4⟩
        · right
          simp only
          have hlt : hE < w3.handles.length := by
            rcases Nat.lt_or_ge hE w3.handles.length with h | h
            · exact h
            · rw [List.getElem?_eq_none h] at hoff3; cases hoff3
          have ho4 : w4.handles[hE]? = some ⟨ep, off3⟩ := by
            rw [hh4, List.getElem?_append_left hlt, hoff3]
          have hA : At w mp (w.truncated mp 0o666).mode w3.handles.length [] w4 :=
            ⟨by rw [hA4.fs]; simp only [setFile, fs3], hA4.hd⟩
          refine ⟨priv, hE, w3.handles.length, first, remaining hE w3, w4,
            ⟨⟨fk, hfk, hpriv⟩, ⟨fe, hfe, hdata⟩, hno, ⟨hA, .ofIO fr4', by omega, ⟨_, ho4⟩⟩, by omega, fr4'.tty, ?_, ?_⟩, rfl⟩
          · intro he
            rw [remaining_eq ho4 (show w4.fs ep = some fe by rw [hA.other he, hfe]),
              remaining_eq hoff3 (show w3.fs ep = some fe by rw [fs3, hfe])]
          · intro he
            rw [remaining_eq ho4 (show w4.fs ep = some ⟨[], (w.truncated mp 0o666).mode⟩ by rw [he]; exact hA.file)]
            simp
        · left
          have hfs : w4.fs = w.fs ∨ w4.fs = (w.setFile mp ⟨[], (w.truncated mp 0o666).mode⟩).fs := by
            rcases hfs4 with h | h
            · left; rw [h, fs3]
            · right; rw [h]; simp only [setFile, fs3]
          have hnq : ¬ w.Quiet := by
            intro hq
            obtain ⟨h, hx⟩ := hq4 (hq.mono fr3.sched t3)
            rcases hr4 with h' | h' <;> rw [h'] at hx <;> cases hx
          rcases hr4 with rfl | rfl
          · refine ⟨.ofIO fr4', by simp, ?_, fun hq => absurd hq hnq⟩
            exact hfs.imp id fun h => ⟨h, fk, priv, fe, first, remaining hE w3, hfk, hpriv, hfe, hdata, hno⟩
          · refine ⟨.ofIO fr4', by simp, ?_, fun hq => absurd hq hnq⟩
            exact hfs.imp id fun h => ⟨h, fk, priv, fe, first, remaining hE w3, hfk, hpriv, hfe, hdata, hno⟩
      · left
        have hres : ∀ (r : Res Unit), (r = .err .eof → r3 = .err .eof) → (r3 = .err .eof → r = .err .eof) → r ≠ .ok () →
            FrameTTY w w3 ∧ r ≠ .ok () ∧ (w3.fs = w.fs ∨
              (w3.fs = (w.setFile mp ⟨[], (w.truncated mp 0o666).mode⟩).fs ∧
          ∃ fk priv fe first text, w.fs kp = some fk ∧ readPrivateKeyFile fk.data = .ok priv ∧ w.fs ep = some fe ∧
            fe.data = first ++ 10 :: text ∧ 10 ∉ first)) ∧
            (w.Quiet → ∀ fk priv fe, w.fs kp = some fk → readPrivateKeyFile fk.data = .ok priv → w.fs ep = some fe →
              fe.data.length < fuel → 10 ∉ fe.data ∧ r = .err .eof ∧ w3.fs = w.fs) := by
          intro r e1 e2 hr
          refine ⟨.ofIO fr3, hr, .inl fs3, ?_⟩
          intro hq _ _ fe' _ _ hfe' _
          rw [hfe] at hfe'
          obtain rfl := Option.some.inj hfe'
          have h3e : r3 = .err .eof := ha.resolve_right fun h => h hq
          refine ⟨?_, e2 h3e, fs3⟩
          rw [hleft, hd h3e, List.append_nil]; exact hc
        cases r3 with
        | ok u => exact absurd rfl hb'
        | err e => exact hres (.err e) id id (by simp)
        | panic => exact hres .panic id id (by simp)
        | crash => exact hres .crash id id (by simp)
        | hang => exact hres .hang id id (by simp)
      · left
        refine ⟨.ofIO fr3, by simp, .inl fs3, fun hq _ _ fe' _ _ hfe' hlt => ?_⟩
        rw [hfe] at hfe'
        obtain rfl := Option.some.inj hfe'
        omega
    · left
      have hnq : w.Quiet → ∀ fe, w.fs ep = some fe → False := by
        intro hq fe hfe
        obtain ⟨h, hx⟩ := hq2 (hq.tick 1) ⟨fe, hfe⟩
        rcases hr2 with ⟨e, h'⟩ | h' <;> rw [h'] at hx <;> cases hx
      rcases hr2 with ⟨e, rfl⟩ | rfl
      · exact ⟨.ofIO fr2', by simp, .inl fs2, fun hq _ _ fe _ _ hfe _ => (hnq hq fe hfe).elim⟩
      · exact ⟨.ofIO fr2', by simp, .inl fs2, fun hq _ _ fe _ _ hfe _ => (hnq hq fe hfe).elim⟩

theorem flatten_dropLast_le (ps : List Bytes) : ps.dropLast.flatten.length ≤ ps.flatten.length := by
  rcases List.eq_nil_or_concat ps with rfl | ⟨qs, q, rfl⟩ <;> simp

theorem firstLine_unique {a b t u : Bytes} (ha : 10 ∉ a) (hb : 10 ∉ b) (h : a ++ 10 :: t = b ++ 10 :: u) : a = b ∧ t = u := by
  induction a generalizing b with
  | nil =>
    cases b with
    | nil => simpa using h
    | cons x xs =>
      simp only [List.nil_append, List.cons_append, List.cons.injEq] at h
      exact absurd (by rw [← h.1]; exact List.mem_cons_self) hb
  | cons y ys ih =>
    cases b with
    | nil =>
      simp only [List.nil_append, List.cons_append, List.cons.injEq] at h
      exact absurd (by rw [h.1]; exact List.mem_cons_self) ha
    | cons x xs =>
      simp only [List.cons_append, List.cons.injEq] at h
      obtain ⟨p, q⟩ := ih (fun m => ha (List.mem_cons_of_mem _ m)) (fun m => hb (List.mem_cons_of_mem _ m)) h.2
      exact ⟨by rw [h.1, p], q⟩

/-- What `Open` may leave in the destination. -/
structure Opened (P : Prims) (kp ep mp : Path) (w : World) (res : Res Unit) (d : Bytes) : Prop where
  cases : (res ≠ .ok () ∧ d = [] ∧ ∃ fk priv fe first text, w.fs kp = some fk ∧ readPrivateKeyFile fk.data = .ok priv ∧
      w.fs ep = some fe ∧ fe.data = first ++ 10 :: text ∧ 10 ∉ first) ∨
    (ep ≠ mp ∧ ∃ fk priv fe first text edpriv epub n ps c j rest, w.fs kp = some fk ∧ readPrivateKeyFile fk.data = .ok priv ∧
      w.fs ep = some fe ∧ fe.data = first ++ 10 :: text ∧ 10 ∉ first ∧ BoxUsable P w.tty priv edpriv ∧
      n < 2 ^ 64 ∧ ps.length ≤ n ∧ ps.dropLast.flatten.length ≤ j ∧
      DecodedFrom (stripNL text) (headerOf P (P.precompute epub edpriv) epub n ++
        (sealedFrom P (P.precompute epub edpriv) 0 ps).flatten ++ c) rest ∧
      d = ps.flatten.take j ∧ (res = .ok () → ps.length = n ∧ d = ps.flatten ∧ c = []))

theorem Open_spec (P : Prims) (fuel : Nat) (kp ep mp : Path) (w : World) :
    FrameTTY w (Open P fuel kp ep mp w).2 ∧
    (((Open P fuel kp ep mp w).2.fs = w.fs ∧ (Open P fuel kp ep mp w).1 ≠ .ok ()) ∨
      ∃ d, (Open P fuel kp ep mp w).2.fs = (w.setFile mp ⟨d, (w.truncated mp 0o666).mode⟩).fs ∧
        Opened P kp ep mp w (Open P fuel kp ep mp w).1 d) := by
  rcases Open_start P fuel kp ep mp w with ⟨h1, h2, h3 | ⟨h3, fk, priv, fe, first, text, h⟩, -⟩ |
      ⟨priv, hE, hM, first, text, w', hR, he⟩
  · exact ⟨h1, .inl ⟨h3, h2⟩⟩
  · exact ⟨h1, .inr ⟨[], h3, ⟨.inl ⟨h2, rfl, fk, priv, fe, first, text, h⟩⟩⟩⟩
  · rw [he]
    obtain ⟨fk, hfk, hpriv⟩ := hR.key
    obtain ⟨fe, hfe, hdata⟩ := hR.file
    by_cases hpath : ep = mp
    · obtain ⟨a1, a2⟩ := openTail_empty P fuel priv hR.ne ⟨fe, hfe⟩ hR.opening (by rw [hR.same hpath]; rfl)
      exact ⟨a2.frame, .inr ⟨[], a2.dest.fs, ⟨.inl ⟨a1, rfl, fk, priv, fe, first, text, hfk, hpriv, hfe, hdata, hR.noNL⟩⟩⟩⟩
    · have hc := openChannel (w0 := w) (mp := mp) (mode := (w.truncated mp 0o666).mode) (T := stripNL text) hR.ne ⟨fe, hfe⟩ fuel
      have hJ : OpenJ w ep mp (w.truncated mp 0o666).mode hE hM (stripNL text) [] [] (priv, w') :=
        ⟨hR.opening, fun _ => ⟨[], by simp, by simp [hR.rest hpath], rfl⟩⟩
      have hkey : ∀ k, (Private.toBox P (priv, w')).1 = .ok k → BoxUsable P w.tty priv k := by
        intro k hk
        rw [toBox_ok_iff, hR.tty] at hk; exact hk
      unfold openTail
      rcases hr : openBox P (Private.toBox P) (fun n => Act.onSnd (decRead fuel (World.readHandle hE) n))
        (fun bs => Act.onSnd (World.writeHandle hM bs)) (priv, w') with ⟨r, k, w''⟩
      by_cases hok : r = .ok ()
      · subst hok
        obtain ⟨edpriv, epub, ps, b1, b2, b3, b4⟩ := openBox_ok hc P (openToBox P) hJ hr
        refine ⟨b3.frame, .inr ⟨_, b3.dest.fs, ⟨.inr ⟨hpath, fk, priv, fe, first, text, edpriv, epub, ps.length, ps, [],
          ps.flatten.length, stripNL (remaining hE w''), hfk, hpriv, hfe, hdata, hR.noNL, hkey _ b1, b2, Nat.le_refl _, ?_, ?_, ?_, ?_⟩⟩⟩⟩
        · exact flatten_dropLast_le ps
        · have := b4 hpath
          rw [List.nil_append, sealedStream] at this
          rw [List.append_nil]
          exact this
        · rw [List.nil_append, List.take_length]
        · intro _; exact ⟨rfl, by simp, rfl⟩
      · have hany := openBox_any hc P (openToBox P) hJ
        rw [hr] at hany
        simp only at hany
        rcases hany with ⟨c, hF, -⟩ | ⟨edpriv, epub, n, ps, c, j, b1, b2, b3, b4, b5, b6⟩
        · exact ⟨hF.1.frame, .inr ⟨[], hF.1.dest.fs, ⟨.inl ⟨hok, rfl, fk, priv, fe, first, text, hfk, hpriv, hfe, hdata, hR.noNL⟩⟩⟩⟩
        · obtain ⟨rest, b6⟩ := b6 hpath
          rw [List.nil_append] at b6
          refine ⟨b5.frame, .inr ⟨_, b5.dest.fs, ⟨.inr ⟨hpath, fk, priv, fe, first, text, edpriv, epub, n, ps, c,
            j, rest, hfk, hpriv, hfe, hdata, hR.noNL, hkey _ b1, b2, b3, b4, b6, by simp, fun h => absurd h hok⟩⟩⟩⟩

/-- `Open` without faults, on a file that holds authentic data (followed by `t`). -/
theorem Open_quiet (P : Prims) (fuel : Nat) (kp ep mp : Path) {w : World} (hq : w.Quiet) {fk fe : File} {priv : Private}
    {edpriv epub : Arr 32} {first text t : Bytes} {ps : List Bytes} (hfk : w.fs kp = some fk)
    (hpriv : readPrivateKeyFile fk.data = .ok priv) (hbox : BoxUsable P w.tty priv edpriv) (hfe : w.fs ep = some fe)
    (hdata : fe.data = first ++ 10 :: text) (hno : 10 ∉ first) (hpath : ep ≠ mp) (hfuel : fe.data.length < fuel)
    (htext : stripNL text = encode (sealedStream P (P.precompute epub edpriv) epub ps ++ t))
    (hn : ps.length < 2 ^ 64) (hfr : Framed ps t) :
    (Open P fuel kp ep mp w).1 = .ok () ∧
    (Open P fuel kp ep mp w).2.fs = (w.setFile mp ⟨ps.flatten, (w.truncated mp 0o666).mode⟩).fs := by
  rcases Open_start P fuel kp ep mp w with ⟨-, -, -, h⟩ | ⟨priv', hE, hM, first', text', w', hR, he⟩
  · obtain ⟨h, -⟩ := h hq fk priv fe hfk hpriv hfe hfuel
    rw [hdata] at h
    simp at h
  · rw [he]
    obtain ⟨fk', hfk', hpriv'⟩ := hR.key
    obtain ⟨fe', hfe', hdata'⟩ := hR.file
    rw [hfk] at hfk'; obtain rfl := Option.some.inj hfk'
    rw [hfe] at hfe'; obtain rfl := Option.some.inj hfe'
    rw [hpriv] at hpriv'; obtain rfl := Res.ok.inj hpriv'
    have hsplit : first = first' ∧ text = text' := firstLine_unique hno hR.noNL (by rw [← hdata, hdata'])
    obtain ⟨rfl, rfl⟩ := hsplit
    have hs := openSource (mode := (w.truncated mp 0o666).mode) hR.ne hpath ⟨fe, hfe⟩ hq fuel
    obtain ⟨hO1, hr1⟩ := hR.opening.toBox P (priv := priv)
    have hk : (Private.toBox P (priv, w')).1 = .ok edpriv := by rw [toBox_ok_iff, hR.tty]; exact hbox
    rcases htb : Private.toBox P (priv, w') with ⟨r1, k1, w1⟩
    rw [htb] at hO1 hr1 hk
    simp only at hO1 hr1 hk
    subst hk
    obtain ⟨⟨k2, w2⟩, h2, hS2⟩ := openBox_run hs P ps (d := []) (t := t) htb hn
      ⟨hO1, by simp only; rw [hr1, hR.rest hpath, htext], by
        simp only; rw [hr1, hR.rest hpath]; rw [hdata] at hfuel; simp at hfuel; omega⟩ hfr
    unfold openTail
    rw [h2]
    exact ⟨rfl, hS2.1.dest.fs⟩

end Verif
