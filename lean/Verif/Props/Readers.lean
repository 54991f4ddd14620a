/-
Property C96: the decoder of base64/coding.go over every reader that keeps the contract of io.Reader.
-/
import Verif.Spec.Reader
import Verif.Props.Codec

namespace Verif.Props
open Spec B64

variable {σ : Type} {rd : GoReader σ} {left : σ → Bytes}

/-- base64/coding.go:106-112: what `Decoder.Read` takes from a call of the underlying reader. The count is discarded: with a
non-nil error the byte is not looked at, with a nil error the byte in the buffer is used even if nothing was put there (the
empty list, which makes `decReadLoop` use the old byte). -/
def seen (rd : GoReader σ) : Reader σ := fun n s =>
  match rd n s with
  | ((d, none), s') => (.ok d, s')
  | ((_, some e), s') => (.err e, s')

/-- C96 (false): the decoder loses a byte that comes together with io.EOF. The text is the base64 of "ABC". -/
theorem C96_eof_negation :
    ¬ (∀ (rd : GoReader Bytes) (left : Bytes → Bytes), ReadsText rd left → NeverIdle rd → ∀ (data s : Bytes) (n fuel : Nat),
      3 ∣ n → stripNL (left s) = base64 data → (left s).length < fuel →
      (decRead fuel (seen rd) n s).1 = .ok (data.take n)) := by
  intro h
  have := h togetherReader id togetherReader_reads togetherReader_neverIdle b!"ABC" b!"QUJD" 3 10 (by decide) (by decide +kernel)
    (by decide)
  revert this
  decide +kernel

/-- C96 (false): over a reader that sometimes returns `(0, nil)` the decoder gives wrong data with a nil error. -/
theorem C96_idle_negation :
    ReadsText idleReader (·.2) ∧ base64 b!"ABC" = b!"QUJD" ∧
    (decRead 10 (seen idleReader) 3 (false, b!"QUJD")).1 = .ok [0x41, 0x05, 0x14] ∧ b!"ABC" ≠ [0x41, 0x05, 0x14] := by
  refine ⟨idleReader_reads, by decide +kernel, by decide +kernel, by decide⟩

/-- The next call, as the code sees it. -/
theorem seen_next (h : ReadsText rd left) (hi : NeverIdle rd) (s : σ) :
    (left s = [] ∧ ∃ s', seen rd 1 s = (.err .eof, s') ∧ left s' = []) ∨
    (∃ c t, left s = c :: t ∧ ∃ s', seen rd 1 s = (.ok [c], s') ∧ left s' = t) ∨
    (∃ c, left s = [c] ∧ ∃ s', seen rd 1 s = (.err .eof, s') ∧ left s' = [] ∧ (rd 1 s).1 = ([c], some .eof)) := by
  have h1 := h.fits 1 s
  have h2 := h.next 1 s
  have h3 := h.nothingElse 1 s
  have h4 := h.last 1 s
  have h5 := hi s
  rcases hr : rd 1 s with ⟨⟨d, e⟩, s'⟩
  simp only [hr] at h1 h2 h3 h4 h5
  cases e with
  | none =>
    match d, h1 with
    | [], _ => simp at h5
    | [c], _ => exact .inr (.inl ⟨c, left s', h2, s', by simp [seen, hr], rfl⟩)
  | some e =>
    obtain rfl := h3 e rfl
    have h4 := h4 rfl
    match d, h1 with
    | [], _ => exact .inl ⟨by rw [h2, h4]; rfl, s', by simp [seen, hr], h4⟩
    | [c], _ => exact .inr (.inr ⟨c, by rw [h2, h4]; rfl, s', by simp [seen, hr], h4, rfl⟩)

/-- A reader that is never idle and reports io.EOF by itself delivers its text byte by byte. -/
theorem seen_delivers (h : ReadsText rd left) (hi : NeverIdle rd) (ha : EofApart rd) : Delivers (seen rd) left where
  eof := by
    intro s hs
    rcases seen_next h hi s with ⟨_, h⟩ | ⟨c, t, h, _⟩ | ⟨c, h, _⟩
    · exact h
    · rw [hs] at h; cases h
    · rw [hs] at h; cases h
  byte := by
    intro s c t hs
    rcases seen_next h hi s with ⟨h, _⟩ | ⟨c', t', h, s', a, b⟩ | ⟨c', h, s', _, _, a⟩
    · rw [hs] at h; cases h
    · rw [hs] at h; cases h; exact ⟨s', a, b⟩
    · have := ha s .eof (by rw [a]); rw [a] at this; cases this

/-- C96, the part that holds: over every reader that is never idle and reports io.EOF by itself, every sequence of reads with
sizes divisible by three gives exactly the data. Missing: readers that return `(0, nil)` and readers that return data together
with io.EOF, for which the claim is false (`C96_idle_negation`, `C96_eof_negation`). -/
theorem C96_apart_partial (h : ReadsText rd left) (hi : NeverIdle rd) (ha : EofApart rd) (data : Bytes) (ns : List Nat)
    (h3 : ∀ n ∈ ns, 3 ∣ n) (s : σ) (htext : stripNL (left s) = base64 data) (fuel : Nat) (hfuel : (left s).length < fuel) :
    ∃ s', readAll fuel (seen rd) ns s = (.ok (cut ns data), s') :=
  C03_decode_text (seen_delivers h hi ha) data ns h3 s htext fuel hfuel

example : ReadsText apartReader id ∧ NeverIdle apartReader ∧ EofApart apartReader ∧
    (readAll 20 (seen apartReader) [3, 3] b!"QUJD\nREU=").1 = .ok [b!"ABC", b!"DE"] :=
  ⟨apartReader_reads, apartReader_neverIdle, apartReader_eofApart, by decide +kernel⟩

theorem endsWithNewline_tail {c : UInt8} {t : Bytes} (h : EndsWithNewline (c :: t)) : EndsWithNewline t := by
  rcases h with h | ⟨u, h⟩
  · cases h
  · cases u with
    | nil => cases h; exact .inl rfl
    | cons a u => cases h; exact .inr ⟨u, rfl⟩

theorem endsWithNewline_single {c : UInt8} (h : EndsWithNewline [c]) : c = 10 := by
  rcases h with h | ⟨u, h⟩
  · cases h
  · cases u with
    | nil => cases h; rfl
    | cons a u => cases u <;> cases h

/-- The loop over a reader that is never idle, when the text ends with a newline. -/
theorem seenLoop_spec (h : ReadsText rd left) (hi : NeverIdle rd) (enclen fuel : Nat) (c : UInt8) (buf : Bytes) (s : σ)
    (hfuel : (left s).length < fuel) (hbuf : buf.length ≤ enclen) (hnl : EndsWithNewline (left s)) :
    ∃ s', decReadLoop (seen rd) enclen fuel c buf s =
        (.ok (buf ++ (stripNL (left s)).take (enclen - buf.length)), s') ∧
      stripNL (left s') = (stripNL (left s)).drop (enclen - buf.length) ∧ (left s').length ≤ (left s).length ∧
      EndsWithNewline (left s') := by
  induction fuel generalizing c buf s with
  | zero => omega
  | succ fuel ih =>
    unfold decReadLoop
    by_cases he : buf.length = enclen
    · refine ⟨s, ?_, ?_, Nat.le_refl _, hnl⟩
      · simp [he]
      · simp [he]
    · rw [if_neg he]
      rcases seen_next h hi s with ⟨hl, s', h1, h2⟩ | ⟨x, t, hl, s', h1, h2⟩ | ⟨x, hl, s', h1, h2, _⟩
      · exact ⟨s', by rw [h1, hl]; simp [stripNL], by simp [h2, hl, stripNL], by simp [h2], .inl h2⟩
      · rw [hl] at hfuel hnl ⊢
        simp only [List.length_cons] at hfuel
        have hnl' : EndsWithNewline (left s') := by rw [h2]; exact endsWithNewline_tail hnl
        rw [h1]
        show ∃ s'', (if ([x] : Bytes).headD c = 10 then _ else _) = _ ∧ _
        rw [show ([x] : Bytes).headD c = x from rfl]
        by_cases hx : x = 10
        · rw [if_pos hx, hx, stripNL_cons_nl]
          obtain ⟨s'', a1, a2, a3, a4⟩ := ih 10 buf s' (by rw [h2]; omega) hbuf hnl'
          rw [h2] at a1 a2 a3
          exact ⟨s'', a1, a2, by simp; omega, a4⟩
        · rw [if_neg hx, stripNL_cons hx]
          obtain ⟨s'', a1, a2, a3, a4⟩ := ih x (buf ++ [x]) s' (by rw [h2]; omega) (by simp; omega) hnl'
          rw [h2] at a1 a2 a3
          have : enclen - buf.length = (enclen - (buf ++ [x]).length) + 1 := by simp; omega
          refine ⟨s'', ?_, ?_, by simp; omega, a4⟩
          · rw [a1, this]; simp
          · rw [a2, this]; simp
      · rw [hl] at hnl
        obtain rfl := endsWithNewline_single hnl
        exact ⟨s', by rw [h1, hl]; simp [stripNL], by simp [h2, hl, stripNL], by simp [h2], .inl h2⟩

/-- C96, the part that holds for texts that end with a newline, as everything that Encoder writes does: io.EOF may come
together with the last bytes. -/
theorem C96_newline_partial (h : ReadsText rd left) (hi : NeverIdle rd) (data : Bytes) (ns : List Nat)
    (h3 : ∀ n ∈ ns, 3 ∣ n) (s : σ) (htext : stripNL (left s) = base64 data) (hnl : EndsWithNewline (left s))
    (fuel : Nat) (hfuel : (left s).length < fuel) :
    ∃ s', readAll fuel (seen rd) ns s = (.ok (cut ns data), s') := by
  induction ns generalizing data s with
  | nil => exact ⟨s, rfl⟩
  | cons n ns ih =>
    obtain ⟨s1, a1, a2, a3, a4⟩ := seenLoop_spec h hi (encodedLen n) fuel 0 [] s hfuel (by simp) hnl
    have h3n : 3 ∣ n := h3 n (by simp)
    simp only [List.nil_append, List.length_nil, Nat.sub_zero, htext, ← encode_eq_base64] at a1 a2
    rw [(encode_take data n h3n).1] at a1
    rw [(encode_take data n h3n).2, encode_eq_base64] at a2
    have r1 : decRead fuel (seen rd) n s = (.ok (data.take n), s1) := by
      simp only [decRead]
      rw [Act.bind_ok a1, decode_encode _ _ (by simp; omega)]
      rfl
    obtain ⟨s2, b1⟩ := ih (data.drop n) (fun m hm => h3 m (List.mem_cons_of_mem _ hm)) s1 a2 a4 (by omega)
    refine ⟨s2, ?_⟩
    simp only [readAll]
    rw [Act.bind_ok r1, Act.bind_ok b1]
    rfl

/-- C96: what Encoder wrote is decoded exactly over every reader that is never idle. -/
theorem C96_encoded_partial (h : ReadsText rd left) (hi : NeverIdle rd) (data : Bytes) (ns : List Nat)
    (h3 : ∀ n ∈ ns, 3 ∣ n) (s : σ) (htext : left s = encodedText data) (fuel : Nat) (hfuel : (left s).length < fuel) :
    ∃ s', readAll fuel (seen rd) ns s = (.ok (cut ns data), s') := by
  refine C96_newline_partial h hi data ns h3 s (by rw [htext, C02_strip]) ?_ fuel hfuel
  obtain ⟨lines, last, h1, _⟩ := C02_lines recorder_faithful recorder_neverFails [data] ([] : Bytes)
  rw [(C01_encoder_output recorder_faithful recorder_neverFails [data] ([] : Bytes)).2] at h1
  simp only [List.flatten_cons, List.flatten_nil, List.append_nil, id, List.nil_append] at h1
  exact .inr ⟨_, by rw [htext, h1]⟩

example : ReadsText togetherReader id ∧ NeverIdle togetherReader ∧ encodedText b!"ABCDE" = b!"QUJDREU=\n" ∧
    (readAll 20 (seen togetherReader) [3, 3] b!"QUJDREU=\n").1 = .ok [b!"ABC", b!"DE"] :=
  ⟨togetherReader_reads, togetherReader_neverIdle, by rw [encodedText_eq]; decide +kernel, by decide +kernel⟩

end Verif.Props
