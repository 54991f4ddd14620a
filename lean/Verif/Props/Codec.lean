/-
Properties C01-C07: the line-breaking base64 stream codec (base64/coding.go).
-/
import Verif.Lemmas.Decoder

namespace Verif.Props
open Spec

variable {σ : Type}

/-! ### C01 -/

/-- C01: for every writer that never fails, writing any list of buffers and closing gives the writer exactly the specified
text of the concatenated buffers. -/
theorem C01_encoder_output {under : Writer σ} {recv : σ → Bytes} (hf : Faithful under recv) (hn : NeverFails under)
    (ps : List Bytes) (s : σ) :
    (encodeSession under ps (EncState.new, s)).1 = .ok () ∧
    recv (encodeSession under ps (EncState.new, s)).2.2 = recv s ++ encodedText ps.flatten := by
  have h1 := encodeSession_total hn ps s
  obtain ⟨e, h2, h3⟩ := (encodeSession_spec hf ps s).full h1
  exact ⟨h1, by rw [h2, ← h3]; simp⟩

/-- C01: the split of the input into Write calls has no effect on the output. -/
theorem C01_split_irrelevant {under : Writer σ} {recv : σ → Bytes} (hf : Faithful under recv) (hn : NeverFails under)
    (ps qs : List Bytes) (h : ps.flatten = qs.flatten) (s : σ) :
    recv (encodeSession under ps (EncState.new, s)).2.2 = recv (encodeSession under qs (EncState.new, s)).2.2 := by
  rw [(C01_encoder_output hf hn ps s).2, (C01_encoder_output hf hn qs s).2, h]

example : Faithful recorder id ∧ NeverFails recorder ∧
    encodeSession recorder [b!"he", b!"", b!"llo"] (EncState.new, []) = (.ok (), (EncState.new, b!"aGVsbG8=\n")) :=
  ⟨recorder_faithful, recorder_neverFails, by decide +kernel⟩

/-! ### C02 -/

/-- C02: the output consists of lines of exactly 72 characters, a last line of at most 72 characters, every line ended by a
newline; without the newlines it is the base64 of the input. -/
theorem C02_lines {under : Writer σ} {recv : σ → Bytes} (hf : Faithful under recv) (hn : NeverFails under)
    (ps : List Bytes) (s : σ) :
    ∃ lines : List Bytes, ∃ last : Bytes,
      recv (encodeSession under ps (EncState.new, s)).2.2 =
        recv s ++ ((lines.map (· ++ [10])).flatten ++ last ++ [10]) ∧
      (∀ l ∈ lines, l.length = 72 ∧ 10 ∉ l) ∧ last.length ≤ 72 ∧ 10 ∉ last ∧
      lines.flatten ++ last = base64 ps.flatten := by
  rw [(C01_encoder_output hf hn ps s).2]
  generalize ps.flatten = d
  rw [encodedText_eq]
  simp only [emitted]
  obtain ⟨lines, last, h1, h2, h3, h4, h5⟩ := brk_lines (B64.encode (d.take (d.length / 3 * 3))) (encode_ne_nl _)
  have hm := mod4_of_brk h2 h5
  rw [encode_length, B64.encodedLen] at hm
  have hp := pending_lt d
  refine ⟨lines, last ++ B64.encode (stateOf d).pending, by rw [h1]; simp, h2, ?_, ?_, ?_⟩
  · rw [List.length_append, encode_length, B64.encodedLen]; omega
  · intro h
    rcases List.mem_append.mp h with h | h
    · exact h4 h
    · exact encode_ne_nl _ _ h rfl
  · rw [← List.append_assoc, h5, ← encode_eq_base64]
    rw [stateOf, ← encode_append _ _ (by simp; omega), List.take_append_drop]

/-- C02: removing the newlines from the output leaves the base64 of the input. -/
theorem C02_strip (d : Bytes) : stripNL (encodedText d) = base64 d := by
  obtain ⟨lines, last, h1, h2, h3, h4, h5⟩ :=
    C02_lines recorder_faithful recorder_neverFails [d] ([] : Bytes)
  rw [(C01_encoder_output recorder_faithful recorder_neverFails [d] ([] : Bytes)).2] at h1
  simp only [List.flatten_cons, List.flatten_nil, List.append_nil, id, List.nil_append] at h1 h5
  rw [h1, ← h5]
  clear h1 h5
  induction lines with
  | nil => simp only [List.map_nil, List.flatten_nil, List.nil_append, stripNL_append]
           rw [stripNL_eq_self (fun c hc h => h4 (h ▸ hc))]; simp [stripNL]
  | cons l ls ih =>
    have hl := (h2 l (by simp)).2
    have := ih (fun l' hl' => h2 l' (List.mem_cons_of_mem _ hl'))
    simp only [List.map_cons, List.flatten_cons, List.append_assoc] at this ⊢
    rw [stripNL_append, stripNL_append, stripNL_eq_self (fun c hc h => hl (h ▸ hc)), this]
    simp [stripNL]

/-- C02: the base64 text itself contains no newline. -/
theorem C02_no_newline_in_base64 (d : Bytes) : 10 ∉ base64 d := by
  rw [← encode_eq_base64]; exact fun h => encode_ne_nl _ _ h rfl

/-- Non-vacuity: 57 bytes give one full line and a second line. -/
example : encodedText (List.replicate 57 0) = List.replicate 72 65 ++ [10] ++ List.replicate 4 65 ++ [10] := by
  rw [encodedText_eq]
  unfold emitted stateOf
  rw [List.length_replicate]
  rw [brk_long (by rw [encode_length]; decide), brk_short (by rw [List.length_drop, encode_length]; decide)]
  decide +kernel

/-! ### C03 -/

/-- Successive Read calls with the given buffer sizes. -/
def readAll (fuel : Nat) (rd : Reader σ) : List Nat → Act σ (List Bytes)
  | [] => pure []
  | n :: ns => do
    let a ← decRead fuel rd n
    let as ← readAll fuel rd ns
    pure (a :: as)

/-- Cut `data` into pieces of the given sizes; a piece is shorter only when the data runs out. -/
def cut : List Nat → Bytes → List Bytes
  | [], _ => []
  | n :: ns, data => data.take n :: cut ns (data.drop n)

/-- C03: a source that delivers base64 text with newlines at any places is decoded exactly. -/
theorem C03_decode_text {rd : Reader σ} {left : σ → Bytes} (hd : Delivers rd left) (data : Bytes) (ns : List Nat)
    (h3 : ∀ n ∈ ns, 3 ∣ n) (s : σ) (htext : stripNL (left s) = base64 data) (fuel : Nat) (hfuel : (left s).length < fuel) :
    ∃ s', readAll fuel rd ns s = (.ok (cut ns data), s') := by
  induction ns generalizing data s with
  | nil => exact ⟨s, rfl⟩
  | cons n ns ih =>
    rw [← encode_eq_base64] at htext
    obtain ⟨s1, a1, a2, a3⟩ := decRead_spec hd fuel n (h3 n (by simp)) data s hfuel htext
    rw [encode_eq_base64] at a2
    obtain ⟨s2, b1⟩ := ih (data.drop n) (fun m hm => h3 m (List.mem_cons_of_mem _ hm)) s1 a2 (by omega)
    refine ⟨s2, ?_⟩
    simp only [readAll]
    rw [Act.bind_ok a1, Act.bind_ok b1]
    rfl

/-- C03: the decoder recovers what was written to an encoder, whatever the split on either side. -/
theorem C03_roundtrip {τ : Type} {under : Writer τ} {recv : τ → Bytes} (hf : Faithful under recv) (hn : NeverFails under)
    (ps : List Bytes) (t : τ) (ht : recv t = [])
    {rd : Reader σ} {left : σ → Bytes} (hd : Delivers rd left) (s : σ)
    (hsrc : left s = recv (encodeSession under ps (EncState.new, t)).2.2)
    (ns : List Nat) (h3 : ∀ n ∈ ns, 3 ∣ n) (fuel : Nat) (hfuel : (left s).length < fuel) :
    ∃ s', readAll fuel rd ns s = (.ok (cut ns ps.flatten), s') := by
  apply C03_decode_text hd _ _ h3 _ _ _ hfuel
  rw [hsrc, (C01_encoder_output hf hn ps t).2, ht, List.nil_append, C02_strip]

/-- The pieces are the data, cut at the buffer boundaries. -/
theorem C03_cut_flatten (ns : List Nat) (data : Bytes) : (cut ns data).flatten = data.take ns.sum := by
  induction ns generalizing data with
  | nil => simp [cut]
  | cons n ns ih => simp [cut, ih, List.take_add]

example : Delivers stringReader id ∧
    readAll 20 stringReader [3, 3, 3] b!"aG\nVsbG8\n=\n" = (.ok [b!"hel", b!"lo", []], []) :=
  ⟨stringReader_delivers, by decide +kernel⟩

/-! ### C04 -/

/-- C04, what is true: after any writes of `ps`, Write succeeds and returns three times the number of groups completed by
the call. (The statement that it returns `len(p)` is false, see `C04_count_negation`.) -/
theorem C04_count_partial {under : Writer σ} (hn : NeverFails under) (ps : List Bytes) (p : Bytes) (s : σ) :
    ∃ st s', writeAll under ps (EncState.new, s) = (.ok (), st) ∧
      encWrite under p st = (.ok (3 * ((ps.flatten.length + p.length) / 3 - ps.flatten.length / 3)), s') := by
  obtain ⟨s1, h1⟩ := writeAll_total hn ps [] s
  obtain ⟨s2, h2⟩ := encWriteLoop_total hn p ps.flatten 0 s1
  refine ⟨_, (stateOf (ps.flatten ++ p), s2), by simpa [stateOf_nil] using h1, ?_⟩
  simpa [encWrite] using h2

/-- C04: hence the count equals `len(p)` exactly when `len(p)` is a multiple of three. -/
theorem C04_count_eq_iff {under : Writer σ} (hn : NeverFails under) (ps : List Bytes) (p : Bytes) (s : σ) :
    (∃ st s', writeAll under ps (EncState.new, s) = (.ok (), st) ∧ encWrite under p st = (.ok p.length, s')) ↔
      3 ∣ p.length := by
  obtain ⟨st, s', h1, h2⟩ := C04_count_partial hn ps p s
  constructor
  · rintro ⟨st', s'', h3, h4⟩
    rw [h1] at h3
    simp only [Prod.mk.injEq, true_and] at h3
    rw [← h3, h2] at h4
    simp only [Prod.mk.injEq, Res.ok.injEq] at h4
    omega
  · intro h
    refine ⟨st, s', h1, ?_⟩
    rw [h2]
    congr 2
    omega

/-- C04 is false: there are calls that return less and calls that return more than `len(p)`. -/
theorem C04_count_negation :
    (∃ s', encWrite recorder b!"ab" (EncState.new, []) = (.ok 0, s')) ∧
    (∃ st s', writeAll recorder [b!"ab"] (EncState.new, []) = (.ok (), st) ∧ encWrite recorder b!"c" st = (.ok 3, s')) :=
  ⟨⟨_, rfl⟩, ⟨_, _, rfl, rfl⟩⟩

/-! ### C05 -/

/-- C05, for buffers whose size is a multiple of three: Read never panics (unless the source does) and never returns more
bytes than the buffer holds; for every source. (False for other sizes, see `C05_overrun_negation`.) -/
theorem C05_no_overrun_partial (rd : Reader σ) (hrd : ∀ s s', rd 1 s ≠ (.panic, s')) (n : Nat) (h3 : 3 ∣ n) (fuel : Nat)
    (s : σ) :
    (decRead fuel rd n s).1 ≠ .panic ∧ ∀ out, (decRead fuel rd n s).1 = .ok out → out.length ≤ n := by
  have hl := decReadLoop_length (rd := rd) (B64.encodedLen n) fuel 0 [] s (by simp)
  have hp := decReadLoop_ne_panic hrd (B64.encodedLen n) fuel 0 [] s
  simp only [decRead]
  rw [Act.bind_eq]
  rcases hb : decReadLoop rd (B64.encodedLen n) fuel 0 [] s with ⟨r, s'⟩
  rw [hb] at hl hp
  cases r with
  | ok buf =>
    have hlen := hl.1 buf s' rfl
    have hdec := decode_bound n buf (by rw [B64.encodedLen] at hlen; omega)
    simp only
    cases hd : B64.decode n buf with
    | ok out => simpa using hdec.2 out hd
    | corrupt => simp
    | panic => exact absurd hd hdec.1
  | panic => exact absurd rfl (hp s')
  | _ => simp

/-- C05 is false for every other size: some source makes Read panic. -/
theorem C05_overrun_negation (n : Nat) (h3 : ¬ 3 ∣ n) :
    ∃ text : Bytes, ∃ fuel s', decRead fuel stringReader n text = (.panic, s') := by
  let data : Bytes := List.replicate (n / 3 * 3) 0 ++ [0, 0, 0]
  have hlen : (B64.encode data).length = B64.encodedLen n := by
    rw [encode_length]; simp only [data, B64.encodedLen, List.length_append, List.length_replicate, List.length_cons,
      List.length_nil]; omega
  obtain ⟨s', h1, -, -⟩ := decReadLoop_spec stringReader_delivers (B64.encodedLen n) ((B64.encode data).length + 1) 0 []
    (B64.encode data) (by simp) (by simp)
  refine ⟨B64.encode data, (B64.encode data).length + 1, s', ?_⟩
  simp only [decRead]
  rw [Act.bind_ok h1]
  simp only [id, List.nil_append, List.length_nil, Nat.sub_zero]
  rw [stripNL_eq_self (encode_ne_nl _), List.take_of_length_le (by omega)]
  have key : ∀ (bs out : Bytes) (cap : Nat), 3 ∣ bs.length → out.length ≤ cap → cap < out.length + bs.length →
      B64.decodeLoop cap out (B64.encode bs) = .panic := by
    intro bs
    induction bs using B64.encode.induct with
    | case1 => intro out cap _ h1 h2; simp at h2; omega
    | case2 a => intro out cap h; simp at h
    | case3 a b => intro out cap h; simp at h
    | case4 a b c rest ih =>
      intro out cap h h1 h2
      rw [B64.decodeLoop]; simp only [B64.encode]
      split <;> rename_i hq <;> rw [quantum_group] at hq <;> simp only [reduceCtorEq, B64.Quantum.full.injEq] at hq
      obtain ⟨rfl, rfl⟩ := hq
      simp only [List.length_cons, List.length_nil] at h h2 ⊢
      split
      · exact ih _ _ (by omega) (by simp; omega) (by simp; omega)
      · rfl
  have : B64.decode n (B64.encode data) = .panic := by
    apply key
    · simp only [data, List.length_append, List.length_replicate, List.length_cons, List.length_nil]; omega
    · simp
    · simp only [data, List.length_append, List.length_replicate, List.length_cons, List.length_nil]; omega
  rw [this]
  rfl

/-- The sizes used in crypto/crypto.go are multiples of three. -/
example : 3 ∣ 72 ∧ 3 ∣ (16385 + 16) := by decide

example : ∀ s s', (stringReader 1 s : Res Bytes × Bytes) ≠ (.panic, s') := by
  intro s s'; simp only [stringReader]; split <;> simp

/-! ### C06 -/

/-- C06: when nothing but newlines is left, Read returns zero bytes and a nil error, for every buffer size. -/
theorem C06_exhausted {rd : Reader σ} {left : σ → Bytes} (hd : Delivers rd left) (n : Nat) (s : σ)
    (h : stripNL (left s) = []) (fuel : Nat) (hfuel : (left s).length < fuel) :
    ∃ s', decRead fuel rd n s = (.ok [], s') ∧ stripNL (left s') = [] := by
  obtain ⟨s', h1, h2, -⟩ := decReadLoop_spec hd (B64.encodedLen n) fuel 0 [] s hfuel (by simp)
  simp only [h, List.take_nil, List.drop_nil, List.append_nil] at h1 h2
  refine ⟨s', ?_, h2⟩
  simp only [decRead]
  rw [Act.bind_ok h1]
  have : B64.decode n [] = .ok [] := by rw [B64.decode, B64.decodeLoop]; simp [B64.quantum]
  rw [this]; rfl

/-- C06: Read never returns io.EOF, whatever the source does. -/
theorem C06_never_eof (rd : Reader σ) (n fuel : Nat) (s : σ) : (decRead fuel rd n s).1 ≠ .err .eof := by
  have hl := decReadLoop_length (rd := rd) (B64.encodedLen n) fuel 0 [] s (by simp)
  simp only [decRead]
  rw [Act.bind_eq]
  rcases hb : decReadLoop rd (B64.encodedLen n) fuel 0 [] s with ⟨r, s'⟩
  rw [hb] at hl
  cases r with
  | ok buf => simp only; cases B64.decode n buf <;> simp
  | err e => simp only; intro h; simp only [Res.err.injEq] at h; subst h; exact hl.2 s' rfl
  | _ => simp

example : decRead 5 stringReader 3 b!"\n\n" = (.ok [], []) := by decide +kernel

/-! ### C07 -/

/-- C07: for every writer, whatever it does: what it accepted is a prefix of the complete text, and it is the complete text
if no call failed. -/
theorem C07_prefix {under : Writer σ} {recv : σ → Bytes} (hf : Faithful under recv) (ps : List Bytes) (s : σ) :
    ∃ ext, recv (encodeSession under ps (EncState.new, s)).2.2 = recv s ++ ext ∧ ext <+: encodedText ps.flatten ∧
      ((encodeSession under ps (EncState.new, s)).1 = .ok () → ext = encodedText ps.flatten) := by
  obtain ⟨⟨e, h1, h2⟩, h3⟩ := encodeSession_spec hf ps s
  refine ⟨e, h1, by simpa using h2, fun h => ?_⟩
  obtain ⟨e', h4, h5⟩ := h3 h
  rw [h1] at h4
  rw [List.append_cancel_left h4]; simpa using h5

/-- A writer with room for `cap` bytes that fails beyond. -/
def bounded (cap : Nat) : Writer Bytes := fun bs s =>
  if s.length + bs.length ≤ cap then (.ok bs.length, s ++ bs) else (.err .io, s ++ bs.take (cap - s.length))

theorem bounded_faithful (cap : Nat) : Faithful (bounded cap) id where
  ok := by intro bs s n; simp only [bounded]; split <;> simp
  any := by
    intro bs s; simp only [bounded]; split
    · exact ⟨bs.length, by simp⟩
    · exact ⟨_, rfl⟩

example : encodeSession (bounded 6) [b!"hello"] (EncState.new, []) =
    (.err .io, ({ line := 3, pending := b!"lo" }, b!"aGVsbG")) := by decide +kernel

end Verif.Props
