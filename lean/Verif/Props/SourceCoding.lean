/-
C105: what the text of base64/coding.go says, run by the interpreter in Verif.Source.Semantics with the libraries of
Verif.Source.Lib, for all contents, in all memories, wherever the encoders, decoders and slices are, and for all behaviours of
the file underneath.
-/
import Verif.Source.CodingAny
import Verif.Props.Codec

namespace Verif.Src

open Spec

variable {ω : Type} (S : Sys ω)

/-- `NewEncoder(w io.Writer) io.WriteCloser`, coding.go:23-28: the encoder and its buffer are new, nothing else is different. -/
theorem C105_NewEncoder {s : St ω} {v0 v1 : Val} (G : Globals s v0 v1) (h : Nat) {n : Nat} (hn : 20 ≤ n) :
    ∃ l b s', (interp (repo S) n).call id!"base64" coding.NewEncoder [fileVal h] s = .ok [.ptr l] s' ∧
      EncAt s' l b h EncState.new ∧ EncOk EncState.new ∧ s.mem.length ≤ l.blk ∧ s.mem.length ≤ b.blk ∧ l.disjoint b = true ∧
      s'.mem.take s.mem.length = s.mem ∧ s'.world = s.world := by
  refine ⟨_, ⟨s.mem.length + 1, []⟩, _, newEncoder_in S G h hn, ⟨[0, 0, 0], rfl, by decide, ?_, ?_⟩, ⟨by decide, by decide, rfl⟩, by simp, by simp,
    Loc.disjoint_iff.2 (.inl (by simp)), by simp, rfl⟩
  · rw [Loc.get_eq]; simp [EncState.new, Val.get]
  · rw [Loc.get_eq]; simp [EncState.new, Val.get]

/-- `(w *Encoder) Write(p []byte) (int, error)`, coding.go:46-77: whatever the file does, the calls of its Write, the result and the
encoder afterwards are those of the model, and nothing else in memory is different. -/
theorem C105_Write {s : St ω} {v0 v1 : Val} (G : Globals s v0 v1) {l b a : Loc} {h : Nat} {e : EncState} (hl : 2 ≤ l.blk) (hb : 2 ≤ b.blk)
    (ha : 2 ≤ a.blk) (d : l.disjoint b = true) (d1 : l.disjoint a = true) (d2 : b.disjoint a = true) (E : EncAt s l b h e) (K : EncOk e)
    {ps : Bytes} (hp : a.get s.mem = some (.arr (byteVals ps))) {off len cap : Nat} (ho : off + len ≤ ps.length) (hw : len < 2 ^ 61)
    {n : Nat} (hn : 22 ≤ n) :
    Ends s.defers (encWrite (S.write h) ((ps.drop off).take len) (e, s.world)) (·.2)
      (fun k t r => EncOk t.1 ∧ ∃ s', EncMoved s l b h t.1 t.2 s' ∧ r = .ok [.int .int k, .nil] s')
      (fun g t r => ∃ (k : Int) (s' : St ω), EncMoved s l b h t.1 t.2 s' ∧ r = .ok [.int .int k, libErr g] s')
      ((interp (repo S) n).call id!"base64" coding.Encoder.Write [.ptr l, .slice a off len cap] s) :=
  write_in S G hl hb ha d d1 d2 E K hp ho hw hn

/-- `(w *Encoder) Close() error`, coding.go:30-44. -/
theorem C105_Close {s : St ω} {v0 v1 : Val} (G : Globals s v0 v1) {l b : Loc} {h : Nat} {e : EncState} (hl : 2 ≤ l.blk) (hb : 2 ≤ b.blk)
    (d : l.disjoint b = true) (E : EncAt s l b h e) {n : Nat} (hn : 20 ≤ n) :
    Ends s.defers (encClose (S.write h) (e, s.world)) (·.2)
      (fun _ t r => ∃ s', EncMoved s l b h t.1 t.2 s' ∧ r = .ok [.nil] s')
      (fun g t r => ∃ s', EncMoved s l b h t.1 t.2 s' ∧ r = .ok [libErr g] s')
      ((interp (repo S) n).call id!"base64" coding.Encoder.Close [.ptr l] s) :=
  close_in S G hl hb d E hn

/-- `NewDecoder(r io.Reader) io.ReadCloser`, coding.go:85-89. -/
theorem C105_NewDecoder {s : St ω} {v0 v1 : Val} (G : Globals s v0 v1) (h : Nat) {n : Nat} (hn : 20 ≤ n) :
    ∃ l s', (interp (repo S) n).call id!"base64" coding.NewDecoder [fileVal h] s = .ok [.ptr l] s' ∧
      l.get s'.mem = some (decoderVal h) ∧ s.mem.length ≤ l.blk ∧ s'.mem.take s.mem.length = s.mem ∧ s'.world = s.world := by
  refine ⟨_, _, newDecoder_in S G h hn, ?_, by simp, by simp, rfl⟩
  rw [Loc.get_eq]; simp [Val.get]

/-- `(r *Decoder) Read(p []byte) (int, error)`, coding.go:95-123, for a file whose Read returns at most the byte asked for: the
calls of its Read and the result are those of the model, the decoded bytes are at the start of `p`, and nothing else in memory is
different. The number `f` bounds the calls of Read, beyond which the model says nothing. -/
theorem C105_Read {s : St ω} {v0 v1 : Val} (G : Globals s v0 v1) {l a : Loc} {h : Nat} (hl : 2 ≤ l.blk) (ha : 2 ≤ a.blk)
    (d : l.disjoint a = true) (E : l.get s.mem = some (decoderVal h)) {ps : Bytes} (hp : a.get s.mem = some (.arr (byteVals ps)))
    {off len cap : Nat} (hw : len < 2 ^ 61) (contract : ∀ w got w', S.read h 1 w = (.ok got, w') → got.length ≤ 1) {f n : Nat} (hn : f + 22 ≤ n) :
    Ends s.defers (decRead f (S.read h) len s.world) id
      (fun out w r => ∃ m, a.set s.mem (.arr (byteVals (ps.take off ++ out ++ ps.drop (off + out.length)))) = some m ∧
        r = .ok [.int .int out.length, .nil] ⟨m, s.base, s.defers, w⟩)
      (fun g w r => r = .ok [.int .int 0, libErr g] ⟨s.mem, s.base, s.defers, w⟩)
      ((interp (repo S) n).call id!"base64" coding.Decoder.Read [.ptr l, .slice a off len cap] s) :=
  read_in S G hl ha d E hp hw contract hn

/-- `(r *Decoder) Close() error`, coding.go:91-93. -/
theorem C105_DecoderClose {s : St ω} {v0 v1 : Val} (G : Globals s v0 v1) {l : Loc} {h : Nat} (hl : 2 ≤ l.blk)
    (E : l.get s.mem = some (decoderVal h)) {n : Nat} (hn : 20 ≤ n) :
    (interp (repo S) n).call id!"base64" coding.Decoder.Close [.ptr l] s = .ok [.nil] s :=
  decClose_in S G hl E hn

/-! ### A session -/

/-- A slice of bytes: a part of the array `ps`. -/
structure Piece where
  loc : Loc
  off : Nat
  len : Nat
  cap : Nat
  ps : Bytes

def Piece.val (p : Piece) : Val := .slice p.loc p.off p.len p.cap

def Piece.bytes (p : Piece) : Bytes := (p.ps.drop p.off).take p.len

/-- The array is in memory. -/
structure Piece.In (p : Piece) (s : St ω) : Prop where
  own : 2 ≤ p.loc.blk
  get : p.loc.get s.mem = some (.arr (byteVals p.ps))
  fits : p.off + p.len ≤ p.ps.length
  small : p.len < 2 ^ 61

/-- Calls of Write, one after the other. -/
noncomputable def writeCalls (l : Loc) : List Piece → M ω Unit
  | [] => return ()
  | p :: ps => do
    let _ ← (interp (repo S) 22).call id!"base64" coding.Encoder.Write [.ptr l, p.val]
    writeCalls l ps

/-- `w := NewEncoder(f); w.Write(p₁); …; w.Write(pₖ); w.Close()`. -/
noncomputable def encodeCalls (h : Nat) (ps : List Piece) : M ω Unit := do
  match ← (interp (repo S) 22).call id!"base64" coding.NewEncoder [fileVal h] with
  | [.ptr l] => do
    writeCalls S l ps
    let _ ← (interp (repo S) 22).call id!"base64" coding.Encoder.Close [.ptr l]
    return ()
  | _ => M.stuck

theorem Globals.moved {s s' : St ω} {v0 v1 : Val} (G : Globals s v0 v1) {l b : Loc} {h : Nat} {e : EncState} {w : ω} (hl : 2 ≤ l.blk) (hb : 2 ≤ b.blk)
    (m : EncMoved s l b h e w s') : Globals s' v0 v1 := by
  have g : ∀ i, i < 2 → s'.mem[i]? = s.mem[i]? := by
    intro i hi
    have := m.other (q := ⟨i, []⟩) (Loc.disjoint_iff.2 (.inl (by simp only; omega))) (Loc.disjoint_iff.2 (.inl (by simp only; omega)))
    rw [Loc.get_eq, Loc.get_eq] at this
    simpa [Val.get] using this
  exact ⟨(g 0 (by decide)).trans G.first, (g 1 (by decide)).trans G.second, G.plain0, G.plain1⟩

theorem writeCalls_ok {h : Nat} (nf : NeverFails (S.write h)) {v0 v1 : Val} {l b : Loc} (hl : 2 ≤ l.blk) (hb : 2 ≤ b.blk) (d : l.disjoint b = true)
    (ps : List Piece) (data : Bytes) (s : St ω) (G : Globals s v0 v1) (E : EncAt s l b h (stateOf data)) (K : EncOk (stateOf data))
    (hp : ∀ p ∈ ps, p.In s ∧ l.disjoint p.loc = true ∧ b.disjoint p.loc = true) :
    ∃ s', writeCalls S l ps s = .ok () s' ∧ Globals s' v0 v1 ∧ EncAt s' l b h (stateOf (data ++ (ps.map Piece.bytes).flatten)) ∧
      Verif.writeAll (S.write h) (ps.map Piece.bytes) (stateOf data, s.world) =
        (.ok (), (stateOf (data ++ (ps.map Piece.bytes).flatten), s'.world)) := by
  induction ps generalizing data s with
  | nil => exact ⟨s, rfl, G, by simpa using E, by simp [Verif.writeAll]⟩
  | cons p ps ih =>
    obtain ⟨I, d1, d2⟩ := hp p (.head _)
    have c := C105_Write S G hl hb I.own d d1 d2 E K I.get (cap := p.cap) I.fits I.small (Nat.le_refl 22)
    obtain ⟨w1, h1⟩ := encWriteLoop_total nf p.bytes data 0 s.world
    change encWrite (S.write h) ((p.ps.drop p.off).take p.len) (stateOf data, s.world) = _ at h1
    rw [h1] at c
    obtain ⟨K', s1, m1, e1⟩ := c
    obtain ⟨E1, ew⟩ := m1.at d
    obtain ⟨s2, e2, G2, E2, h2⟩ := ih (data ++ p.bytes) s1 (G.moved hl hb m1) E1 K' (fun q hq => by
      obtain ⟨I', d1', d2'⟩ := hp q (.tail _ hq)
      exact ⟨⟨I'.own, (m1.other d1' d2').trans I'.get, I'.fits, I'.small⟩, d1', d2'⟩)
    refine ⟨s2, ?_, G2, by simpa using E2, ?_⟩
    · show M.bind _ _ s = _
      unfold M.bind
      rw [show p.val = .slice p.loc p.off p.len p.cap from rfl, e1]
      exact e2
    · rw [List.map_cons, Verif.writeAll]
      refine (Act.bind_ok (show encWrite (S.write h) p.bytes (stateOf data, s.world) = _ from h1)).trans ?_
      rw [show w1 = s1.world from ew.symm, h2]
      simp

/-- The text of the whole package at work: what the file receives from an encoder is the base64 of all that was written, in lines of
72 characters, wherever the slices are and however the data is split. -/
theorem C105_encoder_session {h : Nat} {recv : ω → Bytes} (hf : Faithful (S.write h) recv) (nf : NeverFails (S.write h)) {s : St ω} {v0 v1 : Val}
    (G : Globals s v0 v1) (ps : List Piece) (hp : ∀ p ∈ ps, p.In s) :
    ∃ s', encodeCalls S h ps s = .ok () s' ∧ recv s'.world = recv s.world ++ encodedText (ps.map Piece.bytes).flatten := by
  obtain ⟨l, b, s1, e1, E1, K1, hl, hb, d, t1, w1⟩ := C105_NewEncoder S G h (n := 22) (by decide)
  have len : 2 ≤ s.mem.length := by
    have := G.second
    rw [List.getElem?_eq_some_iff] at this
    exact this.1
  have old : ∀ i, i < s.mem.length → s1.mem[i]? = s.mem[i]? := fun i hi => by
    rw [← t1, List.getElem?_take_of_lt hi]
  have G1 : Globals s1 v0 v1 := ⟨(old 0 (by omega)).trans G.first, (old 1 (by omega)).trans G.second, G.plain0, G.plain1⟩
  rw [← stateOf_nil] at E1 K1
  obtain ⟨s2, e2, G2, E2, h2⟩ := writeCalls_ok S nf (by omega) (by omega) d ps [] s1 G1 E1 K1 (fun p hpp => by
    have I := hp p hpp
    obtain ⟨u, hu, _⟩ := Loc.get_some I.get
    have lt : p.loc.blk < s.mem.length := by
      rw [List.getElem?_eq_some_iff] at hu
      exact hu.1
    refine ⟨⟨I.own, ?_, I.fits, I.small⟩, Loc.disjoint_iff.2 (.inl (by omega)), Loc.disjoint_iff.2 (.inl (by omega))⟩
    rw [Loc.get_eq, old _ lt, ← Loc.get_eq]
    exact I.get)
  have c := C105_Close S G2 (by omega) (by omega) d E2 (n := 22) (by decide)
  have tot := encClose_total nf (stateOf ([] ++ (ps.map Piece.bytes).flatten)) s2.world
  have spec := Props.C01_encoder_output hf nf (ps.map Piece.bytes) s.world
  unfold encodeSession at spec
  rw [← stateOf_nil, ← w1, Act.bind_ok h2] at spec
  generalize encClose (S.write h) (stateOf ([] ++ (ps.map Piece.bytes).flatten), s2.world) = o at c tot spec
  obtain ⟨o1, t⟩ := o
  simp only at tot
  subst tot
  obtain ⟨s3, m3, e3⟩ := c
  refine ⟨s3, ?_, ?_⟩
  · show M.bind _ _ s = _
    unfold M.bind
    rw [e1]
    show M.bind _ _ s1 = _
    unfold M.bind
    rw [e2]
    show M.bind _ _ s2 = _
    unfold M.bind
    rw [e3]
    rfl
  · rw [(m3.at d).2]
    exact spec.2.trans (by rw [w1])

/-! ### The assumptions can be met -/

/-- A system in which every file is one and the same string: writing appends to it, reading takes from its start. -/
def tape (P : Prims) : Sys Bytes where
  prims := P
  readFile _ := fun w => (.ok w, w)
  writeFile _ bs _ := fun _ => (.ok (), bs)
  openFile _ := pure 0
  create _ := pure 0
  size _ := fun w => (.ok w.length, w)
  read _ := stringReader
  write _ := recorder
  entropy n := pure (Vector.replicate n 7)
  readPassword := pure []
  print _ := pure ()

/-- A state with an encoder in the middle of a line, a decoder, and data in a part of a larger value. -/
noncomputable def codingState : St Bytes :=
  ⟨[promptFunc, defaultOpts, encVal 51 (fileVal 0) ⟨3, []⟩ 2, bufVal [104, 105] [0], .arr [.nil, .arr (byteVals b!"hello")], decoderVal 0], 0, [],
    b!"aGVsbG8=\n"⟩

example (P : Prims) : Globals codingState promptFunc defaultOpts ∧ EncAt codingState ⟨2, []⟩ ⟨3, []⟩ 0 ⟨51, [104, 105]⟩ ∧ EncOk ⟨51, [104, 105]⟩ ∧
    (⟨4, [.idx 1]⟩ : Loc).get codingState.mem = some (.arr (byteVals b!"hello")) ∧ (⟨2, []⟩ : Loc).disjoint ⟨4, [.idx 1]⟩ = true ∧
    (⟨5, []⟩ : Loc).get codingState.mem = some (decoderVal 0) ∧ (⟨⟨4, [.idx 1]⟩, 1, 3, 4, b!"hello"⟩ : Piece).In codingState ∧
    (∀ w got w', (tape P).read 0 1 w = (.ok got, w') → got.length ≤ 1) ∧ Faithful ((tape P).write 0) id ∧ NeverFails ((tape P).write 0) := by
  refine ⟨⟨rfl, rfl, rfl, rfl⟩, ⟨[0], rfl, by decide, rfl, rfl⟩, ⟨by decide, by decide, rfl⟩, rfl, rfl, rfl, ⟨by decide, rfl, by decide, by decide⟩, ?_,
    recorder_faithful, recorder_neverFails⟩
  intro w got w' e
  change stringReader 1 w = _ at e
  unfold stringReader at e
  split at e
  · cases e
  · cases e; simp

/-- The third byte of the group fills the line: the encoder writes the group and a newline. -/
example : encWrite recorder b!"ell" (⟨51, [104, 105]⟩, b!"") = (.ok 3, (⟨0, b!"ll"⟩, b!"aGll\n")) := by decide +kernel

/-- What the decoder collects from the string. -/
example : decReadLoop stringReader 8 20 0 [] b!"aGVs\nbG8=\n" = (.ok b!"aGVsbG8=", b!"\n") := by decide +kernel

end Verif.Src
