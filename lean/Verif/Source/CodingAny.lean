/-
The functions of base64/coding.go run in any memory.
-/
import Verif.Source.Carry
import Verif.Source.CodingWrite
import Verif.Source.CodingRead

namespace Verif.Src

variable {ω : Type}

theorem encWriteLoop_pending {σ : Type} (under : Writer σ) (bs : Bytes) (k : Nat) (e : EncState) (t : σ) (h : e.pending.length < 3) :
    (encWriteLoop under k bs (e, t)).2.1.pending.length < 3 := by
  induction bs generalizing k e t with
  | nil => exact h
  | cons b bs ih =>
    rw [encWriteLoop]
    simp only [Act.bind_eq, Act.getFst_apply]
    split
    · simp only [Act.bind_eq, Act.setFst_apply, Act.onSnd_apply]
      rcases under (B64.encode (e.pending ++ [b])) t with ⟨x | x | _ | _ | _, t1⟩ <;> simp only [List.length_nil] <;> try decide
      split
      · simp only [Act.bind_eq, Act.setFst_apply, Act.onSnd_apply]
        rcases under [10] t1 with ⟨x | x | _ | _ | _, t2⟩ <;> simp only [List.length_nil] <;> try decide
        exact ih _ _ _ (by simp)
      · exact ih _ _ _ (by simp)
    · next hb =>
      simp only [Act.bind_eq, Act.setFst_apply]
      exact ih _ _ _ (by simp only [List.length_append, List.length_singleton] at hb ⊢; omega)

/-- At `l` is an encoder in the state `e` that writes to the open file `h`; its buffer is at `b`. -/
def EncAt (s : St ω) (l b : Loc) (h : Nat) (e : EncState) : Prop :=
  ∃ stale : Bytes, e.pending.length + stale.length = 3 ∧ e.pending.length < 3 ∧ l.get s.mem = some (encVal e.line (fileVal h) b e.pending.length) ∧
    b.get s.mem = some (bufVal e.pending stale)

/-- The encoder at `l` is now in the state `e`, the world is `w`, and nothing else is different. -/
def EncMoved (s : St ω) (l b : Loc) (h : Nat) (e : EncState) (w : ω) (s' : St ω) : Prop :=
  ∃ (stale : Bytes) (m : List Val), e.pending.length + stale.length = 3 ∧ e.pending.length < 3 ∧
    writeAll s.mem [(l, encVal e.line (fileVal h) b e.pending.length), (b, bufVal e.pending stale)] = some m ∧ s' = ⟨m, s.base, s.defers, w⟩

theorem EncMoved.at {s s' : St ω} {l b : Loc} {h : Nat} {e : EncState} {w : ω} (d : l.disjoint b = true) (m : EncMoved s l b h e w s') :
    EncAt s' l b h e ∧ s'.world = w := by
  obtain ⟨stale, m, h1, h2, h3, rfl⟩ := m
  obtain ⟨m1, c1, h3⟩ := writeAll_cons h3
  obtain ⟨m2, c2, h3⟩ := writeAll_cons h3
  cases h3
  exact ⟨⟨stale, h1, h2, (Loc.get_set_disjoint (by rw [Loc.disjoint_comm]; exact d) c2).trans (Loc.get_set c1), Loc.get_set c2⟩, rfl⟩

theorem EncMoved.other {s s' : St ω} {l b q : Loc} {h : Nat} {e : EncState} {w : ω} (d1 : l.disjoint q = true) (d2 : b.disjoint q = true)
    (m : EncMoved s l b h e w s') : q.get s'.mem = q.get s.mem := by
  obtain ⟨stale, m, h1, h2, h3, rfl⟩ := m
  exact writeAll_get_disjoint (by simp [d1, d2]) h3

theorem Emb.renVs_bytes (E : Emb) (bs : Bytes) : E.renV (.arr (byteVals bs)) = .arr (byteVals bs) :=
  Emb.renV_plain E _ (by simp only [Val.refers, byteVals_plain])

theorem writeAll_keep {m m' : List Val} {ws : List (Loc × Val)} {l : Loc} {v : Val} (h : writeAll m (ws ++ [(l, v)]) = some m')
    (g : l.get m = some v) (d : ∀ b ∈ ws, b.1.disjoint l = true) : writeAll m ws = some m' := by
  induction ws generalizing m with
  | nil =>
    obtain ⟨m1, c, h⟩ := writeAll_cons h
    rw [Loc.set_get g] at c
    cases c
    exact h
  | cons a ws ih =>
    obtain ⟨m1, c, h⟩ := writeAll_cons h
    have g' : l.get m1 = some v := (Loc.get_set_disjoint (d a (.head _)) c).trans g
    rw [writeAll, c]
    exact ih h g' fun b hb => d b (.tail _ hb)

section
variable (S : Sys ω)

/-- `(w *Encoder) Close() error`, coding.go:30-44. -/
theorem close_in {s : St ω} {v0 v1 : Val} (G : Globals s v0 v1) {l b : Loc} {h : Nat} {e : EncState} (hl : 2 ≤ l.blk) (hb : 2 ≤ b.blk)
    (d : l.disjoint b = true) (E : EncAt s l b h e) {n : Nat} (hn : 20 ≤ n) :
    Ends s.defers (encClose (S.write h) (e, s.world)) (·.2)
      (fun _ t r => ∃ s', EncMoved s l b h t.1 t.2 s' ∧ r = .ok [.nil] s')
      (fun g t r => ∃ s', EncMoved s l b h t.1 t.2 s' ∧ r = .ok [libErr g] s')
      ((interp (repo S) n).call id!"base64" coding.Encoder.Close [.ptr l] s) := by
  obtain ⟨stale, h1, h2, h3, h4⟩ := E
  have c := carry S hn (ρ := [l, b]) (us := [encVal e.line (fileVal h) ⟨3, []⟩ e.pending.length, bufVal e.pending stale]) G
    (by simp [hl, hb]) (by simp [d])
    (by
      simp only [getAll, h3, h4, Emb.renVs, bufVal, Emb.renVs_bytes]
      rw [encVal, encVal]
      simp only [Emb.renV, Emb.renFs]
      rw [ren_two 1 b rfl])
    (close_run S v0 v1 h e stale h1 h2 s.world)
  have ea : (beside s [l, b]).renVs [.ptr ⟨2, []⟩] = [.ptr l] := by simp only [Emb.renVs, Emb.renV]; rw [ren_two 0 l rfl]
  rw [ea] at c
  have fin : ∀ (t : EncState × ω) (rs : List Val) (stale' : Bytes) (r : R ω (List Val)), t.1.pending.length + stale'.length = 3 → t.1.pending.length < 3 →
      Carried s [l, b] v0 v1 (.ok rs ⟨encMem v0 v1 h t.1 stale', 4, [], t.2⟩) r → Val.anyRefers 0 rs = false → ∃ s', EncMoved s l b h t.1 t.2 s' ∧ r = .ok rs s' := by
    intro t rs stale' r k1 k2 k hr
    obtain ⟨m, k3, k4⟩ := k rs [encVal t.1.line (fileVal h) ⟨3, []⟩ t.1.pending.length, bufVal t.1.pending stale'] [] _ _ _ rfl rfl
    refine ⟨⟨m, s.base, s.defers, t.2⟩, ⟨stale', m, k1, k2, ?_, rfl⟩, ?_⟩
    · rw [← k3]
      simp only [Emb.renVs, bufVal, Emb.renVs_bytes, List.zip_cons_cons, List.zip_nil_right]
      rw [encVal, encVal]
      simp only [Emb.renV, Emb.renFs]
      rw [ren_two 1 b rfl]
    · rw [k4, Emb.renVs_plain _ _ hr]
      simp [Emb.renVs]
  refine c.mono (fun a t hr => ?_) (fun a t hr => ?_)
  · obtain ⟨r0, ⟨stale', k1, k2, rfl⟩, k⟩ := hr
    exact fin t _ stale' _ k1 k2 k rfl
  · obtain ⟨r0, ⟨stale', k1, k2, rfl⟩, k⟩ := hr
    exact fin t _ stale' _ k1 k2 k rfl

/-- `(w *Encoder) Write(p []byte) (int, error)`, coding.go:46-77, for the bytes `off` to `off + len` of the array `ps`. -/
theorem write_in {s : St ω} {v0 v1 : Val} (G : Globals s v0 v1) {l b a : Loc} {h : Nat} {e : EncState} (hl : 2 ≤ l.blk) (hb : 2 ≤ b.blk)
    (ha : 2 ≤ a.blk) (d : l.disjoint b = true) (d1 : l.disjoint a = true) (d2 : b.disjoint a = true) (E : EncAt s l b h e) (K : EncOk e)
    {ps : Bytes} (hp : a.get s.mem = some (.arr (byteVals ps))) {off len cap : Nat} (ho : off + len ≤ ps.length) (hw : len < 2 ^ 61)
    {n : Nat} (hn : 22 ≤ n) :
    Ends s.defers (encWrite (S.write h) ((ps.drop off).take len) (e, s.world)) (·.2)
      (fun k t r => EncOk t.1 ∧ ∃ s', EncMoved s l b h t.1 t.2 s' ∧ r = .ok [.int .int k, .nil] s')
      (fun g t r => ∃ (k : Int) (s' : St ω), EncMoved s l b h t.1 t.2 s' ∧ r = .ok [.int .int k, libErr g] s')
      ((interp (repo S) n).call id!"base64" coding.Encoder.Write [.ptr l, .slice a off len cap] s) := by
  obtain ⟨stale, h1, h2, h3, h4⟩ := E
  have pend := encWriteLoop_pending (S.write h) ((ps.drop off).take len) 0 e s.world h2
  have c := carry S hn (ρ := [l, b, a]) (us := [encVal e.line (fileVal h) ⟨3, []⟩ e.pending.length, bufVal e.pending stale, .arr (byteVals ps)]) G
    (by simp [hl, hb, ha]) (by simp [d, d1, d2])
    (by
      simp only [getAll, h3, h4, hp, Emb.renVs, bufVal, Emb.renVs_bytes]
      rw [encVal, encVal]
      simp only [Emb.renV, Emb.renFs]
      rw [ren_two 1 b rfl])
    (write_run S v0 v1 h G.plain0 G.plain1 e stale ps off len cap h1 K ho hw s.world)
  have ea : (beside s [l, b, a]).renVs [.ptr ⟨2, []⟩, .slice ⟨4, []⟩ off len cap] = [.ptr l, .slice a off len cap] := by
    simp only [Emb.renVs, Emb.renV]; rw [ren_two 0 l rfl, ren_two 2 a rfl]
  rw [ea] at c
  have fin : ∀ (t : EncState × ω) (rs : List Val) (stale' : Bytes) (r : R ω (List Val)), t.1.pending.length + stale'.length = 3 → t.1.pending.length < 3 →
      Carried s [l, b, a] v0 v1 (.ok rs ⟨encMem v0 v1 h t.1 stale' ++ [.arr (byteVals ps)], 5, [], t.2⟩) r → Val.anyRefers 0 rs = false →
      ∃ s', EncMoved s l b h t.1 t.2 s' ∧ r = .ok rs s' := by
    intro t rs stale' r k1 k2 k hr
    obtain ⟨m, k3, k4⟩ := k rs [encVal t.1.line (fileVal h) ⟨3, []⟩ t.1.pending.length, bufVal t.1.pending stale', .arr (byteVals ps)] [] _ _ _ rfl rfl
    refine ⟨⟨m, s.base, s.defers, t.2⟩, ⟨stale', m, k1, k2, ?_, rfl⟩, ?_⟩
    · refine writeAll_keep (l := a) (v := .arr (byteVals ps)) ?_ hp (by simp [d1, d2])
      rw [← k3]
      simp only [Emb.renVs, bufVal, Emb.renVs_bytes, List.zip_cons_cons, List.zip_nil_right, List.cons_append, List.nil_append]
      rw [encVal, encVal]
      simp only [Emb.renV, Emb.renFs]
      rw [ren_two 1 b rfl]
    · rw [k4, Emb.renVs_plain _ _ hr]
      simp [Emb.renVs]
  unfold encWrite at c ⊢
  generalize encWriteLoop (S.write h) 0 ((ps.drop off).take len) (e, s.world) = o at c pend
  rcases o with ⟨k | x | _ | _ | _, t⟩
  · obtain ⟨r0, ⟨stale', k1, k2, rfl⟩, k⟩ := c
    exact ⟨k2, fin t _ stale' _ k1 pend k rfl⟩
  · obtain ⟨r0, ⟨j, stale', k1, rfl⟩, k⟩ := c
    exact ⟨j, fin t _ stale' _ k1 pend k rfl⟩
  · exact c
  · exact c
  · exact c

/-- A decoder that reads from the open file `h`. -/
abbrev decoderVal (h : Nat) : Val := .struct id!"Decoder" [(id!"r", fileVal h)]

/-- `(r *Decoder) Read(p []byte) (int, error)`, coding.go:95-123, for the bytes `off` to `off + len` of the array `ps`. -/
theorem read_in {s : St ω} {v0 v1 : Val} (G : Globals s v0 v1) {l a : Loc} {h : Nat} (hl : 2 ≤ l.blk) (ha : 2 ≤ a.blk)
    (d : l.disjoint a = true) (E : l.get s.mem = some (decoderVal h)) {ps : Bytes} (hp : a.get s.mem = some (.arr (byteVals ps)))
    {off len cap : Nat} (hw : len < 2 ^ 61) (contract : ∀ w got w', S.read h 1 w = (.ok got, w') → got.length ≤ 1) {f n : Nat} (hn : f + 22 ≤ n) :
    Ends s.defers (decRead f (S.read h) len s.world) id
      (fun out w r => ∃ m, a.set s.mem (.arr (byteVals (ps.take off ++ out ++ ps.drop (off + out.length)))) = some m ∧
        r = .ok [.int .int out.length, .nil] ⟨m, s.base, s.defers, w⟩)
      (fun g w r => r = .ok [.int .int 0, libErr g] ⟨s.mem, s.base, s.defers, w⟩)
      ((interp (repo S) n).call id!"base64" coding.Decoder.Read [.ptr l, .slice a off len cap] s) := by
  have c := carry S hn (ρ := [l, a]) (us := [decoderVal h, .arr (byteVals ps)]) G
    (by simp [hl, ha]) (by simp [d])
    (by simp only [getAll, E, hp, Emb.renVs, Emb.renV, Emb.renFs, Emb.renVs_plain _ _ (byteVals_plain 0 _)])
    (read_run S v0 v1 h G.plain0 G.plain1 ps off len cap hw contract f s.world)
  have ea : (beside s [l, a]).renVs [.ptr ⟨2, []⟩, .slice ⟨3, []⟩ off len cap] = [.ptr l, .slice a off len cap] := by
    simp only [Emb.renVs, Emb.renV]; rw [ren_two 0 l rfl, ren_two 1 a rfl]
  rw [ea] at c
  have fin : ∀ (rs : List Val) (qs : Bytes) (w : ω) (r : R ω (List Val)),
      Carried s [l, a] v0 v1 (.ok rs ⟨decMem v0 v1 h (byteVals qs), 4, [], w⟩) r → Val.anyRefers 0 rs = false →
      ∃ m, a.set s.mem (.arr (byteVals qs)) = some m ∧ r = .ok rs ⟨m, s.base, s.defers, w⟩ := by
    intro rs qs w r k hr
    obtain ⟨m, k3, k4⟩ := k rs [decoderVal h, .arr (byteVals qs)] [] _ _ _ rfl rfl
    refine ⟨m, ?_, ?_⟩
    · simp only [Emb.renVs, Emb.renVs_plain _ _ (byteVals_plain 0 _), List.zip_cons_cons, List.zip_nil_right, Emb.renV, Emb.renFs] at k3
      rw [writeAll, Loc.set_get E] at k3
      obtain ⟨m1, c, k3⟩ := writeAll_cons k3
      cases k3
      exact c
    · rw [k4, Emb.renVs_plain _ _ hr]
      simp [Emb.renVs]
  refine c.mono (fun out w hr => ?_) (fun g w hr => ?_)
  · obtain ⟨r0, rfl, k⟩ := hr
    exact fin _ _ _ _ k rfl
  · obtain ⟨r0, rfl, k⟩ := hr
    obtain ⟨m, k1, k2⟩ := fin _ _ _ _ k rfl
    rw [Loc.set_get hp] at k1
    cases k1
    exact k2

/-- `NewEncoder(w io.Writer) io.WriteCloser`, coding.go:23-28: the encoder and its buffer are new. -/
theorem newEncoder_in {s : St ω} {v0 v1 : Val} (G : Globals s v0 v1) (h : Nat) {n : Nat} (hn : 20 ≤ n) :
    (interp (repo S) n).call id!"base64" coding.NewEncoder [fileVal h] s = .ok [.ptr ⟨s.mem.length + 2, []⟩]
      { s with mem := s.mem ++ [fileVal h, bufVal [] [0, 0, 0], encVal 0 (fileVal h) ⟨s.mem.length + 1, []⟩ 0] } := by
  have run : (interp (repo S) 20).call id!"base64" coding.NewEncoder [fileVal h] ⟨[v0, v1], 2, [], s.world⟩ =
    .ok [.ptr ⟨4, []⟩] ⟨[v0, v1, fileVal h, bufVal [] [0, 0, 0], encVal 0 (fileVal h) ⟨3, []⟩ 0], 2, [], s.world⟩ := by seval []
  have c := carry S hn (ρ := []) (us := []) (o := (.ok (), ())) (world := fun _ => s.world) (err := fun _ _ _ => False)
    (ok := fun _ _ r => r = .ok [.ptr ⟨4, []⟩] ⟨[v0, v1, fileVal h, bufVal [] [0, 0, 0], encVal 0 (fileVal h) ⟨3, []⟩ 0], 2, [], s.world⟩)
    G (by simp) (by simp) rfl run
  obtain ⟨r0, rfl, k⟩ := c
  obtain ⟨m, k1, k2⟩ := k _ [] [fileVal h, bufVal [] [0, 0, 0], encVal 0 (fileVal h) ⟨3, []⟩ 0] _ _ _ rfl rfl
  cases k1
  exact k2

/-- `NewDecoder(r io.Reader) io.ReadCloser`, coding.go:85-89. -/
theorem newDecoder_in {s : St ω} {v0 v1 : Val} (G : Globals s v0 v1) (h : Nat) {n : Nat} (hn : 20 ≤ n) :
    (interp (repo S) n).call id!"base64" coding.NewDecoder [fileVal h] s = .ok [.ptr ⟨s.mem.length + 1, []⟩]
      { s with mem := s.mem ++ [fileVal h, decoderVal h] } := by
  have run : (interp (repo S) 20).call id!"base64" coding.NewDecoder [fileVal h] ⟨[v0, v1], 2, [], s.world⟩ =
    .ok [.ptr ⟨3, []⟩] ⟨[v0, v1, fileVal h, decoderVal h], 2, [], s.world⟩ := by seval []
  have c := carry S hn (ρ := []) (us := []) (o := (.ok (), ())) (world := fun _ => s.world) (err := fun _ _ _ => False)
    (ok := fun _ _ r => r = .ok [.ptr ⟨3, []⟩] ⟨[v0, v1, fileVal h, decoderVal h], 2, [], s.world⟩)
    G (by simp) (by simp) rfl run
  obtain ⟨r0, rfl, k⟩ := c
  obtain ⟨m, k1, k2⟩ := k _ [] [fileVal h, decoderVal h] _ _ _ rfl rfl
  cases k1
  exact k2

/-- `(r *Decoder) Close() error`, coding.go:91-93. -/
theorem decClose_in {s : St ω} {v0 v1 : Val} (G : Globals s v0 v1) {l : Loc} {h : Nat} (hl : 2 ≤ l.blk)
    (E : l.get s.mem = some (decoderVal h)) {n : Nat} (hn : 20 ≤ n) :
    (interp (repo S) n).call id!"base64" coding.Decoder.Close [.ptr l] s = .ok [.nil] s := by
  have run : (interp (repo S) 20).call id!"base64" coding.Decoder.Close [.ptr ⟨2, []⟩] ⟨[v0, v1, decoderVal h], 3, [], s.world⟩ =
    .ok [.nil] ⟨[v0, v1, decoderVal h], 3, [], s.world⟩ := by seval []
  have c := carry S hn (ρ := [l]) (us := [decoderVal h]) (o := (.ok (), ())) (world := fun _ => s.world) (err := fun _ _ _ => False)
    (ok := fun _ _ r => r = .ok [.nil] ⟨[v0, v1, decoderVal h], 3, [], s.world⟩)
    G (by simp [hl]) (by simp) (by simp only [getAll, E, Emb.renVs, Emb.renV, Emb.renFs]) run
  obtain ⟨r0, rfl, k⟩ := c
  obtain ⟨m, k1, k2⟩ := k _ [decoderVal h] [] _ _ _ rfl rfl
  simp only [Emb.renVs, List.zip_cons_cons, List.zip_nil_right, Emb.renV, Emb.renFs] at k1
  rw [writeAll, Loc.set_get E] at k1
  cases k1
  simp only [Emb.renVs, Emb.renV, List.append_nil] at k2
  rw [ren_two 0 l rfl] at k2
  exact k2

end

end Verif.Src
