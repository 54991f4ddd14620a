/-
The text of `Decoder.Read` run on a few blocks of memory.
-/
import Verif.Source.CodingWrite

namespace Verif.Src

variable {ω : Type} (S : Sys ω) (v0 v1 : Val) (h : Nat)

/-- The body of the loop of `Decoder.Read`. -/
noncomputable def readLoop : List Stmt := (Stmt.loopParts (coding.Decoder.Read.body[4]?)).2.2.2

/-- The names in its scope. -/
def readCtx : Ctx := ⟨id!"base64", [(0, .val .nil), (id!"n", .var ⟨11, []⟩), (id!"c", .var ⟨10, []⟩), (id!"buf", .var ⟨8, []⟩),
  (id!"enclen", .var ⟨6, []⟩), (id!"p", .var ⟨5, []⟩), (id!"r", .var ⟨4, []⟩)]⟩

/-- A decoder in memory. -/
def decVal (r : Val) : Val := .struct id!"Decoder" [(id!"r", r)]

/-- Memory at the start of an iteration, as far as it matters. -/
def readMem (pv : List Val) (off len cap E : Nat) (B : List Val) (n : Nat) (c : UInt8) : List Val :=
  [v0, v1, decVal (fileVal h), .arr pv, .ptr ⟨2, []⟩, .slice ⟨3, []⟩ off len cap, .int .int E, .arr B, .slice ⟨7, []⟩ 0 n E,
   .arr [byteVal c], .slice ⟨9, []⟩ 0 1 1, .int .int n]

theorem read_full (pv : List Val) (off len cap E : Nat) (B : List Val) (n : Nat) (c : UInt8) (w : ω) (hn : n = E) :
    block (interp (repo S) 20) readCtx readLoop ⟨readMem v0 v1 h pv off len cap E B n c, 4, [], w⟩ =
      .ok .brk ⟨readMem v0 v1 h pv off len cap E B n c, 4, [], w⟩ := by
  have hn' : (n : Int) = E := by omega
  seval [hn']

theorem read_err (pv : List Val) (off len cap E : Nat) (B : List Val) (n : Nat) (c : UInt8) (w w' : ω) (hn : n < E) (e : GoErr)
    (he : e ≠ .eof) (hr : S.read h 1 w = (.err e, w')) : ∃ new,
    block (interp (repo S) 20) readCtx readLoop ⟨readMem v0 v1 h pv off len cap E B n c, 4, [], w⟩ =
      .ok (.ret [.int .untyped 0, libErr e]) ⟨readMem v0 v1 h pv off len cap E B n c ++ new, 4, [], w'⟩ := by
  have hn' : ¬(n : Int) = E := by omega
  cases e with
  | eof => exact absurd rfl he
  | _ => exact ⟨_, by seval [hn', hr]⟩

theorem read_eof (pv : List Val) (off len cap E : Nat) (B : List Val) (n : Nat) (c : UInt8) (w w' : ω) (hn : n < E)
    (hr : S.read h 1 w = (.err .eof, w')) : ∃ new,
    block (interp (repo S) 20) readCtx readLoop ⟨readMem v0 v1 h pv off len cap E B n c, 4, [], w⟩ =
      .ok .brk ⟨readMem v0 v1 h pv off len cap E B n c ++ new, 4, [], w'⟩ := by
  have hn' : ¬(n : Int) = E := by omega
  exact ⟨_, by seval [hn', hr]⟩

theorem read_newline (pv : List Val) (off len cap E : Nat) (B : List Val) (n : Nat) (c : UInt8) (w w' : ω) (hn : n < E)
    (got : Bytes) (hg : got.length ≤ 1) (hc : got.headD c = 10) (hr : S.read h 1 w = (.ok got, w')) : ∃ new,
    block (interp (repo S) 20) readCtx readLoop ⟨readMem v0 v1 h pv off len cap E B n c, 4, [], w⟩ =
      .ok .cont ⟨readMem v0 v1 h pv off len cap E B n (got.headD c) ++ new, 4, [], w'⟩ := by
  have hn' : ¬(n : Int) = E := by omega
  match got, hg with
  | [], _ =>
    have hc : c = 10 := hc
    subst hc
    exact ⟨_, by seval [hn', hr]⟩
  | [b], _ =>
    have hc : b = 10 := hc
    subst hc
    exact ⟨_, by seval [hn', hr]⟩

theorem read_byte (pv : List Val) (off len cap E : Nat) (B : List Val) (n : Nat) (c : UInt8) (w w' : ω) (hn : n < E)
    (hE : E < 2 ^ 63) (hB : B[n]? = some (byteVal 0))
    (got : Bytes) (hg : got.length ≤ 1) (hc : got.headD c ≠ 10) (hr : S.read h 1 w = (.ok got, w')) : ∃ new,
    block (interp (repo S) 20) readCtx readLoop ⟨readMem v0 v1 h pv off len cap E B n c, 4, [], w⟩ =
      .ok .next ⟨readMem v0 v1 h pv off len cap E (B.set n (byteVal (got.headD c))) (n + 1) (got.headD c) ++ new, 4, [], w'⟩ := by
  have hn' : ¬(n : Int) = E := by omega
  have hb : ∀ b : UInt8, b ≠ 10 → ¬(b.toNat : Int) = 10 := fun b hb e => hb (UInt8.toNat_inj.1 (by simpa using Int.ofNat_inj.1 e))
  have ho : ((n : Int) + 1).natAbs < 9223372036854775808 := by show n + 1 < _; omega
  have hB' : B[0 + n]? = some (byteVal 0) := by rw [Nat.zero_add]; exact hB
  have ew : ITy.int.wrap ((n : Int) + 1) = ((n + 1 : Nat) : Int) := wrap_nat (n := n + 1) (by omega)
  match got, hg with
  | [], _ =>
    have h10 := hb c hc
    refine ⟨[.nil], (by seval [hn', hr, h10, hB', ho, hn] : _ = _).trans ?_⟩
    rw [ew, Nat.zero_add]
    rfl
  | [b], _ =>
    have h10 := hb b hc
    refine ⟨[.nil], (by seval [hn', hr, h10, hB', ho, hn] : _ = _).trans ?_⟩
    rw [ew, Nat.zero_add]
    rfl

theorem read_panic (pv : List Val) (off len cap E : Nat) (B : List Val) (n : Nat) (c : UInt8) (w w' : ω) (hn : n < E)
    (hr : S.read h 1 w = (.panic, w')) : ∃ t,
    block (interp (repo S) 20) readCtx readLoop ⟨readMem v0 v1 h pv off len cap E B n c, 4, [], w⟩ = .panic t ∧
      t.world = w' ∧ t.defers = [] := by
  have hn' : ¬(n : Int) = E := by omega
  exact ⟨_, by seval [hn', hr], rfl, rfl⟩

theorem read_crash (pv : List Val) (off len cap E : Nat) (B : List Val) (n : Nat) (c : UInt8) (w w' : ω) (hn : n < E)
    (hr : S.read h 1 w = (.crash, w')) : ∃ t,
    block (interp (repo S) 20) readCtx readLoop ⟨readMem v0 v1 h pv off len cap E B n c, 4, [], w⟩ = .crash t ∧ t.world = w' := by
  have hn' : ¬(n : Int) = E := by omega
  exact ⟨_, by seval [hn', hr], rfl⟩

theorem readMem_plain {v0 v1 : Val} (p0 : v0.refers 2 = false) (p1 : v1.refers 2 = false) (ps : Bytes) (off len cap E : Nat)
    {B : List Val} (hB : Val.anyRefers 12 B = false) (n : Nat) (c : UInt8) :
    Val.anyRefers 12 (readMem v0 v1 h (byteVals ps) off len cap E B n c) = false := by
  have a0 := Val.refers_mono (k' := 12) (by omega) v0 p0
  have a1 := Val.refers_mono (k' := 12) (by omega) v1 p1
  simp [readMem, decVal, Val.anyRefers, Val.refers, Val.fieldRefers, a0, a1, byteVals_plain, hB]

/-- The array behind `buf`. -/
def roomVals (E : Nat) (buf : Bytes) : List Val := byteVals buf ++ List.replicate (E - buf.length) (byteVal 0)

theorem roomVals_plain (k E : Nat) (buf : Bytes) : Val.anyRefers k (roomVals E buf) = false := by
  rw [Val.anyRefers_false]
  intro v hv
  rcases List.mem_append.1 hv with hv | hv
  · exact Val.anyRefers_false.1 (byteVals_plain k buf) v hv
  · rw [List.eq_of_mem_replicate hv]; rfl

theorem roomVals_get {E : Nat} {buf : Bytes} (h : buf.length < E) : (roomVals E buf)[buf.length]? = some (byteVal 0) := by
  unfold roomVals
  rw [List.getElem?_append_right (by rw [byteVals_length]), byteVals_length, Nat.sub_self]
  rw [List.getElem?_replicate, if_pos (by omega)]

theorem roomVals_set {E : Nat} {buf : Bytes} (h : buf.length < E) (b : UInt8) :
    (roomVals E buf).set buf.length (byteVal b) = roomVals E (buf ++ [b]) := by
  unfold roomVals
  rw [List.set_append_right _ _ (by rw [byteVals_length]), byteVals_length, Nat.sub_self, byteVals_append]
  obtain ⟨k, hk⟩ : ∃ k, E - buf.length = k + 1 := ⟨E - buf.length - 1, by omega⟩
  rw [hk, List.replicate_succ, List.set_cons_zero, List.length_append, List.length_singleton, List.append_assoc]
  rw [show E - (buf.length + 1) = k by omega]
  rfl

theorem read_loop (p0 : v0.refers 2 = false) (p1 : v1.refers 2 = false) (ps : Bytes) (off len cap E : Nat) (hE : E < 2 ^ 63)
    (contract : ∀ w got w', S.read h 1 w = (.ok got, w') → got.length ≤ 1)
    (f : Nat) : ∀ (c : UInt8) (buf : Bytes) (g : List Val) (w : ω), buf.length ≤ E →
    Agrees (decReadLoop (S.read h) E f c buf w) id
      (fun buf' w' r => ∃ c' g', buf'.length ≤ E ∧
        r = .ok .next ⟨readMem v0 v1 h (byteVals ps) off len cap E (roomVals E buf') buf'.length c' ++ g', 4, [], w'⟩)
      (fun e w' r => ∃ F g', F.length = 8 ∧
        r = .ok (.ret [.int .untyped 0, libErr e]) ⟨[v0, v1, decVal (fileVal h), .arr (byteVals ps)] ++ F ++ g', 4, [], w'⟩)
      ((interp (repo S) (f + 20)).iter readCtx none none readLoop
        ⟨readMem v0 v1 h (byteVals ps) off len cap E (roomVals E buf) buf.length c ++ g, 4, [], w⟩) := by
  induction f with
  | zero => intro c buf g w hb; trivial
  | succ f ih =>
    intro c buf g w hb
    have pl : ∀ (buf : Bytes) (c : UInt8), Val.anyRefers 12 (readMem v0 v1 h (byteVals ps) off len cap E (roomVals E buf) buf.length c) = false :=
      fun buf c => readMem_plain h p0 p1 ps off len cap E (roomVals_plain _ _ _) _ _
    have gr := block_grow S (n := f + 20) (c := readCtx) (b := readLoop) (g := g) (base := 4) (w := w)
      (F := readMem v0 v1 h (byteVals ps) off len cap E (roomVals E buf) buf.length c) (by simp [readMem]) (by simp [readMem]) (pl _ _) rfl
    have more : ∀ {r}, block (interp (repo S) 20) readCtx readLoop
        ⟨readMem v0 v1 h (byteVals ps) off len cap E (roomVals E buf) buf.length c, 4, [], w⟩ = r → r ≠ .stuck →
        block (interp (repo S) (f + 20)) readCtx readLoop
        ⟨readMem v0 v1 h (byteVals ps) off len cap E (roomVals E buf) buf.length c, 4, [], w⟩ = r :=
      fun e hr => block_more (by omega) e hr
    show Agrees _ _ _ _ ((interp (repo S) (f + 20 + 1)).iter _ _ _ _ _)
    rw [iter_eq, decReadLoop]
    beta_reduce
    by_cases hn : buf.length = E
    · rw [more (read_full S v0 v1 h _ off len cap E _ _ c w hn) (by simp)] at gr
      obtain ⟨g', e⟩ := gr _ [] (List.append_nil _).symm rfl (pl _ _) rfl
      rw [e, if_pos hn]
      exact ⟨c, g', hb, rfl⟩
    · rw [if_neg hn]
      have hn : buf.length < E := by omega
      rcases hr : S.read h 1 w with ⟨got | x | _ | _ | _, w'⟩
      · have hg := contract w got w' hr
        simp only
        by_cases h10 : got.headD c = 10
        · rw [if_pos h10]
          obtain ⟨new, e⟩ := read_newline S v0 v1 h (byteVals ps) off len cap E (roomVals E buf) buf.length c w w' hn got hg h10 hr
          rw [more e (by simp)] at gr
          obtain ⟨g', e⟩ := gr _ new rfl rfl (pl _ _) rfl
          rw [e]
          exact ih _ _ _ _ hb
        · rw [if_neg h10]
          obtain ⟨new, e⟩ := read_byte S v0 v1 h (byteVals ps) off len cap E (roomVals E buf) buf.length c w w' hn hE
            (roomVals_get hn) got hg h10 hr
          rw [more e (by simp)] at gr
          rw [roomVals_set hn] at gr
          have hl : buf.length + 1 = (buf ++ [got.headD c]).length := by simp
          rw [hl] at gr
          obtain ⟨g', e⟩ := gr _ new rfl rfl (pl _ _) rfl
          rw [e]
          exact ih _ _ _ _ (by omega)
      · by_cases hx : x = .eof
        · subst hx
          obtain ⟨new, e⟩ := read_eof S v0 v1 h (byteVals ps) off len cap E (roomVals E buf) buf.length c w w' hn hr
          rw [more e (by simp)] at gr
          obtain ⟨g', e⟩ := gr _ new rfl rfl (pl _ _) rfl
          rw [e]
          exact ⟨c, g', hb, rfl⟩
        · obtain ⟨new, e⟩ := read_err S v0 v1 h (byteVals ps) off len cap E (roomVals E buf) buf.length c w w' hn x hx hr
          rw [more e (by simp)] at gr
          obtain ⟨g', e⟩ := gr _ new rfl rfl (pl _ _) rfl
          rw [e]
          have : (match ((.err x, w') : Res Bytes × ω) with
            | (.err .eof, s') => (.ok buf, s')
            | (.err e, s') => (.err e, s')
            | (.panic, s') => (.panic, s')
            | (.crash, s') => (.crash, s')
            | (.hang, s') => (.hang, s')
            | (.ok got, s') =>
              let c' := got.headD c
              if c' = 10 then decReadLoop (S.read h) E f c' buf s'
              else decReadLoop (S.read h) E f c' (buf ++ [c']) s') = (.err x, w') := by
            cases x <;> first | exact absurd rfl hx | rfl
          refine Agrees.of this rfl ?_
          exact ⟨[_, _, _, _, _, _, _, _], g', rfl, rfl⟩
      · obtain ⟨t, e, ew, ed⟩ := read_panic S v0 v1 h (byteVals ps) off len cap E (roomVals E buf) buf.length c w w' hn hr
        rw [more e (by simp)] at gr
        obtain ⟨t', e2, ew', ed'⟩ := gr
        rw [e2]
        exact ⟨t', rfl, ew'.trans ew, ed' ed⟩
      · obtain ⟨t, e, ew⟩ := read_crash S v0 v1 h (byteVals ps) off len cap E (roomVals E buf) buf.length c w w' hn hr
        rw [more e (by simp)] at gr
        obtain ⟨t', e2, ew'⟩ := gr
        rw [e2]
        exact ⟨t', rfl, ew'.trans ew⟩
      · trivial

theorem byteVals_take (n : Nat) (bs : Bytes) : (byteVals bs).take n = byteVals (bs.take n) := by simp [byteVals, List.map_take]

theorem byteVals_drop (n : Nat) (bs : Bytes) : (byteVals bs).drop n = byteVals (bs.drop n) := by simp [byteVals, List.map_drop]

theorem decodeLoop_le (cap : Nat) (acc src out : Bytes) (h : acc.length ≤ cap) (e : B64.decodeLoop cap acc src = .ok out) :
    out.length ≤ cap := by
  induction hn : src.length using Nat.strongRecOn generalizing acc src with
  | ind n ih =>
    rw [B64.decodeLoop] at e
    split at e
    · cases e; exact h
    · cases e
    · rename_i bs rest he
      split at e
      · exact ih rest.length (hn ▸ B64.quantum_full_lt he) _ _ (by simpa using ‹_›) e rfl
      · cases e
    · split at e
      · split at e
        · cases e
        · cases e; simpa using ‹_›
      · cases e

theorem decode_le {cap : Nat} {src out : Bytes} (e : B64.decode cap src = .ok out) : out.length ≤ cap :=
  decodeLoop_le cap [] src out (Nat.zero_le _) e

/-- Memory with a decoder and the destination of a read. -/
def decMem (pv : List Val) : List Val := [v0, v1, decVal (fileVal h), .arr pv]

/-- `Decoder.Read`. -/
theorem read_run (p0 : v0.refers 2 = false) (p1 : v1.refers 2 = false) (ps : Bytes) (off len cap : Nat)
    (hw : len < 2 ^ 61) (contract : ∀ w got w', S.read h 1 w = (.ok got, w') → got.length ≤ 1) (f : Nat) (w : ω) :
    Agrees (decRead f (S.read h) len w) id
      (fun out w' r => r = .ok [.int .int out.length, .nil]
        ⟨decMem v0 v1 h (byteVals (ps.take off ++ out ++ ps.drop (off + out.length))), 4, [], w'⟩)
      (fun e w' r => r = .ok [.int .int 0, libErr e] ⟨decMem v0 v1 h (byteVals ps), 4, [], w'⟩)
      ((interp (repo S) (f + 22)).call id!"base64" coding.Decoder.Read [.ptr ⟨2, []⟩, .slice ⟨3, []⟩ off len cap]
        ⟨decMem v0 v1 h (byteVals ps), 4, [], w⟩) := by
  have loop := read_loop S v0 v1 h p0 p1 ps off len cap (B64.encodedLen len) (by unfold B64.encodedLen; omega) contract f 0 [] [] w (by simp)
  generalize hr : (interp (repo S) (f + 20)).iter readCtx none none readLoop
    ⟨readMem v0 v1 h (byteVals ps) off len cap (B64.encodedLen len) (roomVals (B64.encodedLen len) []) ([] : Bytes).length 0 ++ [], 4, [], w⟩ = r at loop
  rw [call_for (n := f + 20) 4 (by seval []) ((by seval [] : _ = _).trans (by rw [List.length_replicate]; rfl)) (by krfl) hr]
  unfold decRead
  rw [Act.bind_eq]
  rcases hm : decReadLoop (S.read h) (B64.encodedLen len) f 0 [] w with ⟨buf | x | _ | _ | _, w'⟩ <;> rw [hm] at loop
  · obtain ⟨c', g', hb, e1⟩ := loop
    subst e1
    simp only
    have eb : List.map valByte (List.take buf.length (List.drop 0 (roomVals (B64.encodedLen len) buf))) = buf := by
      rw [List.drop_zero, roomVals, List.take_left' (byteVals_length buf), map_valByte_byteVals]
    rcases hd : B64.decode len buf with out | _ | _ <;> rw [← eb] at hd
    · have pl : ¬ ((decide (3 < 4) && Val.refers 4 (.arr (splice (byteVals ps) off (List.take len (byteVals out))))) = true) := by
        simp only [Val.refers, splice, byteVals_take, byteVals_drop, ← byteVals_append, byteVals_plain, Bool.and_false,
          Bool.false_eq_true, not_false_eq_true]
      have ho : out.length ≤ len := decode_le hd
      refine Agrees.of rfl (by seval [hd, pl]) ?_
      show R.ok _ (St.mk _ _ _ _) = _
      have e : splice (byteVals ps) off (List.take len (byteVals out)) = byteVals (ps.take off ++ out ++ ps.drop (off + out.length)) := by
        rw [splice, byteVals_take len, List.take_of_length_le ho, byteVals_length, byteVals_take, byteVals_drop, byteVals_append,
          byteVals_append]
      rw [show List.map (fun b => Val.int ITy.uint8 ↑b.toNat) out = byteVals out from rfl, e]
      rfl
    · exact Agrees.of rfl (by seval [hd]) rfl
    · exact Agrees.of rfl (by seval [hd]) ⟨_, rfl, rfl, rfl⟩
  · obtain ⟨F, g', hF, e1⟩ := loop
    subst e1
    show _ = _
    seval []
  · obtain ⟨t, e1, ew, ed⟩ := loop
    subst e1
    obtain ⟨tm, tb, td, tw⟩ := t
    subst ed
    subst ew
    exact ⟨⟨tm, 4, [], _⟩, by seval [], rfl, rfl⟩
  · obtain ⟨t, e1, ew⟩ := loop
    subst e1
    obtain ⟨tm, tb, td, tw⟩ := t
    subst ew
    exact ⟨⟨tm, 4, [], _⟩, by seval [], rfl⟩
  · trivial

end Verif.Src
