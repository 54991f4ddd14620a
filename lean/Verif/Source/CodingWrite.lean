/-
The text of `Encoder.Write` run on a few blocks of memory.
-/
import Verif.Source.CodingRun
import Verif.Source.Loops
import Verif.Lemmas.Act

namespace Verif.Src

variable {ω : Type} (S : Sys ω) (v0 v1 : Val) (h : Nat)

/-- Numbers that fit. -/
theorem wrap_nat {n : Nat} (hn : n < 2 ^ 63) : ITy.int.wrap (n : Int) = n := by
  rw [ITy.wrap_int, Int.bmod_def]
  split <;> omega

theorem wrap_succ {n k : Nat} (hn : n + k < 2 ^ 63) : ITy.int.wrap ((n : Int) + (k : Int)) = ((n + k : Nat) : Int) := by
  have := wrap_nat hn
  rwa [Int.natCast_add] at this ⊢

/-- The body of the loop. -/
noncomputable def writeLoop : List Stmt := (Stmt.rangeParts (coding.Encoder.Write.body[2]?)).2.2.2

/-- The names in its scope. -/
def writeCtx : Ctx := ⟨id!"base64", [(id!"i", .var ⟨10, []⟩), (0, .val .nil), (id!"written", .var ⟨9, []⟩), (id!"out", .var ⟨8, []⟩),
  (id!"p", .var ⟨6, []⟩), (id!"w", .var ⟨5, []⟩)]⟩

/-- Memory at the start of an iteration, as far as it matters. -/
def writeMem (e : EncState) (stale ps : Bytes) (off len cap : Nat) (x0 x1 x2 x3 : UInt8) (written : Nat) (i : Val) : List Val :=
  [v0, v1, encVal e.line (fileVal h) ⟨3, []⟩ e.pending.length, bufVal e.pending stale, .arr (byteVals ps), .ptr ⟨2, []⟩,
   .slice ⟨4, []⟩ off len cap, .arr [byteVal x0, byteVal x1, byteVal x2, byteVal x3], .slice ⟨7, []⟩ 0 4 4, .int .int written, i]

theorem wrap_3 {n : Nat} (hn : n + 3 < 2 ^ 63) : ITy.int.wrap ((n : Int) + 3) = ((n + 3 : Nat) : Int) := wrap_nat hn

/-- One iteration. -/
theorem write_step (L : Nat) (pend stale ps : Bytes) (off len cap : Nat) (x0 x1 x2 x3 : UInt8) (iv : Val) (hiv : iv = .nil ∨ ∃ z : Nat, iv = .int .int z) (written i : Nat) (b : UInt8) (w : ω)
    (hp : pend.length + stale.length = 3) (hk : EncOk ⟨L, pend⟩) (hi : i < len) (hb : ps[off + i]? = some b)
    (hw : written + 3 < 2 ^ 63) :
    Agrees (encWriteLoop (S.write h) written [b] (⟨L, pend⟩, w)) (·.2)
      (fun k s r => ∃ stale' y0 y1 y2 y3 new, k ≤ written + 3 ∧ s.1.pending.length + stale'.length = 3 ∧ EncOk s.1 ∧
        r = .ok .next ⟨writeMem v0 v1 h s.1 stale' ps off len cap y0 y1 y2 y3 k (.int .int i) ++ new, 5, [], s.2⟩)
      (fun g s r => ∃ stale' y0 y1 y2 y3 new, s.1.pending.length + stale'.length = 3 ∧
        r = .ok (.ret [.int .int written, libErr g])
          ⟨writeMem v0 v1 h s.1 stale' ps off len cap y0 y1 y2 y3 written (.int .int i) ++ new, 5, [], s.2⟩)
      (rangeStep (interp (repo S) 20) writeCtx writeLoop (.place ⟨4, []⟩ off len) (some ⟨10, []⟩) none i
        ⟨writeMem v0 v1 h ⟨L, pend⟩ stale ps off len cap x0 x1 x2 x3 written iv, 5, [], w⟩) := by
  obtain ⟨k1, k2, k3⟩ := hk
  simp only at hp k1 k2 k3
  have hb' : (byteVals ps)[off + i]? = some (byteVal b) := by simp [byteVals, hb]
  have i0 : (0 : Int) ≤ ↑i := by omega
  have i1 : (↑i : Int) < ↑len := by omega
  have lo : ((L : Int) + 3).natAbs < 9223372036854775808 := by omega
  have wo : ((written : Int) + 3).natAbs < 9223372036854775808 := by omega
  rcases hiv with rfl | ⟨z, rfl⟩
  all_goals
    match pend, hp, k1 with
    | [], hp, _ =>
      obtain ⟨a, b, c, rfl⟩ : ∃ a b c, stale = [a, b, c] := List.length_eq_three.1 (by simpa using hp)
      refine Agrees.of (by seval []) (by seval [hb', i0, i1]) ?_
      exact ⟨[b, c], x0, x1, x2, x3, [], by omega, rfl, ⟨by simp, k2, k3⟩, rfl⟩
    | [a], hp, _ =>
      obtain ⟨b, c, rfl⟩ : ∃ b c, stale = [b, c] := List.length_eq_two.1 (by simp at hp; omega)
      refine Agrees.of (by seval []) (by seval [hb', i0, i1]) ?_
      exact ⟨[c], x0, x1, x2, x3, [], by omega, rfl, ⟨by simp, k2, k3⟩, rfl⟩
    | [a1, a2], hp, _ =>
      obtain ⟨c, rfl⟩ : ∃ c, stale = [c] := List.length_eq_one_iff.1 (by simp at hp; omega)
      rcases h1 : S.write h (B64.encode [a1, a2, b]) w with ⟨x | g | _ | _ | _, w1⟩
      · by_cases hL : L + 3 = 54
        · have hL' : ITy.int.wrap ((L : Int) + 3) = 54 := by rw [wrap_3 (by omega)]; omega
          rcases h2 : S.write h [10] w1 with ⟨x | g | _ | _ | _, w2⟩ <;>
            refine Agrees.of (by seval [h1, h2, hL]) (by seval [lo, wo, hb', i0, i1, h1, h2, hL']) ?_
          · rw [wrap_3 hw]
            exact ⟨[0, 0, 0], _, _, _, _, _, by omega, rfl, ⟨by simp, by simp, rfl⟩, rfl⟩
          · rw [wrap_3 (by omega)]
            exact ⟨[0, 0, 0], _, _, _, _, _, rfl, rfl⟩
          · exact ⟨_, rfl, rfl, rfl⟩
          · exact ⟨_, rfl, rfl⟩
          · trivial
        · have hL' : ¬ITy.int.wrap ((L : Int) + 3) = 54 := by rw [wrap_3 (by omega)]; omega
          refine Agrees.of (by seval [h1, hL]) (by seval [hb', i0, i1, lo, wo, h1, hL']) ?_
          rw [wrap_3 hw, wrap_3 (by omega)]
          exact ⟨[0, 0, 0], _, _, _, _, _, by omega, rfl, ⟨by simp, by simp only; omega, by simp only; omega⟩, rfl⟩
      all_goals refine Agrees.of (by seval [h1]) (by seval [hb', i0, i1, h1]) ?_
      · exact ⟨[a1, a2, b], _, _, _, _, _, rfl, rfl⟩
      · exact ⟨_, rfl, rfl, rfl⟩
      · exact ⟨_, rfl, rfl⟩
      · trivial

theorem enc_cons {σ : Type} (u : Writer σ) (k : Nat) (b : UInt8) (bs : Bytes) (s : EncState × σ) :
    encWriteLoop u k (b :: bs) s = match encWriteLoop u k [b] s with
      | (.ok k', s') => encWriteLoop u k' bs s'
      | (.err e, s') => (.err e, s')
      | (.panic, s') => (.panic, s')
      | (.crash, s') => (.crash, s')
      | (.hang, s') => (.hang, s') := by
  obtain ⟨⟨L, pend⟩, w⟩ := s
  by_cases h3 : (pend ++ [b]).length = 3
  · rcases h1 : u (B64.encode (pend ++ [b])) w with ⟨x | g | _ | _ | _, w1⟩
    · by_cases hL : L + 3 = decodedSize
      · rcases h2 : u [10] w1 with ⟨x | g | _ | _ | _, w2⟩ <;>
          simp only [encWriteLoop, Act.bind_eq, Act.getFst_apply, Act.setFst_apply, Act.onSnd_apply, Act.pure_apply, if_true, h1, h2, h3, hL]
      · simp only [encWriteLoop, Act.bind_eq, Act.getFst_apply, Act.setFst_apply, Act.onSnd_apply, Act.pure_apply, if_true, if_false, h1, h3, hL]
    all_goals simp only [encWriteLoop, Act.bind_eq, Act.getFst_apply, Act.setFst_apply, Act.onSnd_apply, if_true, h1, h3]
  · simp only [encWriteLoop, Act.bind_eq, Act.getFst_apply, Act.setFst_apply, Act.pure_apply, if_false, h3]

theorem writeMem_plain {v0 v1 : Val} (p0 : v0.refers 2 = false) (p1 : v1.refers 2 = false) (e : EncState) (stale ps : Bytes)
    (off len cap : Nat) (x0 x1 x2 x3 : UInt8) (written : Nat) {iv : Val} (hiv : iv = .nil ∨ ∃ z : Nat, iv = .int .int z) :
    Val.anyRefers 11 (writeMem v0 v1 h e stale ps off len cap x0 x1 x2 x3 written iv) = false := by
  have a0 := Val.refers_mono (k' := 11) (by omega) v0 p0
  have a1 := Val.refers_mono (k' := 11) (by omega) v1 p1
  rcases hiv with rfl | ⟨z, rfl⟩ <;>
    simp [writeMem, encVal, bufVal, Val.anyRefers, Val.refers, Val.fieldRefers, a0, a1, byteVals_plain]

theorem write_loop (p0 : v0.refers 2 = false) (p1 : v1.refers 2 = false) (ps : Bytes) (off len cap : Nat) (hl : off + len ≤ ps.length)
    (n : Nat) : ∀ (i : Nat) (e : EncState) (stale : Bytes) (x0 x1 x2 x3 : UInt8) (iv : Val) (written : Nat) (g : List Val) (w : ω),
    i + n = len → e.pending.length + stale.length = 3 → EncOk e → (iv = .nil ∨ ∃ z : Nat, iv = .int .int z) →
    written + 3 * n < 2 ^ 63 →
    Agrees (encWriteLoop (S.write h) written ((ps.drop (off + i)).take n) (e, w)) (·.2)
      (fun k s r => ∃ stale' y0 y1 y2 y3 iv' g', s.1.pending.length + stale'.length = 3 ∧ EncOk s.1 ∧
        r = .ok .next ⟨writeMem v0 v1 h s.1 stale' ps off len cap y0 y1 y2 y3 k iv' ++ g', 5, [], s.2⟩)
      (fun x s r => ∃ k stale' y0 y1 y2 y3 iv' g', s.1.pending.length + stale'.length = 3 ∧
        r = .ok (.ret [.int .int k, libErr x])
          ⟨writeMem v0 v1 h s.1 stale' ps off len cap y0 y1 y2 y3 k iv' ++ g', 5, [], s.2⟩)
      (rangeLoop (interp (repo S) 20) writeCtx writeLoop (.place ⟨4, []⟩ off len) (some ⟨10, []⟩) none n i
        ⟨writeMem v0 v1 h e stale ps off len cap x0 x1 x2 x3 written iv ++ g, 5, [], w⟩) := by
  induction n with
  | zero =>
    intro i e stale x0 x1 x2 x3 iv written g w hi hp hk hiv hw
    rw [List.take_zero]
    exact ⟨stale, x0, x1, x2, x3, iv, g, hp, hk, rfl⟩
  | succ n ih =>
    intro i e stale x0 x1 x2 x3 iv written g w hi hp hk hiv hw
    obtain ⟨b, hb⟩ : ∃ b, ps[off + i]? = some b := ⟨_, List.getElem?_eq_getElem (by omega)⟩
    have hd : (ps.drop (off + i)).take (n + 1) = b :: (ps.drop (off + (i + 1))).take n := by
      rw [List.drop_eq_getElem_cons (by omega), List.take_succ_cons, Nat.add_assoc]
      rw [List.getElem?_eq_getElem (by omega)] at hb
      rw [Option.some.inj hb]
    rw [hd, enc_cons, range_succ]
    have step := write_step S v0 v1 h e.line e.pending stale ps off len cap x0 x1 x2 x3 iv hiv written i b w hp hk (by omega) hb (by omega)
    have gr := step_grow S (n := 20) (c := writeCtx) (b := writeLoop) (o := .place ⟨4, []⟩ off len) (k := some ⟨10, []⟩) (v := none) (i := i)
      (F := writeMem v0 v1 h e stale ps off len cap x0 x1 x2 x3 written iv) (g := g) (base := 5) (w := w)
      (by simp [writeMem]) (by simp [writeMem]) (writeMem_plain h p0 p1 e stale ps off len cap x0 x1 x2 x3 written hiv)
      rfl rfl rfl rfl
    change Agrees (encWriteLoop (S.write h) written [b] (e, w)) _ _ _ _ at step
    rcases hm : encWriteLoop (S.write h) written [b] (e, w) with ⟨k | x | _ | _ | _, s'⟩ <;> rw [hm] at step
    · obtain ⟨stale', y0, y1, y2, y3, new, hk3, hp', hk', e1⟩ := step
      rw [e1] at gr
      obtain ⟨g', e2⟩ := gr _ new rfl rfl (writeMem_plain h p0 p1 s'.1 stale' ps off len cap y0 y1 y2 y3 k (.inr ⟨i, rfl⟩)) rfl
      rw [e2]
      exact ih (i + 1) s'.1 stale' y0 y1 y2 y3 _ k g' s'.2 (by omega) hp' hk' (.inr ⟨i, rfl⟩) (by omega)
    · obtain ⟨stale', y0, y1, y2, y3, new, hp', e1⟩ := step
      rw [e1] at gr
      obtain ⟨g', e2⟩ := gr _ new rfl rfl (writeMem_plain h p0 p1 s'.1 stale' ps off len cap y0 y1 y2 y3 written (.inr ⟨i, rfl⟩)) rfl
      rw [e2]
      exact ⟨written, stale', y0, y1, y2, y3, _, g', hp', rfl⟩
    · obtain ⟨t, e1, ew, ed⟩ := step
      rw [e1] at gr
      obtain ⟨t', e2, ew', ed'⟩ := gr
      rw [e2]
      exact ⟨t', rfl, ew'.trans ew, ed' ed⟩
    · obtain ⟨t, e1, ew⟩ := step
      rw [e1] at gr
      obtain ⟨t', e2, ew'⟩ := gr
      rw [e2]
      exact ⟨t', rfl, ew'.trans ew⟩
    · trivial

/-- `Encoder.Write`. -/
theorem write_run (p0 : v0.refers 2 = false) (p1 : v1.refers 2 = false) (e : EncState) (stale ps : Bytes) (off len cap : Nat)
    (hp : e.pending.length + stale.length = 3) (hk : EncOk e) (hl : off + len ≤ ps.length) (hw : len < 2 ^ 61) (w : ω) :
    Agrees (encWrite (S.write h) ((ps.drop off).take len) (e, w)) (·.2)
      (fun k s r => ∃ stale', s.1.pending.length + stale'.length = 3 ∧ EncOk s.1 ∧
        r = .ok [.int .int k, .nil] ⟨encMem v0 v1 h s.1 stale' ++ [.arr (byteVals ps)], 5, [], s.2⟩)
      (fun g s r => ∃ k stale', s.1.pending.length + stale'.length = 3 ∧
        r = .ok [.int .int k, libErr g] ⟨encMem v0 v1 h s.1 stale' ++ [.arr (byteVals ps)], 5, [], s.2⟩)
      ((interp (repo S) 22).call id!"base64" coding.Encoder.Write [.ptr ⟨2, []⟩, .slice ⟨4, []⟩ off len cap]
        ⟨encMem v0 v1 h e stale ++ [.arr (byteVals ps)], 5, [], w⟩) := by
  have loop := write_loop S v0 v1 h p0 p1 ps off len cap hl len 0 e stale 0 0 0 0 .nil 0 [] w (by omega) hp hk (.inl rfl) (by omega)
  rw [Nat.add_zero] at loop
  generalize hr : rangeLoop (interp (repo S) 20) writeCtx writeLoop (.place ⟨4, []⟩ off len) (some ⟨10, []⟩) none len 0
    ⟨writeMem v0 v1 h e stale ps off len cap 0 0 0 0 0 .nil ++ [], 5, [], w⟩ = r at loop
  rw [call_range (n := 20) 2 (by seval []) (by seval []) (by krfl) (by seval []) hr]
  unfold encWrite
  rcases hm : encWriteLoop (S.write h) 0 (List.take len (List.drop off ps)) (e, w) with ⟨k | x | _ | _ | _, s'⟩ <;> rw [hm] at loop
  · obtain ⟨stale', y0, y1, y2, y3, iv', g', hp', hk', e1⟩ := loop
    subst e1
    exact ⟨stale', hp', hk', by seval []⟩
  · obtain ⟨k, stale', y0, y1, y2, y3, iv', g', hp', e1⟩ := loop
    subst e1
    exact ⟨k, stale', hp', by seval []⟩
  · obtain ⟨t, e1, ew, ed⟩ := loop
    subst e1
    obtain ⟨tm, tb, td, tw⟩ := t
    subst ed
    subst ew
    exact ⟨_, by seval [], rfl, rfl⟩
  · obtain ⟨t, e1, ew⟩ := loop
    subst e1
    obtain ⟨tm, tb, td, tw⟩ := t
    subst ew
    exact ⟨_, by seval [], rfl⟩
  · trivial

end Verif.Src
