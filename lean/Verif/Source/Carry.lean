/-
From calls on a few blocks of memory beside the variables of the package signify to calls in any memory.
-/
import Verif.Source.Loops

namespace Verif.Src

variable {ω : Type}

/-- How a call ends, compared with the model, when the calls `d` are deferred outside. -/
def Ends {α σ β : Type} (d : List Deferred) (o : Res α × σ) (world : σ → ω) (ok : α → σ → R ω β → Prop)
    (err : GoErr → σ → R ω β → Prop) (r : R ω β) : Prop :=
  match o with
  | (.ok a, s) => ok a s r
  | (.err e, s) => err e s r
  | (.panic, s) => ∃ t, r = .panic t ∧ t.world = world s ∧ t.defers = d
  | (.crash, s) => ∃ t, r = .crash t ∧ t.world = world s
  | (.hang, _) => True

theorem Ends.mono {α σ β : Type} {d : List Deferred} {o : Res α × σ} {world : σ → ω} {ok ok' : α → σ → R ω β → Prop}
    {err err' : GoErr → σ → R ω β → Prop} {r : R ω β} (h : Ends d o world ok err r) (h1 : ∀ a s, ok a s r → ok' a s r)
    (h2 : ∀ e s, err e s r → err' e s r) : Ends d o world ok' err' r := by
  rcases o with ⟨a | e | _ | _ | _, s⟩
  · exact h1 _ _ h
  · exact h2 _ _ h
  · exact h
  · exact h
  · exact h

/-- More fuel changes nothing. -/
theorem call_more {P : Prog ω} {n m : Nat} (hn : n ≤ m) {p : Id} {f : Func} {vs : List Val} {s : St ω}
    (h : (interp P n).call p f vs s ≠ .stuck) : (interp P m).call p f vs s = (interp P n).call p f vs s :=
  (((interp_mono (Prog.Le.refl P) hn).call p f vs s).resolve_left h)

mutual

theorem Emb.renV_fix {E : Emb} {k : Nat} (hE : ∀ l : Loc, l.blk < k → E.ren l = l) : ∀ v : Val, v.refers k = false → E.renV v = v
  | .ptr l, h => by
    simp only [Val.refers, decide_eq_false_iff_not, Nat.not_le] at h
    rw [Emb.renV, hE l h]
  | .slice l off len cap, h => by
    simp only [Val.refers, decide_eq_false_iff_not, Nat.not_le] at h
    rw [Emb.renV, hE l h]
  | .arr vs, h => by rw [Emb.renV, Emb.renVs_fix hE vs (by simpa [Val.refers] using h)]
  | .struct t fs, h => by rw [Emb.renV, Emb.renFs_fix hE fs (by simpa [Val.refers] using h)]
  | .int _ _, _ | .bool _, _ | .str _, _ | .nil, _ | .err _, _ | .obj _ _, _ | .func _ _, _ => by simp only [Emb.renV]

theorem Emb.renVs_fix {E : Emb} {k : Nat} (hE : ∀ l : Loc, l.blk < k → E.ren l = l) : ∀ vs : List Val, Val.anyRefers k vs = false → E.renVs vs = vs
  | [], _ => rfl
  | v :: vs, h => by
    simp only [Val.anyRefers, Bool.or_eq_false_iff] at h
    rw [Emb.renVs, Emb.renV_fix hE v h.1, Emb.renVs_fix hE vs h.2]

theorem Emb.renFs_fix {E : Emb} {k : Nat} (hE : ∀ l : Loc, l.blk < k → E.ren l = l) : ∀ fs : List (Id × Val), Val.fieldRefers k fs = false → E.renFs fs = fs
  | [], _ => rfl
  | (x, v) :: fs, h => by
    simp only [Val.fieldRefers, Bool.or_eq_false_iff] at h
    rw [Emb.renFs, Emb.renV_fix hE v h.1, Emb.renFs_fix hE fs h.2]

end

/-- The variables of the package signify, which refer to nothing else. -/
structure Globals (s : St ω) (v0 v1 : Val) : Prop where
  first : s.mem[0]? = some v0
  second : s.mem[1]? = some v1
  plain0 : v0.refers 2 = false
  plain1 : v1.refers 2 = false

/-- Places beside these variables. -/
abbrev beside (s : St ω) (ρ : List Loc) : Emb := ⟨s.mem, ⟨0, []⟩ :: ⟨1, []⟩ :: ρ⟩

theorem beside_fix {s : St ω} {ρ : List Loc} {l : Loc} (h : l.blk < 2) : (beside s ρ).ren l = l := by
  obtain ⟨b, p⟩ := l
  simp only at h
  match b, h with
  | 0, _ => rfl
  | 1, _ => rfl

theorem ren_two {s : St ω} {ρ : List Loc} (i : Nat) (w : Loc) (h : ρ[i]? = some w) : (beside s ρ).ren ⟨i + 2, []⟩ = w := by
  unfold Emb.ren
  rw [show (beside s ρ).win[(⟨i + 2, []⟩ : Loc).blk]? = ρ[i]? from rfl, h]
  simp

/-- The run in the large memory that goes with a run beside the variables. -/
def Carried (s : St ω) (ρ : List Loc) (v0 v1 : Val) (r0 r : R ω (List Val)) : Prop :=
  ∀ rs us new b d w, r0 = .ok rs ⟨v0 :: v1 :: us ++ new, b, d, w⟩ → us.length = ρ.length →
    ∃ m, writeAll s.mem (ρ.zip ((beside s ρ).renVs us)) = some m ∧
      r = .ok ((beside s ρ).renVs rs) ⟨m ++ (beside s ρ).renVs new, s.base, s.defers, w⟩

/-- What holds of a call on a few blocks holds of the call on these places of any memory. -/
theorem carry (S : Sys ω) {α σ : Type} {n m : Nat} (hn : n ≤ m) {p : Id} {f : Func} {args us : List Val} {s : St ω} {ρ : List Loc} {v0 v1 : Val}
    {o : Res α × σ} {world : σ → ω} {ok : α → σ → R ω (List Val) → Prop} {err : GoErr → σ → R ω (List Val) → Prop}
    (G : Globals s v0 v1) (own : ∀ l ∈ ρ, 2 ≤ l.blk) (apart : ρ.Pairwise fun l m => l.disjoint m = true)
    (get : getAll s.mem ρ = some ((beside s ρ).renVs us))
    (h : Agrees o world ok err ((interp (repo S) n).call p f args ⟨v0 :: v1 :: us, us.length + 2, [], s.world⟩)) :
    Ends s.defers o world (fun a t r => ∃ r0, ok a t r0 ∧ Carried s ρ v0 v1 r0 r) (fun e t r => ∃ r0, err e t r0 ∧ Carried s ρ v0 v1 r0 r)
      ((interp (repo S) m).call p f ((beside s ρ).renVs args) s) := by
  have len : ρ.length = us.length := by rw [getAll_length get, Emb.renVs_length]
  have r0 : (beside s ρ).renV v0 = v0 := Emb.renV_fix (fun _ h => beside_fix h) _ G.plain0
  have r1 : (beside s ρ).renV v1 = v1 := Emb.renV_fix (fun _ h => beside_fix h) _ G.plain1
  have g0 : (⟨0, []⟩ : Loc).get s.mem = some v0 := by rw [Loc.get_eq, G.first]; rfl
  have g1 : (⟨1, []⟩ : Loc).get s.mem = some v1 := by rw [Loc.get_eq, G.second]; rfl
  have key := call_in (repo_bare S) (n := n) (p := p) (f := f) (args := args) (vs := v0 :: v1 :: us) (s := s) (ρ := ⟨0, []⟩ :: ⟨1, []⟩ :: ρ)
    (by simp [len]) (by
      refine List.pairwise_cons.2 ⟨fun l hl => ?_, List.pairwise_cons.2 ⟨fun l hl => ?_, apart⟩⟩
      · rcases List.mem_cons.1 hl with rfl | hl
        · rfl
        · exact Loc.disjoint_iff.2 (.inl (by have := own l hl; simp only; omega))
      · exact Loc.disjoint_iff.2 (.inl (by have := own l hl; simp only; omega)))
    (by
      intro b hb
      simp only [Emb.renVs, List.zip_cons_cons, List.mem_cons] at hb
      rcases hb with rfl | rfl | hb
      · exact g0.trans (congrArg some r0.symm)
      · exact g1.trans (congrArg some r1.symm)
      · exact getAll_get get b hb)
    (by
      intro p x b hb
      rcases global_cases S hb with ⟨v, rfl, hv⟩ | rfl | rfl
      · exact congrArg Bind.val (Emb.renV_plain _ v hv)
      · rfl
      · rfl)
  have carried : ∀ r, (interp (repo S) n).call p f args ⟨v0 :: v1 :: us, us.length + 2, [], s.world⟩ = r →
      Carried s ρ v0 v1 r ((interp (repo S) m).call p f ((beside s ρ).renVs args) s) := by
    intro r hr rs us' new b d w e hl
    rw [show (v0 :: v1 :: us).length = us.length + 2 from rfl, hr, e] at key
    obtain ⟨M, h1, h2⟩ := key
    simp only [List.cons_append, List.take_succ_cons, Emb.renVs, List.zip_cons_cons] at h1
    rw [← len, ← hl, List.take_left] at h1
    rw [writeAll, show (⟨s.mem, ⟨0, []⟩ :: ⟨1, []⟩ :: ρ⟩ : Emb) = beside s ρ from rfl, r0, Loc.set_get g0] at h1
    simp only at h1
    rw [writeAll, r1, Loc.set_get g1] at h1
    refine ⟨M, h1, ?_⟩
    rw [call_more hn (by rw [h2]; exact fun h => nomatch h), h2]
    simp only [List.cons_append, List.drop_succ_cons]
    rw [← len, ← hl, List.drop_left]
  rcases o with ⟨a | e | _ | _ | _, t⟩
  · exact ⟨_, h, carried _ rfl⟩
  · exact ⟨_, h, carried _ rfl⟩
  · obtain ⟨u, e1, ew, ed⟩ := h
    rw [show (v0 :: v1 :: us).length = us.length + 2 from rfl, e1] at key
    obtain ⟨u', e2, ew', ed'⟩ := key
    refine ⟨u', ?_, ew'.trans ew, ed'⟩
    rw [call_more hn (by rw [e2]; exact fun h => nomatch h), e2]
  · obtain ⟨u, e1, ew⟩ := h
    rw [show (v0 :: v1 :: us).length = us.length + 2 from rfl, e1] at key
    obtain ⟨u', e2, ew', ed'⟩ := key
    refine ⟨u', ?_, ew'.trans ew⟩
    rw [call_more hn (by rw [e2]; exact fun h => nomatch h), e2]
  · trivial

end Verif.Src
