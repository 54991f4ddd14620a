/-
Summaries of the functions of the package internal/edwards25519, by the kinds of their arguments.
-/
import Verif.Source.Ed

namespace Verif.Src.EdSrc

open Verif.Ed

variable {ω : Type}

/-- Types whose values are stored in memory without pointers. -/
class Enc (α : Type) where
  enc : α → Val
  dec : Val → Option α
  dec_some : ∀ {v a}, dec v = some a → v = enc a
  plain : ∀ a, (enc a).refers 0 = false

export Enc (enc dec)

/-- Types that give the values of the first `g` variables of the package. -/
class EncL (γ : Type) (g : outParam Nat) where
  encL : γ → List Val
  decL : List Val → Option γ
  decL_some : ∀ {vs c}, decL vs = some c → vs = encL c
  lengthL : ∀ c, (encL c).length = g
  plainL : ∀ c, Val.anyRefers 0 (encL c) = false

export EncL (encL decL)

/-- Pointer to a block. -/
abbrev P (n : Nat) : Val := .ptr ⟨n, []⟩

/-- Arguments of type int32. -/
def ints (l : List Int) : List Val := l.map (.int .int32 ·)

def unints : List Val → Option (List Int)
  | [] => some []
  | .int .int32 a :: vs => match unints vs with
    | some l => some (a :: l)
    | none => none
  | _ => none

theorem unints_some {vs : List Val} {l : List Int} (h : unints vs = some l) : vs = ints l := by
  induction vs generalizing l with
  | nil => cases h; rfl
  | cons v vs ih =>
    cases v <;> try cases h
    next t a =>
      cases t <;> try cases h
      unfold unints at h
      split at h
      · next e => cases h; rw [ih e]; rfl
      · cases h

/-- What a function does: the new contents of places and the results. -/
abbrev Effect := List (Nat × Val) × List Val

/-- Nothing in it is a pointer. -/
def Effect.Plain (e : Effect) : Prop := (∀ w ∈ e.1, w.2.refers 0 = false) ∧ ∀ v ∈ e.2, v.refers 0 = false

theorem Effect.Plain.writes {e : Effect} (h : e.Plain) : Val.anyRefers 0 (e.1.map (·.2)) = false :=
  Val.anyRefers_false.2 fun v hv => by
    obtain ⟨w, hw, rfl⟩ := List.mem_map.1 hv
    exact h.1 w hw

theorem Effect.Plain.results {e : Effect} (h : e.Plain) : Val.anyRefers 0 e.2 = false := Val.anyRefers_false.2 h.2

theorem anyRefers_append {b : Nat} {us vs : List Val} (h : Val.anyRefers b us = false) (k : Val.anyRefers b vs = false) :
    Val.anyRefers b (us ++ vs) = false :=
  Val.anyRefers_false.2 fun v hv => (List.mem_append.1 hv).elim (Val.anyRefers_false.1 h v) (Val.anyRefers_false.1 k v)

section

variable {g : Nat} {γ α β δ ε : Type} [EncL γ g] [Enc α] [Enc β] [Enc δ] [Enc ε]

/-- No pointer. -/
def shape0 (k : List Int → Option Effect) : List Val → List Val → Option Effect
  | ns, [] => match unints ns with
    | some l => k l
    | none => none
  | _, _ => none

/-- One pointer. -/
def shape1 (k : γ → α → List Int → Option Effect) : List Val → List Val → Option Effect
  | .ptr ⟨i, []⟩ :: ns, vs => if i = g then match vs.drop g with
      | [a] => match decL (vs.take g), dec a, unints ns with
        | some c, some x, some l => k c x l
        | _, _, _ => none
      | _ => none
    else none
  | _, _ => none

/-- Two pointers to different places. -/
def shape2 (k : γ → α → β → List Int → Option Effect) : List Val → List Val → Option Effect
  | .ptr ⟨i, []⟩ :: .ptr ⟨j, []⟩ :: ns, vs => if i = g ∧ j = g + 1 then match vs.drop g with
      | [a, b] => match decL (vs.take g), dec a, dec b, unints ns with
        | some c, some x, some y, some l => k c x y l
        | _, _, _, _ => none
      | _ => none
    else none
  | _, _ => none

/-- Three pointers to different places. -/
def shape3 (k : γ → α → β → δ → List Int → Option Effect) : List Val → List Val → Option Effect
  | .ptr ⟨i, []⟩ :: .ptr ⟨j, []⟩ :: .ptr ⟨m, []⟩ :: ns, vs => if i = g ∧ j = g + 1 ∧ m = g + 2 then match vs.drop g with
      | [a, b, d] => match decL (vs.take g), dec a, dec b, dec d, unints ns with
        | some c, some x, some y, some z, some l => k c x y z l
        | _, _, _, _, _ => none
      | _ => none
    else none
  | _, _ => none

/-- Four pointers to different places. -/
def shape4 (k : γ → α → β → δ → ε → List Int → Option Effect) : List Val → List Val → Option Effect
  | .ptr ⟨i, []⟩ :: .ptr ⟨j, []⟩ :: .ptr ⟨m, []⟩ :: .ptr ⟨n, []⟩ :: ns, vs =>
    if i = g ∧ j = g + 1 ∧ m = g + 2 ∧ n = g + 3 then match vs.drop g with
      | [a, b, d, e] => match decL (vs.take g), dec a, dec b, dec d, dec e, unints ns with
        | some c, some x, some y, some z, some u, some l => k c x y z u l
        | _, _, _, _, _, _ => none
      | _ => none
    else none
  | _, _ => none

/-- The element of the field in a place. -/
def feAt (vs : List Val) (i : Nat) : Option Fe := match vs[i]? with
  | some v => decFe v
  | none => none

/-- Two pointers to elements of the field, which may be the same. -/
def alias2 (op : Fe → Fe) : List Val → List Val → Option Effect
  | [.ptr ⟨i, []⟩, .ptr ⟨j, []⟩], vs => match feAt vs i, feAt vs j with
    | some _, some a => some ([(i, encFe (op a))], [])
    | _, _ => none
  | _, _ => none

/-- Three pointers to elements of the field, some of which may be the same. -/
def alias3 (op : Fe → Fe → Fe) : List Val → List Val → Option Effect
  | [.ptr ⟨i, []⟩, .ptr ⟨j, []⟩, .ptr ⟨m, []⟩], vs => match feAt vs i, feAt vs j, feAt vs m with
    | some _, some a, some b => some ([(i, encFe (op a b))], [])
    | _, _, _ => none
  | _, _ => none

/-- The summary is right: the function does what it says, whichever variables of the package are in use. -/
def Right (ω : Type) (g : Nat) (F : List Val → List Val → Option Effect) (f : Func) (n : Nat) : Prop :=
  ∀ g', g ≤ g' → ∀ args, Le (summary g F args : M ω (List Val)) ((interp (progs g') n).call pkg f args)

theorem Right.more {F : List Val → List Val → Option Effect} {f : Func} {n n' : Nat} (h : Right ω g F f n) (hn : n ≤ n') :
    Right ω g F f n' := fun g' hg args => (h g' hg args).trans ((interp_mono (.refl _) hn).call pkg f args)

theorem take_drop {g : Nat} {vs us ws : List Val} (h : vs.take g = us) (k : vs.drop g = ws) : vs = us ++ ws := by
  rw [← h, ← k, List.take_append_drop]

theorem shape0_right {k : List Int → Option Effect} {f : Func} {n : Nat}
    (plain : ∀ l e, k l = some e → e.Plain)
    (run : ∀ l e (w : ω), k l = some e →
      (interp (progs 0) n).call pkg f (ints l) ⟨[], 0, [], w⟩ = .ok e.2 ⟨setNth e.1 [], 0, [], w⟩) :
    Right ω 0 (shape0 k) f n := by
  have spec : ∀ as vs r, shape0 k as vs = some r → ∃ l, as = ints l ∧ vs = [] ∧ k l = some r := by
    intro as vs r h
    unfold shape0 at h
    split at h
    · split at h
      · next e => exact ⟨_, unints_some e, rfl, h⟩
      · cases h
    · cases h
  intro g' hg
  refine summary_le (progs_bare _) (progs_le hg) (progs_within _) ?_
  intro args as ρ vs ws rs w _ _ h
  obtain ⟨l, rfl, rfl, e⟩ := spec _ _ _ h
  refine ⟨⟨rfl, (plain _ _ e).writes, (plain _ _ e).results⟩, ?_⟩
  exact run l (ws, rs) w e

theorem shape1_right {k : γ → α → List Int → Option Effect} {f : Func} {n : Nat}
    (plain : ∀ c x l e, k c x l = some e → e.Plain)
    (run : ∀ c x l e (w : ω), k c x l = some e →
      (interp (progs g) n).call pkg f (P g :: ints l) ⟨encL c ++ [enc x], g + 1, [], w⟩ =
        .ok e.2 ⟨setNth e.1 (encL c ++ [enc x]), g + 1, [], w⟩) :
    Right ω g (shape1 k) f n := by
  have spec : ∀ as vs r, shape1 k as vs = some r → ∃ c x l, as = P g :: ints l ∧ vs = encL c ++ [enc x] ∧ k c x l = some r := by
    intro as vs r h
    unfold shape1 at h
    split at h
    · split at h
      · next hi =>
        subst hi
        split at h
        · next e0 =>
          split at h
          · next e1 e2 e3 =>
            refine ⟨_, _, _, by rw [unints_some e3], ?_, h⟩
            rw [← Enc.dec_some e2]
            exact take_drop (EncL.decL_some e1) e0
          · cases h
        · cases h
      · cases h
    · cases h
  intro g' hg
  refine summary_le (progs_bare _) (progs_le hg) (progs_within _) ?_
  intro args as ρ vs ws rs w _ _ h
  obtain ⟨c, x, l, rfl, rfl, e⟩ := spec _ _ _ h
  refine ⟨⟨anyRefers_append (EncL.plainL c) (by simp [Val.anyRefers, Enc.plain]), (plain _ _ _ _ e).writes, (plain _ _ _ _ e).results⟩, ?_⟩
  have := run c x l (ws, rs) w e
  rwa [show (encL c ++ [enc x]).length = g + 1 by simp [EncL.lengthL c]]

theorem shape2_right {k : γ → α → β → List Int → Option Effect} {f : Func} {n : Nat}
    (plain : ∀ c x y l e, k c x y l = some e → e.Plain)
    (run : ∀ c x y l e (w : ω), k c x y l = some e →
      (interp (progs g) n).call pkg f (P g :: P (g + 1) :: ints l) ⟨encL c ++ [enc x, enc y], g + 2, [], w⟩ =
        .ok e.2 ⟨setNth e.1 (encL c ++ [enc x, enc y]), g + 2, [], w⟩) :
    Right ω g (shape2 k) f n := by
  have spec : ∀ as vs r, shape2 k as vs = some r →
      ∃ c x y l, as = P g :: P (g + 1) :: ints l ∧ vs = encL c ++ [enc x, enc y] ∧ k c x y l = some r := by
    intro as vs r h
    unfold shape2 at h
    split at h
    · split at h
      · next hi =>
        obtain ⟨rfl, rfl⟩ := hi
        split at h
        · next e0 =>
          split at h
          · next e1 e2 e3 e4 =>
            refine ⟨_, _, _, _, by rw [unints_some e4], ?_, h⟩
            rw [← Enc.dec_some e2, ← Enc.dec_some e3]
            exact take_drop (EncL.decL_some e1) e0
          · cases h
        · cases h
      · cases h
    · cases h
  intro g' hg
  refine summary_le (progs_bare _) (progs_le hg) (progs_within _) ?_
  intro args as ρ vs ws rs w _ _ h
  obtain ⟨c, x, y, l, rfl, rfl, e⟩ := spec _ _ _ h
  refine ⟨⟨anyRefers_append (EncL.plainL c) (by simp [Val.anyRefers, Enc.plain]), (plain _ _ _ _ _ e).writes,
      (plain _ _ _ _ _ e).results⟩, ?_⟩
  have := run c x y l (ws, rs) w e
  rwa [show (encL c ++ [enc x, enc y]).length = g + 2 by simp [EncL.lengthL c]]

theorem shape3_right {k : γ → α → β → δ → List Int → Option Effect} {f : Func} {n : Nat}
    (plain : ∀ c x y z l e, k c x y z l = some e → e.Plain)
    (run : ∀ c x y z l e (w : ω), k c x y z l = some e →
      (interp (progs g) n).call pkg f (P g :: P (g + 1) :: P (g + 2) :: ints l) ⟨encL c ++ [enc x, enc y, enc z], g + 3, [], w⟩ =
        .ok e.2 ⟨setNth e.1 (encL c ++ [enc x, enc y, enc z]), g + 3, [], w⟩) :
    Right ω g (shape3 k) f n := by
  have spec : ∀ as vs r, shape3 k as vs = some r → ∃ c x y z l,
      as = P g :: P (g + 1) :: P (g + 2) :: ints l ∧ vs = encL c ++ [enc x, enc y, enc z] ∧ k c x y z l = some r := by
    intro as vs r h
    unfold shape3 at h
    split at h
    · split at h
      · next hi =>
        obtain ⟨rfl, rfl, rfl⟩ := hi
        split at h
        · next e0 =>
          split at h
          · next e1 e2 e3 e4 e5 =>
            refine ⟨_, _, _, _, _, by rw [unints_some e5], ?_, h⟩
            rw [← Enc.dec_some e2, ← Enc.dec_some e3, ← Enc.dec_some e4]
            exact take_drop (EncL.decL_some e1) e0
          · cases h
        · cases h
      · cases h
    · cases h
  intro g' hg
  refine summary_le (progs_bare _) (progs_le hg) (progs_within _) ?_
  intro args as ρ vs ws rs w _ _ h
  obtain ⟨c, x, y, z, l, rfl, rfl, e⟩ := spec _ _ _ h
  refine ⟨⟨anyRefers_append (EncL.plainL c) (by simp [Val.anyRefers, Enc.plain]), (plain _ _ _ _ _ _ e).writes,
      (plain _ _ _ _ _ _ e).results⟩, ?_⟩
  have := run c x y z l (ws, rs) w e
  rwa [show (encL c ++ [enc x, enc y, enc z]).length = g + 3 by simp [EncL.lengthL c]]

theorem shape4_right {k : γ → α → β → δ → ε → List Int → Option Effect} {f : Func} {n : Nat}
    (plain : ∀ c x y z u l e, k c x y z u l = some e → e.Plain)
    (run : ∀ c x y z u l e (w : ω), k c x y z u l = some e →
      (interp (progs g) n).call pkg f (P g :: P (g + 1) :: P (g + 2) :: P (g + 3) :: ints l)
        ⟨encL c ++ [enc x, enc y, enc z, enc u], g + 4, [], w⟩ =
        .ok e.2 ⟨setNth e.1 (encL c ++ [enc x, enc y, enc z, enc u]), g + 4, [], w⟩) :
    Right ω g (shape4 k) f n := by
  have spec : ∀ as vs r, shape4 k as vs = some r → ∃ c x y z u l,
      as = P g :: P (g + 1) :: P (g + 2) :: P (g + 3) :: ints l ∧ vs = encL c ++ [enc x, enc y, enc z, enc u] ∧
        k c x y z u l = some r := by
    intro as vs r h
    unfold shape4 at h
    split at h
    · split at h
      · next hi =>
        obtain ⟨rfl, rfl, rfl, rfl⟩ := hi
        split at h
        · next e0 =>
          split at h
          · next e1 e2 e3 e4 e5 e6 =>
            refine ⟨_, _, _, _, _, _, by rw [unints_some e6], ?_, h⟩
            rw [← Enc.dec_some e2, ← Enc.dec_some e3, ← Enc.dec_some e4, ← Enc.dec_some e5]
            exact take_drop (EncL.decL_some e1) e0
          · cases h
        · cases h
      · cases h
    · cases h
  intro g' hg
  refine summary_le (progs_bare _) (progs_le hg) (progs_within _) ?_
  intro args as ρ vs ws rs w _ _ h
  obtain ⟨c, x, y, z, u, l, rfl, rfl, e⟩ := spec _ _ _ h
  refine ⟨⟨anyRefers_append (EncL.plainL c) (by simp [Val.anyRefers, Enc.plain]), (plain _ _ _ _ _ _ _ e).writes,
      (plain _ _ _ _ _ _ _ e).results⟩, ?_⟩
  have := run c x y z u l (ws, rs) w e
  rwa [show (encL c ++ [enc x, enc y, enc z, enc u]).length = g + 4 by simp [EncL.lengthL c]]

end

theorem encFe_plain (f : Fe) : (encFe f).refers 0 = false := rfl

theorem canon_nil {args : List Val} {ρ ρ' : List Loc} (h : canon args ρ = some ([], ρ')) : ρ' = ρ := by
  cases args with
  | nil => cases h; rfl
  | cons v vs =>
    cases v <;> simp only [canon] at h <;> try cases h
    · split at h <;> cases h
    · split at h
      · split at h <;> cases h
      · split at h <;> cases h

theorem canon_ptr {args as : List Val} {i : Nat} {ρ ρ' : List Loc} (h : canon args ρ = some (.ptr ⟨i, []⟩ :: as, ρ')) :
    ∃ vs σ, canon vs σ = some (as, ρ') ∧ (i < ρ.length ∧ σ.length = ρ.length ∨ i = ρ.length ∧ σ.length = ρ.length + 1) := by
  cases args with
  | nil => cases h
  | cons v vs =>
    cases v <;> simp only [canon] at h <;> try cases h
    · split at h <;> cases h
    · split at h
      · next hi =>
        split at h
        · next e =>
          cases h
          exact ⟨_, _, e, .inl ⟨(List.findIdx?_eq_some_iff_getElem.1 hi).1, rfl⟩⟩
        · cases h
      · split at h
        · next e =>
          cases h
          exact ⟨_, _, e, .inr ⟨rfl, by simp⟩⟩
        · cases h

theorem canon_two {args : List Val} {i j : Nat} {ρ : List Loc}
    (h : canon args [] = some ([.ptr ⟨i, []⟩, .ptr ⟨j, []⟩], ρ)) :
    i = 0 ∧ j = 0 ∧ ρ.length = 1 ∨ i = 0 ∧ j = 1 ∧ ρ.length = 2 := by
  obtain ⟨vs, σ, h, e⟩ := canon_ptr h
  obtain ⟨vs', σ', h, e'⟩ := canon_ptr h
  cases canon_nil h
  simp only [List.length_nil] at e
  omega

theorem canon_three {args : List Val} {i j m : Nat} {ρ : List Loc}
    (h : canon args [] = some ([.ptr ⟨i, []⟩, .ptr ⟨j, []⟩, .ptr ⟨m, []⟩], ρ)) :
    i = 0 ∧ j = 0 ∧ m = 0 ∧ ρ.length = 1 ∨ i = 0 ∧ j = 0 ∧ m = 1 ∧ ρ.length = 2 ∨ i = 0 ∧ j = 1 ∧ m = 0 ∧ ρ.length = 2 ∨
      i = 0 ∧ j = 1 ∧ m = 1 ∧ ρ.length = 2 ∨ i = 0 ∧ j = 1 ∧ m = 2 ∧ ρ.length = 3 := by
  obtain ⟨vs, σ, h, e⟩ := canon_ptr h
  obtain ⟨vs', σ', h, e'⟩ := canon_ptr h
  obtain ⟨vs'', σ'', h, e''⟩ := canon_ptr h
  cases canon_nil h
  simp only [List.length_nil] at e
  rcases e with ⟨e, _⟩ | ⟨rfl, e⟩
  · omega
  rw [e] at e'
  rcases e' with ⟨e', e1⟩ | ⟨rfl, e1⟩ <;> rw [e1] at e'' <;> rcases e'' with ⟨e'', e2⟩ | ⟨rfl, e2⟩ <;> rw [e2]
  · exact .inl ⟨rfl, by omega, by omega, by omega⟩
  · exact .inr (.inl ⟨rfl, by omega, by omega, by omega⟩)
  · have : m = 0 ∨ m = 1 := by omega
    rcases this with rfl | rfl
    · exact .inr (.inr (.inl ⟨rfl, rfl, rfl, rfl⟩))
    · exact .inr (.inr (.inr (.inl ⟨rfl, rfl, rfl, rfl⟩)))
  · exact .inr (.inr (.inr (.inr ⟨rfl, rfl, rfl, rfl⟩)))

theorem feAt_lt {vs : List Val} {i : Nat} {a : Fe} (h : feAt vs i = some a) : vs[i]? = some (encFe a) := by
  unfold feAt at h
  split at h
  · next e => rw [e, decFe_some h]
  · cases h

theorem alias2_right {op : Fe → Fe} {f : Func} {n : Nat}
    (run1 : ∀ a (w : ω), (interp (progs 0) n).call pkg f [P 0, P 0] ⟨[encFe a], 1, [], w⟩ = .ok [] ⟨[encFe (op a)], 1, [], w⟩)
    (run2 : ∀ h a (w : ω), (interp (progs 0) n).call pkg f [P 0, P 1] ⟨[encFe h, encFe a], 2, [], w⟩ =
      .ok [] ⟨[encFe (op a), encFe a], 2, [], w⟩) :
    Right ω 0 (alias2 op) f n := by
  intro g' hg
  refine summary_le (progs_bare _) (progs_le hg) (progs_within _) ?_
  intro args as ρ vs ws rs w hc len h
  unfold alias2 at h
  split at h
  · split at h
    · next a b e1 e2 =>
      cases h
      have e1 := feAt_lt e1
      have e2 := feAt_lt e2
      rcases canon_two hc with ⟨rfl, rfl, h'⟩ | ⟨rfl, rfl, h'⟩ <;> rw [len] at h'
      · match vs, h' with
        | [v], _ =>
          simp only [List.getElem?_cons_zero, Option.some.injEq] at e1 e2
          subst e2
          exact ⟨⟨rfl, rfl, rfl⟩, run1 _ _⟩
      · match vs, h' with
        | [v, v'], _ =>
          simp only [List.getElem?_cons_zero, List.getElem?_cons_succ, Option.some.injEq] at e1 e2
          subst e1 e2
          exact ⟨⟨rfl, rfl, rfl⟩, run2 _ _ _⟩
    · cases h
  · cases h

theorem alias3_right {op : Fe → Fe → Fe} {f : Func} {n : Nat}
    (run1 : ∀ a (w : ω), (interp (progs 0) n).call pkg f [P 0, P 0, P 0] ⟨[encFe a], 1, [], w⟩ =
      .ok [] ⟨[encFe (op a a)], 1, [], w⟩)
    (run2 : ∀ a b (w : ω), (interp (progs 0) n).call pkg f [P 0, P 0, P 1] ⟨[encFe a, encFe b], 2, [], w⟩ =
      .ok [] ⟨[encFe (op a b), encFe b], 2, [], w⟩)
    (run3 : ∀ a b (w : ω), (interp (progs 0) n).call pkg f [P 0, P 1, P 0] ⟨[encFe b, encFe a], 2, [], w⟩ =
      .ok [] ⟨[encFe (op a b), encFe a], 2, [], w⟩)
    (run4 : ∀ h a (w : ω), (interp (progs 0) n).call pkg f [P 0, P 1, P 1] ⟨[encFe h, encFe a], 2, [], w⟩ =
      .ok [] ⟨[encFe (op a a), encFe a], 2, [], w⟩)
    (run5 : ∀ h a b (w : ω), (interp (progs 0) n).call pkg f [P 0, P 1, P 2] ⟨[encFe h, encFe a, encFe b], 3, [], w⟩ =
      .ok [] ⟨[encFe (op a b), encFe a, encFe b], 3, [], w⟩) :
    Right ω 0 (alias3 op) f n := by
  intro g' hg
  refine summary_le (progs_bare _) (progs_le hg) (progs_within _) ?_
  intro args as ρ vs ws rs w hc len h
  unfold alias3 at h
  split at h
  · split at h
    · next x a b e1 e2 e3 =>
      cases h
      have e1 := feAt_lt e1
      have e2 := feAt_lt e2
      have e3 := feAt_lt e3
      have inj : ∀ {a b : Fe}, encFe a = encFe b → a = b := by
        intro a b h
        exact Option.some.inj (congrArg decFe h)
      rcases canon_three hc with ⟨rfl, rfl, rfl, h'⟩ | ⟨rfl, rfl, rfl, h'⟩ | ⟨rfl, rfl, rfl, h'⟩ | ⟨rfl, rfl, rfl, h'⟩ |
        ⟨rfl, rfl, rfl, h'⟩ <;> rw [len] at h'
      · match vs, h' with
        | [v], _ =>
          simp only [List.getElem?_cons_zero, Option.some.injEq] at e1 e2 e3
          subst e2
          cases inj e3
          exact ⟨⟨rfl, rfl, rfl⟩, run1 _ _⟩
      · match vs, h' with
        | [v, v'], _ =>
          simp only [List.getElem?_cons_zero, List.getElem?_cons_succ, Option.some.injEq] at e1 e2 e3
          subst e2 e3
          exact ⟨⟨rfl, rfl, rfl⟩, run2 _ _ _⟩
      · match vs, h' with
        | [v, v'], _ =>
          simp only [List.getElem?_cons_zero, List.getElem?_cons_succ, Option.some.injEq] at e1 e2 e3
          subst e2 e3
          exact ⟨⟨rfl, rfl, rfl⟩, run3 _ _ _⟩
      · match vs, h' with
        | [v, v'], _ =>
          simp only [List.getElem?_cons_zero, List.getElem?_cons_succ, Option.some.injEq] at e1 e2 e3
          subst e1 e2
          cases inj e3
          exact ⟨⟨rfl, rfl, rfl⟩, run4 _ _ _⟩
      · match vs, h' with
        | [v, v', v''], _ =>
          simp only [List.getElem?_cons_zero, List.getElem?_cons_succ, Option.some.injEq] at e1 e2 e3
          subst e1 e2 e3
          exact ⟨⟨rfl, rfl, rfl⟩, run5 _ _ _ _⟩
    · cases h
  · cases h

end Verif.Src.EdSrc
