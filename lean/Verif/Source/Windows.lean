/-
Summaries of functions whose arguments are integers and pointers: what they do to the places their arguments point to.
-/
import Verif.Source.Summary

namespace Verif.Src

open M (stuck)

variable {ω : Type}

/-- Number the places that arguments point to, equal places getting the same number: arguments with pointers to blocks
instead, and the places in order. -/
def canon : List Val → List Loc → Option (List Val × List Loc)
  | [], ρ => some ([], ρ)
  | .ptr l :: vs, ρ => match ρ.findIdx? fun m => m = l with
    | some i => match canon vs ρ with
      | some (as, ρ') => some (.ptr ⟨i, []⟩ :: as, ρ')
      | none => none
    | none => match canon vs (ρ ++ [l]) with
      | some (as, ρ') => some (.ptr ⟨ρ.length, []⟩ :: as, ρ')
      | none => none
  | .int t a :: vs, ρ => match canon vs ρ with
    | some (as, ρ') => some (.int t a :: as, ρ')
    | none => none
  | _ :: _, _ => none

/-- No two of the places have a part in common. -/
def allApart : List Loc → Bool
  | [] => true
  | l :: ls => ls.all (fun m => l.disjoint m) && allApart ls

/-- The contents of places. -/
def getAll (m : List Val) : List Loc → Option (List Val)
  | [] => some []
  | l :: ls => match l.get m with
    | some v => match getAll m ls with
      | some vs => some (v :: vs)
      | none => none
    | none => none

/-- Write to some of the places, given by their numbers. -/
def writeNth (ρ : List Loc) : List (Nat × Val) → List Val → Option (List Val)
  | [], m => some m
  | (i, v) :: ws, m => match ρ[i]? with
    | some l => match l.set m v with
      | some m' => writeNth ρ ws m'
      | none => none
    | none => none

/-- Change some of the values of a list. -/
def setNth : List (Nat × Val) → List Val → List Val
  | [], vs => vs
  | (i, v) :: ws, vs => setNth ws (vs.set i v)

/-- The first `g` blocks, which hold the variables of packages. -/
def firstBlocks (g : Nat) : List Loc := (List.range g).map fun i => ⟨i, []⟩

/-- What a function does: from its arguments and the contents of the places they point to, the new contents of some of
the places and the results. The first `g` places are variables of packages. -/
def summary (g : Nat) (F : List Val → List Val → Option (List (Nat × Val) × List Val)) (args : List Val) : M ω (List Val) := fun s =>
  match canon args (firstBlocks g) with
  | some (as, ρ) => if allApart ρ then match getAll s.mem ρ with
      | some vs => match F as vs with
        | some (ws, rs) => match writeNth ρ ws s.mem with
          | some m => .ok rs { s with mem := m }
          | none => .stuck
        | none => .stuck
      | none => .stuck
    else .stuck
  | none => .stuck

theorem allApart_iff (ρ : List Loc) : allApart ρ = true ↔ ρ.Pairwise fun l m => l.disjoint m = true := by
  induction ρ with
  | nil => simp [allApart]
  | cons l ρ ih => simp [allApart, ih]

theorem getAll_length {m : List Val} {ρ : List Loc} {vs : List Val} (h : getAll m ρ = some vs) : ρ.length = vs.length := by
  induction ρ generalizing vs with
  | nil => cases h; rfl
  | cons l ρ ih =>
    unfold getAll at h
    split at h
    · split at h
      · next e => cases h; simp [ih e]
      · cases h
    · cases h

theorem getAll_get {m : List Val} {ρ : List Loc} {vs : List Val} (h : getAll m ρ = some vs) :
    ∀ b ∈ ρ.zip vs, b.1.get m = some b.2 := by
  induction ρ generalizing vs with
  | nil => cases h; simp
  | cons l ρ ih =>
    unfold getAll at h
    split at h
    · next e1 =>
      split at h
      · next e =>
        cases h
        intro b hb
        rw [List.zip_cons_cons] at hb
        rcases List.mem_cons.1 hb with rfl | hb
        · exact e1
        · exact ih e b hb
      · cases h
    · cases h

theorem setNth_length (ws : List (Nat × Val)) (vs : List Val) : (setNth ws vs).length = vs.length := by
  induction ws generalizing vs with
  | nil => rfl
  | cons w ws ih => obtain ⟨i, v⟩ := w; rw [setNth, ih, List.length_set]

theorem Val.anyRefers_false {b : Nat} {vs : List Val} : Val.anyRefers b vs = false ↔ ∀ v ∈ vs, v.refers b = false := by
  induction vs with
  | nil => simp [Val.anyRefers]
  | cons v vs ih => simp [Val.anyRefers, ih]

theorem setNth_plain {ws : List (Nat × Val)} {vs : List Val} (h : Val.anyRefers 0 vs = false)
    (k : Val.anyRefers 0 (ws.map (·.2)) = false) : Val.anyRefers 0 (setNth ws vs) = false := by
  induction ws generalizing vs with
  | nil => exact h
  | cons w ws ih =>
    obtain ⟨i, v⟩ := w
    rw [List.map_cons, Val.anyRefers, Bool.or_eq_false_iff] at k
    refine ih (Val.anyRefers_false.2 fun u hu => ?_) k.2
    rcases List.mem_or_eq_of_mem_set hu with hu | rfl
    · exact Val.anyRefers_false.1 h u hu
    · exact k.1

/-- Writing to some of the places is writing to all of them, most with what is there already. -/
theorem writeNth_eq {M w w' : List Val} {ρ : List Loc} {vs : List Val} {ws : List (Nat × Val)}
    (ap : ρ.Pairwise fun l m => l.disjoint m = true) (len : ρ.length = vs.length) (h : writeAll M (ρ.zip vs) = some w)
    (k : writeNth ρ ws w = some w') : writeAll M (ρ.zip (setNth ws vs)) = some w' := by
  induction ws generalizing w vs with
  | nil => cases k; exact h
  | cons b ws ih =>
    obtain ⟨i, v⟩ := b
    unfold writeNth at k
    split at k
    · next l e =>
      split at k
      · next m' e' =>
        have hi : i < vs.length := len ▸ (List.getElem?_eq_some_iff.1 e).1
        obtain ⟨w2, x, y⟩ := Emb.zip_set ap h e (List.getElem?_eq_getElem hi) v
        rw [e'] at x
        cases x
        exact ih (by rw [List.length_set]; exact len) y k
      · cases k
    · cases k

theorem canon_prefix {args as : List Val} {ρ ρ' : List Loc} (h : canon args ρ = some (as, ρ')) : ∃ σ, ρ' = ρ ++ σ := by
  induction args generalizing ρ as with
  | nil => cases h; exact ⟨[], by simp⟩
  | cons v vs ih =>
    cases v <;> simp only [canon] at h <;> try cases h
    · split at h
      · next e => cases h; exact ih e
      · cases h
    · split at h
      · split at h
        · next e => cases h; exact ih e
        · cases h
      · split at h
        · next e => cases h; obtain ⟨σ, rfl⟩ := ih e; exact ⟨_, List.append_assoc _ _ _⟩
        · cases h

theorem canon_ren {args as : List Val} {ρ ρ' : List Loc} (h : canon args ρ = some (as, ρ')) (m : List Val) :
    (⟨m, ρ'⟩ : Emb).renVs as = args := by
  induction args generalizing ρ as with
  | nil => cases h; rfl
  | cons v vs ih =>
    cases v <;> simp only [canon] at h <;> try cases h
    · split at h
      · next e => cases h; rw [Emb.renVs, ih e, Emb.renV]
      · cases h
    · next l =>
      split at h
      · next i hi =>
        split at h
        · next e =>
          cases h
          obtain ⟨hl, he, _⟩ := List.findIdx?_eq_some_iff_getElem.1 hi
          obtain ⟨σ, rfl⟩ := canon_prefix e
          rw [Emb.renVs, ih e, Emb.renV]
          have e1 : (ρ ++ σ)[i]? = some l := by
            rw [List.getElem?_append_left hl, List.getElem?_eq_getElem hl]
            simpa using he
          rw [Emb.ren_win (E := ⟨m, ρ ++ σ⟩) (l := ⟨i, []⟩) e1]
          simp
        · cases h
      · split at h
        · next e =>
          cases h
          obtain ⟨σ, rfl⟩ := canon_prefix e
          rw [Emb.renVs, ih e, Emb.renV]
          have e1 : (ρ ++ [l] ++ σ)[ρ.length]? = some l := by simp
          rw [Emb.ren_win (E := ⟨m, ρ ++ [l] ++ σ⟩) (l := ⟨ρ.length, []⟩) e1]
          simp
        · cases h

/-- The variables of packages that are in use are among the first `g` blocks. -/
def Prog.Within (P : Prog ω) (g : Nat) : Prop :=
  ∀ p x b, P.global p x = some b → b = .hidden ∨ ∃ i, i < g ∧ b = .var ⟨i, []⟩

/-- A summary is right if the function does on a few blocks what the summary says. -/
theorem summary_le {P Q : Prog ω} (b : P.Bare) (l : P.Le Q) {g : Nat} (wi : P.Within g) {n : Nat} {p : Id} {f : Func}
    {F : List Val → List Val → Option (List (Nat × Val) × List Val)}
    (ok : ∀ args as ρ vs ws rs w, canon args (firstBlocks g) = some (as, ρ) → ρ.length = vs.length →
      F as vs = some (ws, rs) →
      (Val.anyRefers 0 vs = false ∧ Val.anyRefers 0 (ws.map (·.2)) = false ∧ Val.anyRefers 0 rs = false) ∧
      (interp P n).call p f as ⟨vs, vs.length, [], w⟩ = .ok rs ⟨setNth ws vs, vs.length, [], w⟩)
    (args : List Val) : Le (summary g F args) ((interp Q n).call p f args) := by
  refine Le.trans (fun s => ?_) ((interp_mono l (Nat.le_refl n)).call p f args)
  unfold summary
  split
  · next as ρ hc =>
    split
    · next ha =>
      rw [allApart_iff] at ha
      split
      · next vs hv =>
        split
        · next ws rs hF =>
          split
          · next m hm =>
            right
            have len := getAll_length hv
            obtain ⟨⟨p1, p2, p3⟩, run⟩ := ok _ _ _ _ _ _ s.world hc len hF
            have pl' := setNth_plain p1 p2
            obtain ⟨m', h1, h2⟩ := call_anywhere b run p1 pl' p3 (setNth_length _ _) len ha
              (getAll_get hv) (by
                intro q x bd hb
                rcases wi q x bd hb with rfl | ⟨i, hi, rfl⟩
                · rfl
                · obtain ⟨σ, rfl⟩ := canon_prefix hc
                  rw [Emb.renB, Emb.ren_win (E := ⟨s.mem, firstBlocks g ++ σ⟩) (l := ⟨i, []⟩) (w := ⟨i, []⟩)
                    (by rw [List.getElem?_append_left (by simpa [firstBlocks] using hi)]; simp [firstBlocks, hi])]
                  rfl)
            rw [writeNth_eq ha len (writeAll_self (getAll_get hv)) hm] at h1
            cases h1
            rw [canon_ren hc] at h2
            exact h2
          · exact .inl rfl
        · exact .inl rfl
      · exact .inl rfl
    · exact .inl rfl
  · exact .inl rfl

end Verif.Src
