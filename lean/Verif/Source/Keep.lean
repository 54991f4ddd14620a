/-
Calls that leave the places they are given as they are, in any memory; and summaries of calls by name.
-/
import Verif.Source.KeyBox
import Verif.Source.CryptoSeal

namespace Verif.Src

variable {ω : Type}

theorem Agrees.mono {α σ β : Type} {o : Res α × σ} {world : σ → ω} {ok ok' : α → σ → R ω β → Prop}
    {err err' : GoErr → σ → R ω β → Prop} {r : R ω β} (h : Agrees o world ok err r) (h1 : ∀ a s, ok a s r → ok' a s r)
    (h2 : ∀ e s, err e s r → err' e s r) : Agrees o world ok' err' r := by
  rcases o with ⟨a | e | _ | _ | _, s⟩
  · exact h1 _ _ h
  · exact h2 _ _ h
  · exact h
  · exact h
  · exact h

theorem writeAll_same {m : List Val} {ρ : List Loc} {vs : List Val} (h : getAll m ρ = some vs) : writeAll m (ρ.zip vs) = some m := by
  induction ρ generalizing vs with
  | nil => cases h; rfl
  | cons l ρ ih =>
    unfold getAll at h
    split at h
    · next v hv =>
      split at h
      · next us hu =>
        cases h
        rw [List.zip_cons_cons, writeAll, Loc.set_get hv]
        exact ih hu
      · cases h
    · cases h

/-- What a call that only adds blocks does beside the variables of the package, it does in any memory. -/
theorem carry_keep (S : Sys ω) {α σ : Type} {n m : Nat} (hn : n ≤ m) {p : Id} {f : Func} {args us : List Val} {s : St ω} {ρ : List Loc} {v0 v1 : Val}
    {o : Res α × σ} {world : σ → ω} {Q : α → List Val → List Val → Prop} {Q' : GoErr → List Val → List Val → Prop}
    (G : Globals s v0 v1) (own : ∀ l ∈ ρ, 2 ≤ l.blk) (apart : ρ.Pairwise fun l m => l.disjoint m = true)
    (get : getAll s.mem ρ = some ((beside s ρ).renVs us))
    (h : Agrees o world (fun a t r => ∃ rs new, Q a rs new ∧ r = .ok rs ⟨v0 :: v1 :: us ++ new, us.length + 2, [], world t⟩)
      (fun e t r => ∃ rs new, Q' e rs new ∧ r = .ok rs ⟨v0 :: v1 :: us ++ new, us.length + 2, [], world t⟩)
      ((interp (repo S) n).call p f args ⟨v0 :: v1 :: us, us.length + 2, [], s.world⟩)) :
    Ends s.defers o world
      (fun a t r => ∃ rs new, Q a rs new ∧ r = .ok ((beside s ρ).renVs rs) ⟨s.mem ++ (beside s ρ).renVs new, s.base, s.defers, world t⟩)
      (fun e t r => ∃ rs new, Q' e rs new ∧ r = .ok ((beside s ρ).renVs rs) ⟨s.mem ++ (beside s ρ).renVs new, s.base, s.defers, world t⟩)
      ((interp (repo S) m).call p f ((beside s ρ).renVs args) s) := by
  have len : us.length = ρ.length := by rw [getAll_length get, Emb.renVs_length]
  refine (carry S hn G own apart get h).mono ?_ ?_
  · rintro a t ⟨r0, ⟨rs, new, q, rfl⟩, k⟩
    obtain ⟨M, k1, k2⟩ := k _ us new _ _ _ rfl len
    rw [writeAll_same get] at k1
    cases k1
    exact ⟨rs, new, q, k2⟩
  · rintro a t ⟨r0, ⟨rs, new, q, rfl⟩, k⟩
    obtain ⟨M, k1, k2⟩ := k _ us new _ _ _ rfl len
    rw [writeAll_same get] at k1
    cases k1
    exact ⟨rs, new, q, k2⟩

/-- A call of a function or method of the repository, by its names. -/
abbrev Calls (ω : Type) := List (Id × Id × (List Val → M ω (List Val)))

def Calls.find (c : Calls ω) (p x : Id) : Option (List Val → M ω (List Val)) :=
  match c with
  | [] => none
  | (q, y, F) :: c => if p = q ∧ x = y then some F else Calls.find c p x

/-- These summaries. -/
def knownK (fs ms : Calls ω) : Known ω where
  func p x := fs.find p x
  method t m := ms.find t m

theorem Calls.find_mem {c : Calls ω} {p x : Id} {F} (h : c.find p x = some F) : (p, x, F) ∈ c := by
  induction c with
  | nil => cases h
  | cons a c ih =>
    obtain ⟨q, y, G⟩ := a
    unfold Calls.find at h
    split at h
    · next e =>
      obtain ⟨rfl, rfl⟩ := e
      cases h
      exact List.mem_cons_self
    · exact List.mem_cons_of_mem _ (ih h)

theorem knownK_sound {P : Prog ω} {k : Nat} {fs ms : Calls ω}
    (hf : ∀ t ∈ fs, ∃ g f, P.pkgs.lookup t.1 = some g ∧ g.funcs.lookup t.2.1 = some f ∧ ∀ vs, Le (t.2.2 vs) ((interp P k).call t.1 f vs))
    (hm : ∀ t ∈ ms, ∃ q f, P.methods.lookup (t.1, t.2.1) = some (q, f) ∧ ∀ vs, Le (t.2.2 vs) ((interp P k).call q f vs)) :
    (knownK fs ms).Sound P k where
  func _ _ _ h := hf _ (Calls.find_mem h)
  method _ _ _ h := hm _ (Calls.find_mem h)

end Verif.Src
