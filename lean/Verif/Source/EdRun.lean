/-
Calls of the functions of edwards25519 at any places in any memory.
-/
import Verif.Source.EdInit

namespace Verif.Src.EdSrc

open Verif.Ed

variable {ω : Type}

/-- The variables of the package have their initial values. -/
def Ready (s : St ω) : Prop := s.mem.take 8 = initial

/-- A place that is not part of a variable of the package. -/
def Loc.own (l : Loc) : Prop := 8 ≤ l.blk

/-- The state after a place has been overwritten, everything else being as before. -/
def Wrote (s : St ω) (l : Loc) (v : Val) (s' : St ω) : Prop := ∃ m, l.set s.mem v = some m ∧ s' = { s with mem := m }

/-- How an array of bytes is stored. -/
def encBytes {n : Nat} (a : Arr n) : Val := .arr (a.toList.map fun b => .int .uint8 b.toNat)

theorem encBytes_eq {n : Nat} (a : Arr n) : encBytes a = encInts .uint8 n (intsOf a) := by
  unfold encBytes encInts
  have := congrArg (List.map (Val.int .uint8 ·)) (intsOf_map a)
  rw [List.map_map, List.map_map] at this
  exact congrArg Val.arr this.symm

theorem intsIn_map (t : ITy) (l : List Int) : intsIn t (l.map (.int t ·)) = some l := by
  induction l with
  | nil => rfl
  | cons a l ih => simp [intsIn, ih]

theorem decBytes {n : Nat} (a : Arr n) : decInts .uint8 n (encBytes a) = some (intsOf a) := by
  rw [encBytes_eq]
  unfold decInts encInts
  have : (List.range n).map (fun i => Val.int .uint8 (intsOf a i)) = ((List.range n).map (intsOf a)).map (.int .uint8 ·) := by simp
  simp only [this, intsIn_map, List.length_map, List.length_range, if_true]
  congr 1
  funext i
  rw [List.getD_eq_getElem?_getD, List.getElem?_map]
  by_cases h : i < n
  · rw [List.getElem?_range h]; rfl
  · rw [List.getElem?_eq_none (by simpa using h)]
    unfold intsOf
    rw [List.getD_eq_getElem?_getD, List.getElem?_eq_none (by simpa using h)]
    rfl

theorem decB {n : Nat} (a : Arr n) : (dec (encBytes a) : Option (Ints .uint8 n)) = some (intsOf a) := decBytes a

theorem encInts_congr {t : ITy} {n : Nat} {a b : Nat → Int} (h : ∀ i < n, a i = b i) : encInts t n a = encInts t n b := by
  unfold encInts
  congr 1
  refine List.map_congr_left ?_
  intro i hi
  rw [h i (List.mem_range.1 hi)]

theorem decAll_map {α : Type} {dec : Val → Option α} {enc : α → Val} (h : ∀ a, dec (enc a) = some a) (l : List α) :
    decAll dec (l.map enc) = some l := by
  induction l with
  | nil => rfl
  | cons a l ih => simp [decAll, h, ih]

/-! ### The arguments are different places -/

theorem canon_ints (l : List Int) (ρ : List Loc) : canon (ints l) ρ = some (ints l, ρ) := by
  induction l with
  | nil => rfl
  | cons a l ih =>
    show canon (.int .int32 a :: ints l) ρ = _
    unfold canon
    rw [ih]
    rfl

theorem canon_new {ρ : List Loc} (l : List Int) : ∀ {ρ0 : List Loc}, (ρ0 ++ ρ).Nodup →
    canon (ρ.map .ptr ++ ints l) ρ0 = some ((List.range' ρ0.length ρ.length).map (fun i => P i) ++ ints l, ρ0 ++ ρ) := by
  induction ρ with
  | nil => intro ρ0 _; simp [canon_ints]
  | cons p ρ ih =>
    intro ρ0 h
    have hp : p ∉ ρ0 := by
      intro hp
      exact (List.nodup_append.1 h).2.2 p hp p (by simp) rfl
    have hf : ρ0.findIdx? (fun m => m = p) = none := by
      rw [List.findIdx?_eq_none_iff]
      intro x hx
      simp only [decide_eq_false_iff_not]
      intro e
      exact hp (e ▸ hx)
    have h' : ((ρ0 ++ [p]) ++ ρ).Nodup := by simpa using h
    show canon (.ptr p :: (ρ.map .ptr ++ ints l)) ρ0 = _
    unfold canon
    rw [hf]
    simp only [ih h']
    simp [List.range'_succ]

theorem apart_of {ρ : List Loc} {g : Nat} (h : allApart ρ = true) (far : ∀ p ∈ ρ, g ≤ p.blk) :
    allApart (firstBlocks g ++ ρ) = true := by
  rw [allApart_iff, List.pairwise_append]
  refine ⟨?_, (allApart_iff ρ).1 h, ?_⟩
  · unfold firstBlocks
    rw [List.pairwise_map]
    refine List.nodup_range.imp ?_
    intro a b hab
    rw [Loc.disjoint_iff]
    exact .inl hab
  · intro p hp q hq
    obtain ⟨i, hi, rfl⟩ := List.mem_map.1 hp
    have h1 := List.mem_range.1 hi
    have h2 := far q hq
    rw [Loc.disjoint_iff]
    exact .inl (by simp only; omega)

theorem diverge_irrefl (p : List Sel) : diverge p p = false := by
  induction p with
  | nil => rfl
  | cons x p ih => simp [diverge, ih]

theorem nodup_of_apart {ρ : List Loc} (h : allApart ρ = true) : ρ.Nodup := by
  refine ((allApart_iff ρ).1 h).imp ?_
  intro p q hpq e
  subst e
  rw [Loc.disjoint_iff] at hpq
  rcases hpq with h | ⟨-, h⟩
  · exact h rfl
  · rw [diverge_irrefl] at h; cases h

theorem getAll_blocks (m : List Val) (n : Nat) : ∀ k, k + n ≤ m.length →
    getAll m ((List.range' k n).map fun i => ⟨i, []⟩) = some ((m.drop k).take n) := by
  induction n with
  | zero => intro k _; rfl
  | succ n ih =>
    intro k h
    have hk : k < m.length := by omega
    rw [List.range'_succ, List.map_cons]
    unfold getAll
    have e : Loc.get m ⟨k, []⟩ = some m[k] := by
      unfold Loc.get
      rw [List.getElem?_eq_getElem hk]
      rfl
    rw [e, ih (k + 1) (by omega)]
    simp only
    rw [List.drop_eq_getElem_cons hk, List.take_succ_cons]

theorem getAll_first {m vs : List Val} {g : Nat} (h : m.take g = vs) (hv : vs.length = g) : getAll m (firstBlocks g) = some vs := by
  unfold firstBlocks
  rw [List.range_eq_range', getAll_blocks m g 0, List.drop_zero, h]
  have := congrArg List.length h
  rw [List.length_take] at this
  omega

theorem getAll_append {m : List Val} {ρ σ : List Loc} {vs us : List Val} (h : getAll m ρ = some vs) (k : getAll m σ = some us) :
    getAll m (ρ ++ σ) = some (vs ++ us) := by
  induction ρ generalizing vs with
  | nil => cases h; exact k
  | cons l ρ ih =>
    unfold getAll at h
    split at h
    · next v e =>
      split at h
      · next ws e' =>
        cases h
        rw [List.cons_append]
        unfold getAll
        rw [e, ih e']
        rfl
      · cases h
    · cases h

theorem getAll_mem {m : List Val} {ρ : List Loc} {vs : List Val} (h : getAll m ρ = some vs) {l : Loc} (hl : l ∈ ρ) :
    ∃ v, l.get m = some v := by
  have len := getAll_length h
  obtain ⟨i, hi, rfl⟩ := List.getElem_of_mem hl
  refine ⟨vs[i]'(len ▸ hi), getAll_get h (ρ[i], vs[i]'(len ▸ hi)) ?_⟩
  rw [List.mem_iff_getElem]
  exact ⟨i, by simp; omega, by simp⟩

/-- A call of a function that overwrites one of its arguments, the arguments being places apart from each other. -/
theorem run_one {g : Nat} {F : List Val → List Val → Option Effect} {f : Func} {n : Nat} (right : Right ω g F f n) (hg : g ≤ 8)
    {s : St ω} (ready : Ready s) {ρ : List Loc} {vs rs : List Val} {l : List Int} {p : Loc} {k : Nat} {v : Val}
    (apart : allApart ρ = true) (own : ∀ q ∈ ρ, Loc.own q) (hget : getAll s.mem ρ = some vs)
    (hF : F ((List.range' g ρ.length).map (fun i => P i) ++ ints l) (initial.take g ++ vs) = some ([(g + k, v)], rs))
    (hp : ρ[k]? = some p) :
    ∃ s', Wrote s p v s' ∧ ∀ n', n ≤ n' → (interp prog n').call pkg f (ρ.map .ptr ++ ints l) s = .ok rs s' := by
  have far : ∀ q ∈ ρ, g ≤ q.blk := fun q hq => Nat.le_trans hg (own q hq)
  have all := apart_of (g := g) apart far
  have len : (firstBlocks g).length = g := by simp [firstBlocks]
  have hc := canon_new (ρ := ρ) l (nodup_of_apart all)
  have h8 : initial.length = 8 := rfl
  have hfirst : s.mem.take g = initial.take g := by
    rw [← ready, List.take_take, Nat.min_eq_left hg]
  have hall := getAll_append (getAll_first hfirst (by rw [List.length_take]; omega)) hget
  obtain ⟨u, hu⟩ := getAll_mem hget (List.mem_of_getElem? hp)
  obtain ⟨m, hm⟩ := Loc.set_of_get hu v
  have hw : writeNth (firstBlocks g ++ ρ) [(g + k, v)] s.mem = some m := by
    unfold writeNth
    rw [List.getElem?_append_right (by omega), len, Nat.add_sub_cancel_left, hp]
    simp only [hm]
    rfl
  refine ⟨{ s with mem := m }, ⟨m, hm, rfl⟩, ?_⟩
  intro n' hn
  refine ((right.more hn) 8 hg (ρ.map .ptr ++ ints l)).ok ?_
  unfold summary
  rw [hc, len]
  simp only [all, if_true, hall, hF, hw]

section

variable {g : Nat} {γ α β δ ε : Type} [EncL γ g] [Enc α] [Enc β] [Enc δ] [Enc ε]

theorem shape2_eval {k : γ → α → β → List Int → Option Effect} {us : List Val} {u v : Val} {c : γ} {x : α} {y : β}
    (hg : us.length = g) (hc : decL us = some c) (hu : dec u = some x) (hv : dec v = some y) :
    shape2 (g := g) k ((List.range' g 2).map (fun i => P i) ++ ints []) (us ++ [u, v]) = k c x y [] := by
  show shape2 k [P g, P (g + 1)] (us ++ [u, v]) = _
  unfold shape2
  subst hg
  dsimp only
  rw [if_pos ⟨rfl, rfl⟩, List.drop_left, List.take_left]
  simp only [hc, hu, hv]
  rfl

theorem shape4_eval {k : γ → α → β → δ → ε → List Int → Option Effect} {us : List Val} {v0 v1 v2 v3 : Val} {c : γ} {x : α} {y : β}
    {z : δ} {u : ε} (hg : us.length = g) (hc : decL us = some c) (h0 : dec v0 = some x) (h1 : dec v1 = some y)
    (h2 : dec v2 = some z) (h3 : dec v3 = some u) :
    shape4 (g := g) k ((List.range' g 4).map (fun i => P i) ++ ints []) (us ++ [v0, v1, v2, v3]) = k c x y z u [] := by
  show shape4 k [P g, P (g + 1), P (g + 2), P (g + 3)] (us ++ [v0, v1, v2, v3]) = _
  unfold shape4
  subst hg
  dsimp only
  rw [if_pos ⟨rfl, rfl, rfl, rfl⟩, List.drop_left, List.take_left]
  simp only [hc, h0, h1, h2, h3]
  rfl

end

theorem getD_map_range {α : Type} (b : Nat → α) (d : α) (n : Nat) (h : ∀ j, n ≤ j → b j = d) :
    (fun j => ((List.range n).map b).getD j d) = b := by
  funext j
  rw [List.getD_eq_getElem?_getD, List.getElem?_map]
  by_cases hj : j < n
  · rw [List.getElem?_range hj]; rfl
  · rw [List.getElem?_eq_none (by simpa using hj), h j (by omega)]; rfl

theorem decRow_enc (b : Nat → Pre) (h : ∀ j, 8 ≤ j → b j = Pre.zero) : decRow (encRow b) = some b := by
  have e := decAll_map (dec := decPre) (enc := encPre) (fun _ => rfl) ((List.range 8).map b)
  rw [List.map_map] at e
  unfold decRow encRow
  simp only
  rw [show (List.range 8).map (fun j => encPre (b j)) = (List.range 8).map (encPre ∘ b) from rfl, e]
  simp only [List.length_map, List.length_range, if_true]
  rw [getD_map_range b Pre.zero 8 h]

theorem decTable_enc (b : Nat → Nat → Pre) (h : ∀ i j, 8 ≤ j → b i j = Pre.zero) (h' : ∀ i, 32 ≤ i → b i = fun _ => Pre.zero) :
    decTable (encTable b) = some b := by
  have e : ∀ l : List Nat, decAll decRow (l.map fun i => encRow (b i)) = some (l.map b) := by
    intro l
    induction l with
    | nil => rfl
    | cons i l ih => simp [decAll, decRow_enc (b i) (h i), ih]
  unfold decTable encTable
  simp only
  rw [show (List.range 32).map (fun i => Val.arr ((List.range 8).map fun j => encPre (b i j))) =
    (List.range 32).map fun i => encRow (b i) from rfl, e]
  simp only [List.length_map, List.length_range, if_true]
  rw [getD_map_range b _ 32 h']

theorem baseTable_size : baseTable.length = 32 ∧ ∀ row ∈ baseTable, row.length = 8 := by
  constructor
  · rfl
  · decide +kernel

theorem decL_init5 : (decL (initial.take 5) : Option G5) = some init5 := by
  have e : decTable (encTable basePoints) = some basePoints := by
    refine decTable_enc _ ?_ ?_
    · intro i j hj
      unfold basePoints
      rw [List.getD_eq_getElem?_getD, List.getElem?_eq_none]
      · rfl
      · rw [List.getD_eq_getElem?_getD]
        cases e : baseTable[i]? with
        | none => exact Nat.zero_le _
        | some row => exact (baseTable_size.2 row (List.mem_of_getElem? e)) ▸ hj
    · intro i hi
      unfold basePoints
      rw [List.getD_eq_getElem?_getD, List.getElem?_eq_none (baseTable_size.1 ▸ hi)]
      rfl
  show (match decFe (encFe feZero), decFe (encFe feD), decFe (encFe feD2), decFe (encFe feSqrtM1), decTable (encTable basePoints) with
      | some x, some y, some z, some u, some v => some (⟨x, y, z, u, v⟩ : G5)
      | _, _, _, _, _ => none) = _
  rw [e]
  rfl

theorem decL_init4 : (decL (initial.take 4) : Option G4) = some init4 := rfl

theorem decL_init0 : (decL (initial.take 0) : Option G0) = some ⟨⟩ := rfl

end Verif.Src.EdSrc
