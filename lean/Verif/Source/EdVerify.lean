/-
`slide`, `GeDoubleScalarMultVartime` and `ScMinimal`: what the source computes is what the functions of the model are.
-/
import Verif.Source.EdDouble
import Verif.Source.EdRun
import Verif.Source.EdMinimal
import Verif.Lemmas.ScalarLimbs

namespace Verif.Src.EdSrc

open Verif.Ed

variable {ω : Type}

theorem rawBit_table : ∀ n : Fin 256, ∀ k : Fin 8,
    rawBitOf (n.val : Int) k.val = ((1 &&& (UInt8.ofNat n.val >>> UInt8.ofNat k.val)).toNat : Int) := by
  decide +kernel

theorem bitOf_eq (a : Arr 32) (i : Nat) : rawBitOf (intsOf a (i / 8)) (i % 8) = bitOf a i := by
  unfold intsOf bitOf
  generalize a.toList.getD (i / 8) 0 = x
  have := rawBit_table ⟨x.toNat, x.toNat_lt⟩ ⟨i % 8, by omega⟩
  rwa [UInt8.ofNat_toNat] at this

theorem rawSlide_eq (a : Arr 32) : rawSlide (intsOf a) = slide a := by
  unfold rawSlide slide
  congr 1
  funext i
  by_cases h : i < 256
  · rw [if_pos h, if_pos h, bitOf_eq a i]
  · rw [if_neg h, if_neg h]

theorem IsDigit.small {x : Int} (h : IsDigit x) : Small x := by
  rcases h with rfl | ⟨-, h1, h2⟩
  · exact ⟨by decide, by decide⟩
  · exact ⟨h1, h2⟩

theorem slide_small (a : Arr 32) {j : Nat} (h : j < 256) : Small (slide a j) := IsDigit.small ((slide_spec a).1 j h)

/-- The values of the first six variables of the package. -/
def init6 : G6 := ⟨feZero, feD, feD2, feSqrtM1, basePoints, fun j => biTable.getD j Pre.zero⟩

theorem biTable_length : biTable.length = 8 := rfl

theorem decL_init6 : (decL (initial.take 6) : Option G6) = some init6 := by
  have e : decTable (encTable basePoints) = some basePoints := by
    refine decTable_enc _ ?_ ?_
    · intro i j hj
      unfold basePoints
      rw [List.getD_eq_getElem?_getD, List.getElem?_eq_none]
      · rfl
      · rw [List.getD_eq_getElem?_getD]
        cases e : baseTable[i]? with
        | none => exact Nat.zero_le _
        | some row => exact (baseTable_size.2 row (List.mem_of_getElem? e)) ▸ hj
    · intro i hi
      unfold basePoints
      rw [List.getD_eq_getElem?_getD, List.getElem?_eq_none (baseTable_size.1 ▸ hi)]
      rfl
  have e' : decRow encBi = some init6.bi := by
    have h : encBi = encRow init6.bi := by
      unfold encBi encRow
      congr 1
    rw [h]
    refine decRow_enc _ ?_
    intro j hj
    show biTable.getD j Pre.zero = _
    rw [List.getD_eq_getElem?_getD, List.getElem?_eq_none (biTable_length ▸ hj)]
    rfl
  show (match decFe (encFe feZero), decFe (encFe feD), decFe (encFe feD2), decFe (encFe feSqrtM1), decTable (encTable basePoints),
        decRow encBi with
      | some x, some y, some z, some u, some v, some w => some (⟨x, y, z, u, v, w⟩ : G6)
      | _, _, _, _, _, _ => none) = _
  rw [e, e']
  rfl

theorem oddMultiples_get (A2 : Ext) (p : Cached) (n k j : Nat) (h : j ≤ n) :
    (oddMultiples A2 n (oddAt feD2 A2 p k))[j]? = some (oddAt feD2 A2 p (k + j)) := by
  induction n generalizing k j with
  | zero =>
    obtain rfl : j = 0 := by omega
    rfl
  | succ n ih =>
    unfold oddMultiples
    cases j with
    | zero => rfl
    | succ j =>
      rw [List.getElem?_cons_succ]
      exact (ih (k + 1) j (by omega)).trans (by rw [Nat.add_assoc, Nat.add_comm 1 j])

theorem half_eq {x : Int} (h : Small x) : (x / 2).toNat < 8 := by
  obtain ⟨h1, h2⟩ := h
  omega

theorem Small.neg {x : Int} (h : Small x) : Small (-x) := ⟨by have := h.2; omega, by have := h.1; omega⟩

theorem w8_neg {x : Int} (h : Small x) : w8 (-x) = -x := w8_id (by have := h.2; omega) (by have := h.1; omega)

theorem addOwn_raw {Ai : List Cached} {f : Nat → Cached} (h : ∀ j, j < 8 → Ai[j]? = some (f j)) {x : Int} (hx : Small x) (t : Comp) :
    addOwn Ai x t = .ok (rawOwn f x t) := by
  unfold addOwn rawOwn
  by_cases h1 : 0 < x
  · rw [if_pos h1, if_pos h1, tableAt, h _ (half_eq hx)]
    rfl
  · rw [if_neg h1, if_neg h1]
    by_cases h2 : x < 0
    · rw [if_pos h2, if_pos h2, tableAt, w8_neg hx, h _ (half_eq hx.neg)]
      rfl
    · rw [if_neg h2, if_neg h2]
      rfl

theorem addBase_raw {x : Int} (hx : Small x) (t : Comp) : addBase x t = .ok (rawBase init6.bi x t) := by
  have h : ∀ j, j < 8 → biTable[j]? = some (init6.bi j) := by
    intro j hj
    have hj' : j < biTable.length := biTable_length ▸ hj
    show _ = some (biTable.getD j Pre.zero)
    rw [List.getD_eq_getElem?_getD, List.getElem?_eq_getElem hj']
    rfl
  unfold addBase rawBase
  by_cases h1 : 0 < x
  · rw [if_pos h1, if_pos h1, tableAt, h _ (half_eq hx)]
    rfl
  · rw [if_neg h1, if_neg h1]
    by_cases h2 : x < 0
    · rw [if_pos h2, if_pos h2, tableAt, w8_neg hx, h _ (half_eq hx.neg)]
      rfl
    · rw [if_neg h2, if_neg h2]
      rfl

theorem doubleLoop_raw {Ai : List Cached} {f : Nat → Cached} (h : ∀ j, j < 8 → Ai[j]? = some (f j)) {as bs : Digits} (k : Nat)
    (hs : ∀ j, j < k → Small (as j) ∧ Small (bs j)) (r : Proj) :
    doubleLoop Ai as bs k r = .ok (rawLoop f init6.bi as bs k r) := by
  induction k generalizing r with
  | zero => rfl
  | succ k ih =>
    unfold doubleLoop doubleStep rawLoop
    rw [addOwn_raw h (hs k (by omega)).1]
    show ((addBase (bs k) _ >>= _ : Res Proj) >>= _) = _
    rw [addBase_raw (hs k (by omega)).2]
    exact ih (fun j hj => hs j (by omega)) _

theorem rawDouble_eq (a : Arr 32) (A : Ext) (b : Arr 32) :
    geDoubleScalarMultVartime a A b = .ok (rawDouble init6 (intsOf a) A (intsOf b)) := by
  unfold geDoubleScalarMultVartime rawDouble
  rw [rawSlide_eq, rawSlide_eq]
  refine (doubleLoop_raw (f := oddUpTo feD2 A.double.toExt (cachedOf feD2 A) 7) ?_ _ ?_ _).trans rfl
  · intro j hj
    unfold oddUpTo
    rw [if_pos (by omega)]
    exact (oddMultiples_get A.double.toExt A.toCached 7 0 j (by omega)).trans (by rw [Nat.zero_add]; rfl)
  · intro j hj
    have := (topDigit_spec (slide a) (slide b) 256).1
    exact ⟨slide_small a (by omega), slide_small b (by omega)⟩

/-! ### `ScMinimal` -/

theorem rawWord_eq (a : Arr 32) (i : Nat) : rawWord (intsOf a) i = (word a i : Int) := by
  have h4 := load4_lt a (i * 8)
  have e : word a i = load4 a (i * 8) + 2 ^ 32 * load4 a (i * 8 + 4) := by
    unfold word
    rw [Nat.or_comm, Nat.shiftLeft_eq, Nat.mul_comm _ (2 ^ 32), ← Nat.two_pow_add_eq_or_of_lt h4]
    omega
  rw [e, load4_eq, load4_eq]
  unfold rawWord intsOf
  simp only [List.range_succ, List.range_zero, List.nil_append, List.map_cons, List.map_nil, List.cons_append, leValue]
  simp only [show 8 * i + 0 = i * 8 by omega, show ∀ k, 8 * i + k = i * 8 + k from fun k => by omega, Nat.add_assoc, Nat.reduceAdd]
  generalize (a.toList.getD (i * 8) 0).toNat = x0
  generalize (a.toList.getD (i * 8 + 1) 0).toNat = x1
  generalize (a.toList.getD (i * 8 + 2) 0).toNat = x2
  generalize (a.toList.getD (i * 8 + 3) 0).toNat = x3
  generalize (a.toList.getD (i * 8 + 4) 0).toNat = x4
  generalize (a.toList.getD (i * 8 + 5) 0).toNat = x5
  generalize (a.toList.getD (i * 8 + 6) 0).toNat = x6
  generalize (a.toList.getD (i * 8 + 7) 0).toNat = x7
  push_cast
  ring

theorem rawMinimal_eq {o : Nat → Int} (a : Arr 32) (i : Nat) (ho : ∀ j, j ≤ i → o j = orderWord j) :
    rawMinimalFrom o (intsOf a) i = scMinimalFrom a i := by
  induction i with
  | zero =>
    unfold rawMinimalFrom scMinimalFrom
    rw [rawWord_eq, ho 0 (Nat.le_refl _)]
    simp only [gt_iff_lt, Nat.cast_lt]
  | succ i ih =>
    unfold rawMinimalFrom scMinimalFrom
    rw [rawWord_eq, ho (i + 1) (Nat.le_refl _), ih fun j hj => ho j (by omega)]
    simp only [gt_iff_lt, Nat.cast_lt]

theorem decL_init8 : ∃ c : G8, (decL initial : Option G8) = some c ∧ ∀ j, j ≤ 3 → c.order j = orderWord j := by
  have pl : Val.anyRefers 0 [encFe feZero, encFe feD, encFe feD2, encFe feSqrtM1, encTable basePoints, encBi, encFe feA] = false := by
    have hb : Val.refers 0 encBi = false := rfl
    simp [Val.anyRefers, encFe_plain, encTable_plain, hb]
  have e : ∃ o, decInts .uint64 4 encOrder = some o ∧ ∀ j, j ≤ 3 → o j = orderWord j := by
    refine ⟨fun i => ((List.range 4).map fun i => (orderWord i : Int)).getD i 0, rfl, fun j hj => ?_⟩
    interval_cases j <;> rfl
  obtain ⟨o, ho, hj⟩ := e
  refine ⟨⟨_, _, _, _, _, _, _, o, pl⟩, ?_, hj⟩
  show (if h : Val.anyRefers 0 [encFe feZero, encFe feD, encFe feD2, encFe feSqrtM1, encTable basePoints, encBi, encFe feA] = false then
      match decInts .uint64 4 encOrder with
      | some o => some (⟨_, _, _, _, _, _, _, o, h⟩ : G8)
      | none => none
    else none) = _
  rw [dif_pos pl, ho]

theorem shape1_eval {α γ : Type} {g : Nat} [Enc α] [EncL γ g] {k : γ → α → List Int → Option Effect} {us : List Val} {u : Val}
    {c : γ} {x : α} (hg : us.length = g) (hc : decL us = some c) (hu : dec u = some x) :
    shape1 (g := g) k ((List.range' g 1).map (fun i => P i) ++ ints []) (us ++ [u]) = k c x [] := by
  show shape1 k [P g] (us ++ [u]) = _
  unfold shape1
  subst hg
  dsimp only
  rw [if_pos rfl, List.drop_left, List.take_left]
  simp only [hc, hu]
  rfl

/-- A call of a function that writes nothing. -/
theorem run_none {g : Nat} {F : List Val → List Val → Option Effect} {f : Func} {n : Nat} (right : Right ω g F f n) (hg : g ≤ 8)
    {s : St ω} (ready : Ready s) {ρ : List Loc} {vs rs : List Val} (apart : allApart ρ = true) (own : ∀ q ∈ ρ, Loc.own q)
    (hget : getAll s.mem ρ = some vs)
    (hF : F ((List.range' g ρ.length).map (fun i => P i) ++ ints []) (initial.take g ++ vs) = some ([], rs)) :
    ∀ n', n ≤ n' → (interp prog n').call pkg f (ρ.map .ptr) s = .ok rs s := by
  have far : ∀ q ∈ ρ, g ≤ q.blk := fun q hq => Nat.le_trans hg (own q hq)
  have all := apart_of (g := g) apart far
  have len : (firstBlocks g).length = g := by simp [firstBlocks]
  have hc := canon_new (ρ := ρ) [] (nodup_of_apart all)
  rw [show ints [] = [] from rfl, List.append_nil, List.append_nil] at hc
  rw [show ints [] = [] from rfl, List.append_nil] at hF
  have h8 : initial.length = 8 := rfl
  have hfirst : s.mem.take g = initial.take g := by
    rw [← ready, List.take_take, Nat.min_eq_left hg]
  have hall := getAll_append (getAll_first hfirst (by rw [List.length_take]; omega)) hget
  intro n' hn
  refine ((right.more hn) 8 hg (ρ.map .ptr)).ok ?_
  unfold summary
  rw [hc, len]
  simp only [all, if_true, hall, hF, writeNth]

end Verif.Src.EdSrc
