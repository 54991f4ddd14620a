/-
C104: what the text of edwards25519.go says about the functions that check a signature: `slide`, `GeDoubleScalarMultVartime`
and `ScMinimal`, run by the interpreter in Verif.Source.Semantics, for all arguments, in all memories and wherever the arguments
are.
-/
import Verif.Source.EdVerify
import Verif.Props.SourceText
import Verif.Props.Group
import Verif.Props.Scalar

namespace Verif.Src.EdSrc

open Verif.Ed

variable {ω : Type}

theorem Wrote.holds {s s' : St ω} {p : Loc} {v : Val} (h : Wrote s p v s') : Holds s' p v := by
  obtain ⟨m, h, rfl⟩ := h
  exact Loc.get_set h

theorem Wrote.other {s s' : St ω} {p q : Loc} {u v : Val} (h : Wrote s p v s') (n : p.disjoint q = true) (k : Holds s q u) :
    Holds s' q u := by
  obtain ⟨m, h, rfl⟩ := h
  exact (Loc.get_set_disjoint n h).trans k

theorem Wrote.ready {s s' : St ω} {p : Loc} {v : Val} (h : Wrote s p v s') (own : Loc.own p) (r : Ready s) : Ready s' := by
  obtain ⟨m, h, rfl⟩ := h
  obtain ⟨w, w', c, d, rfl⟩ := Loc.set_some h
  unfold Ready at r ⊢
  rw [← r]
  exact List.take_set_of_le own

theorem Apart.disjoint {p q : Loc} (h : Apart [p, q]) : p.disjoint q = true := by
  have := (allApart_iff _).1 h.1
  simpa using this

/-- The array of 256 digits. -/
def encDigits (d : Nat → Int) : Val := encInts .int8 256 d

/-- `slide(r, a)`, edwards25519.go:845-873. -/
theorem C104_slide {s : St ω} (ready : Ready s) {r a : Loc} (apart : Apart [r, a]) {x : List Int} (len : x.length = 256) {y : Arr 32}
    (hx : Holds s r (.arr (x.map (.int .int8 ·)))) (hy : Holds s a (encBytes y)) :
    ∃ s', Wrote s r (.arr ((List.range 256).map fun i => .int .int8 (slide y i))) s' ∧ Returns edwards.slide [r, a] s [] s' := by
  refine returns_one Slide_right (by decide) ready apart (get2 hx hy) (k := 0) ?_ rfl
  have hd : decInts .int8 256 (.arr (x.map (.int .int8 ·))) = some fun i => x.getD i 0 := by
    unfold decInts
    simp only [intsIn_map, len, if_true]
  refine (shape2_eval (α := Ints .int8 256) (g := 0) (us := initial.take 0) rfl decL_init0 (x := fun i => x.getD i 0) hd (decB y)).trans ?_
  show some ([(0, encInts .int8 256 (rawSlide (intsOf y)))], []) = _
  rw [rawSlide_eq]
  rfl

/-- `GeDoubleScalarMultVartime(r, a, A, b)`, edwards25519.go:879-928, does not panic and computes what the model says. -/
theorem C104_GeDoubleScalarMultVartime {s : St ω} (ready : Ready s) {r a p b : Loc} (apart : Apart [r, a, p, b]) {w : Proj}
    {x y : Arr 32} {A : Ext} (hw : Holds s r (encProj w)) (hx : Holds s a (encBytes x)) (hA : Holds s p (encExt A))
    (hy : Holds s b (encBytes y)) :
    ∃ z s', geDoubleScalarMultVartime x A y = .ok z ∧ Wrote s r (encProj z) s' ∧
      Returns edwards.GeDoubleScalarMultVartime [r, a, p, b] s [] s' := by
  refine ⟨rawDouble init6 (intsOf x) A (intsOf y), ?_⟩
  have h : ∃ s', Wrote s r (encProj (rawDouble init6 (intsOf x) A (intsOf y))) s' ∧
      Returns edwards.GeDoubleScalarMultVartime [r, a, p, b] s [] s' := by
    refine returns_one Double_right (by decide) ready apart (get4 hw hx hA hy) (k := 0) ?_ rfl
    refine (shape4_eval (g := 6) (us := initial.take 6) rfl decL_init6 (x := w) (z := A) rfl (decB x) rfl (decB y)).trans ?_
    unfold sumDouble
    rw [if_pos]
    · rfl
    · intro j hj
      rw [rawSlide_eq, rawSlide_eq]
      exact ⟨slide_small x hj, slide_small y hj⟩
  obtain ⟨s', h1, h2⟩ := h
  exact ⟨s', rawDouble_eq x A y, h1, h2⟩

/-- `ScMinimal(a)`, edwards25519.go:1780-1793, changes nothing and says whether the number is below the order of the group. -/
theorem C104_ScMinimal {s : St ω} (ready : Ready s) {a : Loc} (own : Loc.own a) {x : Arr 32} (hx : Holds s a (encBytes x)) :
    Returns edwards.ScMinimal [a] s [.bool (decide (leNat x.toList < groupOrder))] s := by
  obtain ⟨c, hc, ho⟩ := decL_init8
  have hget : getAll s.mem [a] = some [encBytes x] := by
    unfold Holds at hx
    simp [getAll, hx]
  have e : (decide (leNat x.toList < groupOrder)) = rawMinimalFrom c.order (intsOf x) 3 := by
    rw [rawMinimal_eq x 3 ho]
    exact (Bool.eq_iff_iff.2 ((scMinimal_spec x).trans decide_eq_true_iff.symm)).symm
  rw [e]
  refine ⟨26, run_none Minimal_right (by decide) ready (ρ := [a]) (by simp [allApart]) (by simpa using own) hget ?_⟩
  exact (shape1_eval (g := 8) (us := initial.take 8) rfl hc (decB x)).trans rfl

/-- In terms of points: the call followed by `r.ToBytes(&check)` stores the bytes of a·P + b·B, for scalars up to 2^255. For larger
ones this is false (`C69_negation`); what `ScMinimal` accepts and what `ScReduce` returns is smaller. -/
theorem C104_combination {s : St ω} (ready : Ready s) {r a p b o : Loc} (apart : Apart [r, a, p, b]) (apart' : Apart [r, o])
    {w : Proj} {x y u : Arr 32} {A : Ext} {P : Point} (hA : A.Bounded) (hP : A.Is P) (hx : leNat x.toList ≤ 2 ^ 255)
    (hy : leNat y.toList ≤ 2 ^ 255) (hr : Holds s r (encProj w)) (ha : Holds s a (encBytes x)) (hp : Holds s p (encExt A))
    (hb : Holds s b (encBytes y)) (ho : Holds s o (encBytes u)) :
    ∃ s' s'', Returns edwards.GeDoubleScalarMultVartime [r, a, p, b] s [] s' ∧
      Returns edwards.ProjectiveGroupElement.ToBytes [r, o] s' [] s'' ∧
      Holds s'' o (encBytes (encodePoint (leNat x.toList • P + leNat y.toList • base))) := by
  obtain ⟨z, s', hz, hw, h1⟩ := C104_GeDoubleScalarMultVartime ready apart hr ha hp hb
  obtain ⟨z', hz', hB, hI⟩ := Props.C69_doubleScalarMult_partial x y A P hA hP hx hy
  rw [hz] at hz'
  cases hz'
  obtain ⟨s'', hw', h2⟩ := C103_ToBytes_projective (hw.ready (apart'.2 r (by simp)) ready) apart' hw.holds
    (hw.other apart'.disjoint ho)
  exact ⟨s', s'', h1, h2, by rw [← Proj.toBytes_spec hB hI]; exact hw'.holds⟩

/-- A state as the theorems above assume: the arguments are parts of larger values or variables of their own. -/
def verifyState (x y : Arr 32) (A : Ext) : St Unit :=
  ⟨initial ++ [encProj Proj.zero, encBytes x, .arr [encExt A, encBytes y], encBytes y, encDigits fun _ => 5], 0, [], ()⟩

set_option maxRecDepth 10000 in
example (x y : Arr 32) (A : Ext) : Ready (verifyState x y A) ∧ Apart [⟨8, []⟩, ⟨9, []⟩, ⟨10, [.idx 0]⟩, ⟨10, [.idx 1]⟩] ∧
    Apart [⟨8, []⟩, ⟨11, []⟩] ∧ Holds (verifyState x y A) ⟨8, []⟩ (encProj Proj.zero) ∧
    Holds (verifyState x y A) ⟨9, []⟩ (encBytes x) ∧ Holds (verifyState x y A) ⟨10, [.idx 0]⟩ (encExt A) ∧
    Holds (verifyState x y A) ⟨10, [.idx 1]⟩ (encBytes y) ∧ Holds (verifyState x y A) ⟨11, []⟩ (encBytes y) ∧
    Holds (verifyState x y A) ⟨12, []⟩ (.arr ((List.replicate 256 5).map (.int .int8 ·))) :=
  ⟨rfl, ⟨by decide, by simp [Loc.own]⟩, ⟨by decide, by simp [Loc.own]⟩, rfl, rfl, rfl, rfl, rfl, rfl⟩

example : ∃ A : Ext, A.Bounded ∧ A.Is (7 • base) := (Props.represented _).1

end Verif.Src.EdSrc
