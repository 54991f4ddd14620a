/-
C103: what the text of edwards25519.go says. The functions of the model are those of the text: its parsed form, run by the
interpreter in Verif.Source.Semantics, computes them for all arguments, in all memories and wherever the arguments are.
-/
import Verif.Source.EdRun

namespace Verif.Src.EdSrc

open Verif.Ed

variable {ω : Type}

/-- A call of a function of the package returns these results in this state: it does not panic and does not run forever. -/
def Returns (f : Func) (ps : List Loc) (s : St ω) (rs : List Val) (s' : St ω) : Prop :=
  ∃ n, ∀ n', n ≤ n' → (interp prog n').call pkg f (ps.map .ptr) s = .ok rs s'

/-- The contents of a place. -/
def Holds (s : St ω) (l : Loc) (v : Val) : Prop := l.get s.mem = some v

/-- Different places, outside the variables of the package. -/
def Apart (ps : List Loc) : Prop := allApart ps = true ∧ ∀ p ∈ ps, Loc.own p

theorem returns_one {g : Nat} {F : List Val → List Val → Option Effect} {f : Func} {n : Nat} (right : Right ω g F f n) (hg : g ≤ 8)
    {s : St ω} (ready : Ready s) {ρ : List Loc} {vs rs : List Val} {p : Loc} {k : Nat} {v : Val}
    (apart : Apart ρ) (hget : getAll s.mem ρ = some vs)
    (hF : F ((List.range' g ρ.length).map (fun i => P i) ++ ints []) (initial.take g ++ vs) = some ([(g + k, v)], rs))
    (hp : ρ[k]? = some p) : ∃ s', Wrote s p v s' ∧ Returns f ρ s rs s' := by
  obtain ⟨s', h, r⟩ := run_one right hg ready apart.1 apart.2 hget hF hp
  refine ⟨s', h, n, fun n' hn => ?_⟩
  have := r n' hn
  rwa [show ints [] = [] from rfl, List.append_nil] at this

theorem get2 {s : St ω} {p q : Loc} {u v : Val} (h : Holds s p u) (k : Holds s q v) : getAll s.mem [p, q] = some [u, v] := by
  unfold Holds at h k
  simp [getAll, h, k]

theorem get4 {s : St ω} {p q r t : Loc} {u v w x : Val} (h : Holds s p u) (k : Holds s q v) (i : Holds s r w) (j : Holds s t x) :
    getAll s.mem [p, q, r, t] = some [u, v, w, x] := by
  unfold Holds at h k i j
  simp [getAll, h, k, i, j]

/-- `GeScalarMultBase(h, a)`, edwards25519.go:970-1014. -/
theorem C103_GeScalarMultBase {s : St ω} (ready : Ready s) {h a : Loc} (apart : Apart [h, a]) {x : Ext} {y : Arr 32}
    (hx : Holds s h (encExt x)) (hy : Holds s a (encBytes y)) :
    ∃ s', Wrote s h (encExt (geScalarMultBase y)) s' ∧ Returns edwards.GeScalarMultBase [h, a] s [] s' := by
  refine returns_one ScalarMultBase_right (by decide) ready apart (get2 hx hy) (k := 0) ?_ rfl
  refine (shape2_eval (g := 5) (us := initial.take 5) (u := encExt x) rfl decL_init5 (x := x) rfl (decB y)).trans ?_
  show some ([(5, encExt (rawScalarMultBase init5 (intsOf y)))], []) = _
  rw [rawScalarMultBase_eq]

/-- `p.ToBytes(b)` on extended coordinates, edwards25519.go:708-716. -/
theorem C103_ToBytes {s : St ω} (ready : Ready s) {p b : Loc} (apart : Apart [p, b]) {x : Ext} {y : Arr 32}
    (hx : Holds s p (encExt x)) (hy : Holds s b (encBytes y)) :
    ∃ s', Wrote s b (encBytes x.toBytes) s' ∧ Returns edwards.ExtendedGroupElement.ToBytes [p, b] s [] s' := by
  refine returns_one ExtToBytes_right (by decide) ready apart (get2 hx hy) (k := 1) ?_ rfl
  refine (shape2_eval (g := 0) (us := initial.take 0) (u := encExt x) rfl decL_init0 (x := x) rfl (decB y)).trans ?_
  show some ([(1, encInts .uint8 32 (rawBytesOf x.X x.Y x.Z))], []) = _
  rw [encBytes_eq, encInts_congr (rawBytesOf_eq _ _ _)]
  rfl

/-- `p.ToBytes(b)` on projective coordinates, edwards25519.go:672-680. -/
theorem C103_ToBytes_projective {s : St ω} (ready : Ready s) {p b : Loc} (apart : Apart [p, b]) {x : Proj} {y : Arr 32}
    (hx : Holds s p (encProj x)) (hy : Holds s b (encBytes y)) :
    ∃ s', Wrote s b (encBytes x.toBytes) s' ∧ Returns edwards.ProjectiveGroupElement.ToBytes [p, b] s [] s' := by
  refine returns_one ProjToBytes_right (by decide) ready apart (get2 hx hy) (k := 1) ?_ rfl
  refine (shape2_eval (g := 0) (us := initial.take 0) (u := encProj x) rfl decL_init0 (x := x) rfl (decB y)).trans ?_
  show some ([(1, encInts .uint8 32 (rawBytesOf x.X x.Y x.Z))], []) = _
  rw [encBytes_eq, encInts_congr (rawBytesOf_eq _ _ _)]
  rfl

/-- `p.FromBytes(b)`, edwards25519.go:718-762, when the bytes are those of a point. -/
theorem C103_FromBytes {s : St ω} (ready : Ready s) {p b : Loc} (apart : Apart [p, b]) {x z : Ext} {y : Arr 32}
    (hx : Holds s p (encExt x)) (hy : Holds s b (encBytes y)) (hz : extFromBytes y = some z) :
    ∃ s', Wrote s p (encExt z) s' ∧ Returns edwards.ExtendedGroupElement.FromBytes [p, b] s [.bool true] s' := by
  refine returns_one FromBytes_right (by decide) ready apart (get2 hx hy) (k := 0) ?_ rfl
  refine (shape2_eval (g := 4) (us := initial.take 4) (u := encExt x) rfl decL_init4 (x := x) rfl (decB y)).trans ?_
  show some ([(4, encExt (rawDecode init4 x (intsOf y)).1)], [Val.bool (rawDecode init4 x (intsOf y)).2]) = _
  rw [rawDecode_some hz]

/-- `p.FromBytes(b)` when they are not: the result is false, and only `*p` has changed. -/
theorem C103_FromBytes_fails {s : St ω} (ready : Ready s) {p b : Loc} (apart : Apart [p, b]) {x : Ext} {y : Arr 32}
    (hx : Holds s p (encExt x)) (hy : Holds s b (encBytes y)) (hz : extFromBytes y = none) :
    ∃ z s', Wrote s p (encExt z) s' ∧ Returns edwards.ExtendedGroupElement.FromBytes [p, b] s [.bool false] s' := by
  refine ⟨(rawDecode init4 x (intsOf y)).1, returns_one FromBytes_right (by decide) ready apart (get2 hx hy) (k := 0) ?_ rfl⟩
  refine (shape2_eval (g := 4) (us := initial.take 4) (u := encExt x) rfl decL_init4 (x := x) rfl (decB y)).trans ?_
  show some ([(4, encExt (rawDecode init4 x (intsOf y)).1)], [Val.bool (rawDecode init4 x (intsOf y)).2]) = _
  rw [rawDecode_none hz]

/-- `ScMulAdd(o, a, b, c)`, edwards25519.go:1026-1449. -/
theorem C103_ScMulAdd {s : St ω} (ready : Ready s) {o a b c : Loc} (apart : Apart [o, a, b, c]) {w x y z : Arr 32}
    (hw : Holds s o (encBytes w)) (hx : Holds s a (encBytes x)) (hy : Holds s b (encBytes y)) (hz : Holds s c (encBytes z)) :
    ∃ s', Wrote s o (encBytes (scMulAdd x y z)) s' ∧ Returns edwards.ScMulAdd [o, a, b, c] s [] s' := by
  refine returns_one ScMulAdd_right (by decide) ready apart (get4 hw hx hy hz) (k := 0) ?_ rfl
  refine (shape4_eval (g := 0) (us := initial.take 0) rfl decL_init0 (decB w) (decB x)
    (decB y) (decB z)).trans ?_
  show some ([(0, encInts .uint8 32 (rawScMulAdd (intsOf x) (intsOf y) (intsOf z)))], []) = _
  rw [encBytes_eq, rawScMulAdd_eq]

/-- `ScReduce(o, a)`, edwards25519.go:1457-1773. -/
theorem C103_ScReduce {s : St ω} (ready : Ready s) {o a : Loc} (apart : Apart [o, a]) {w : Arr 32} {x : Arr 64}
    (hw : Holds s o (encBytes w)) (hx : Holds s a (encBytes x)) :
    ∃ s', Wrote s o (encBytes (scReduce x)) s' ∧ Returns edwards.ScReduce [o, a] s [] s' := by
  refine returns_one ScReduce_right (by decide) ready apart (get2 hw hx) (k := 0) ?_ rfl
  refine (shape2_eval (g := 0) (us := initial.take 0) rfl decL_init0 (decB w) (decB x)).trans ?_
  show some ([(0, encInts .uint8 32 (rawScReduce (intsOf x)))], []) = _
  rw [encBytes_eq, rawScReduce_eq]

/-- `FeNeg(h, f)`, edwards25519.go:230-240, which is also called with the same place twice. -/
theorem C103_FeNeg {s : St ω} (ready : Ready s) {h f : Loc} (apart : Apart [h, f] ∨ h = f ∧ Loc.own h) {x y : Fe}
    (hx : Holds s h (encFe x)) (hy : Holds s f (encFe y)) :
    ∃ s', Wrote s h (encFe (feNeg y)) s' ∧ Returns edwards.FeNeg [h, f] s [] s' := by
  rcases apart with apart | ⟨rfl, own⟩
  · exact returns_one FeNeg_right (by decide) ready apart (get2 hx hy) (k := 0) rfl rfl
  · obtain ⟨m, hm⟩ := Loc.set_of_get hx (encFe (feNeg y))
    refine ⟨{ s with mem := m }, ⟨m, hm, rfl⟩, 60, fun n' hn => ?_⟩
    refine ((FeNeg_right.more hn) 8 (by decide) [.ptr h, .ptr h]).ok ?_
    have hc : canon [.ptr h, .ptr h] (firstBlocks 0) = some ([P 0, P 0], [h]) := by simp [canon, firstBlocks]
    unfold Holds at hy
    have hg : getAll s.mem [h] = some [encFe y] := by simp [getAll, hy]
    unfold summary
    rw [hc]
    simp only [hg]
    show (match writeNth [h] [(0, encFe (feNeg y))] s.mem with
      | some m => R.ok [] { s with mem := m }
      | none => .stuck) = _
    simp [writeNth, hm]

/-- A state as the theorems above assume: the second point and the bytes are parts of larger values. -/
def exampleState (y : Arr 32) : St Unit :=
  ⟨initial ++ [encExt Ext.zero, encBytes y, .arr [encBytes y, encBytes y, encBytes (scReduce (Vector.replicate 64 5))]], 0, [], ()⟩

example (y : Arr 32) : Ready (exampleState y) ∧ Apart [⟨8, []⟩, ⟨9, []⟩] ∧ Holds (exampleState y) ⟨8, []⟩ (encExt Ext.zero) ∧
    Holds (exampleState y) ⟨9, []⟩ (encBytes y) :=
  ⟨rfl, ⟨by decide, by simp [Loc.own]⟩, rfl, rfl⟩

example (y : Arr 32) : Apart [⟨9, []⟩, ⟨10, [.idx 0]⟩, ⟨10, [.idx 1]⟩, ⟨10, [.idx 2]⟩] ∧
    Holds (exampleState y) ⟨10, [.idx 1]⟩ (encBytes y) ∧
    Holds (exampleState y) ⟨10, [.idx 2]⟩ (encBytes (scReduce (Vector.replicate 64 5))) :=
  ⟨⟨by decide, by simp [Loc.own]⟩, rfl, rfl⟩

set_option maxRecDepth 100000 in
/-- Bytes of a point, and bytes that are none. -/
example : (extFromBytes ((Vector.replicate 32 0).set 0 3)).isSome = true ∧ (extFromBytes ((Vector.replicate 32 0).set 0 2)).isSome = false := by
  constructor <;> decide +kernel

/-- The program starts with the package variables as assumed above: this is what their declarations say. -/
theorem C103_init (w : ω) : ∃ n s, Ready s ∧
    execsEnv (interp (progs 0) n) ⟨pkg, []⟩ initStmts ⟨[], 0, [], w⟩ = .ok ((globals 8).reverse, .next) s :=
  ⟨40, ⟨initial, 0, [], w⟩, rfl, initialised w⟩

end Verif.Src.EdSrc
