/-
The package internal/edwards25519 as a program: its variables, and how values of the model are stored in memory.
-/
import Verif.Source.Edwards
import Verif.Source.EdConst
import Verif.Source.Windows
import Verif.Model.Group

namespace Verif.Src

open Lean Elab Tactic Meta in
/-- Proof of an equation by evaluation of both sides in the kernel. -/
elab "krfl" : tactic => do
  let g ← getMainGoal
  let t ← g.getType
  let some (_, _, r) := t.consumeMData.eq? | throwError "not an equation"
  g.assign (← mkEqRefl r)

namespace EdSrc

open Verif.Ed

variable {ω : Type}

/-- Name of the package. -/
def pkg : Id := id!"edwards25519"

/-- Bytes in memory. -/
def bytesIn : List Val → Option (List Int)
  | [] => some []
  | .int .uint8 a :: vs => match bytesIn vs with
    | some l => some (a :: l)
    | none => none
  | _ => none

/-- The number with these digits, the first one being the lowest. -/
def leValue : List Int → Int
  | [] => 0
  | a :: l => a + 256 * leValue l

/-- `binary.LittleEndian.Uint64`: the first eight bytes as a number; a panic if there are less. -/
def word64 (s : Val) : M ω (List Val) := do
  let l ← M.the (bytesIn (← contents s))
  M.check (8 ≤ l.length)
  return [.int .uint64 (leValue (l.take 8))]

/-- The package uses nothing from libraries but `binary.LittleEndian.Uint64`, in `ScMinimal`. -/
def binaryExt : Extern ω where
  value p x := if p = id!"binary" ∧ x = id!"LittleEndian" then some (.obj id!"littleEndian" 0) else none
  func _ _ _ := M.stuck
  method r m vs := match r, vs with
    | .obj k _, [s] => if k = id!"littleEndian" ∧ m = id!"Uint64" then word64 s else M.stuck
    | _, _ => M.stuck
  zero _ _ := none

theorem bytesIn_ren (E : Emb) (vs : List Val) (l : List Int) (h : bytesIn vs = some l) : bytesIn (E.renVs vs) = some l := by
  induction vs generalizing l with
  | nil => exact h
  | cons v vs ih =>
    unfold bytesIn at h
    split at h
    · next e => cases e
    · next a ws e =>
      cases e
      split at h
      · next l' e =>
        cases h
        simp only [Emb.renVs, Emb.renV, bytesIn, ih _ e]
      · cases h
    · cases h

theorem comm_word64 {E : Emb} (v : E.Valid) (s : Val) : E.Comm E.renVs (word64 s : M ω (List Val)) (word64 (E.renV s)) := by
  unfold word64
  refine Emb.Comm.bind (Emb.comm_contents v s) fun vs => ?_
  refine Emb.Comm.bind (r := id) (Emb.Comm.the fun l h => bytesIn_ren E vs l h) fun l => ?_
  refine Emb.Comm.bind (Emb.Comm.check _) fun _ => ?_
  exact Emb.Comm.pure' (by simp only [Emb.renVs, Emb.renV]; rfl)

/-- The variables of the package. -/
def names : List Id :=
  [id!"zero", id!"d", id!"d2", id!"SqrtM1", id!"base", id!"bi", id!"A", id!"order"]

/-- The variables of the package are the first blocks of memory; the first `g` of them may be used. -/
def globals (g : Nat) : Env := names.mapIdx fun i x => (x, if i < g then .var ⟨i, []⟩ else .hidden)

/-- The program, with the first `g` variables of the package. -/
noncomputable def progs (g : Nat) : Prog ω :=
  ⟨[(pkg, ⟨edwards.types, edwards.funcs⟩)], [(pkg, globals g)], edwards.methods, binaryExt⟩

/-- The program. -/
noncomputable abbrev prog : Prog ω := progs 8

theorem progs_bare (g : Nat) : (progs g : Prog ω).Bare where
  value p x v h := by
    change (if _ then some _ else none) = _ at h
    split at h
    · cases h; rfl
    · cases h
  zero _ _ _ h := by cases h
  func _ _ _ _ _ := Emb.Comm.stuck _ _
  method E v r m vs := by
    show E.Comm E.renVs ((binaryExt : Extern ω).method r m vs) _
    unfold binaryExt
    dsimp only
    split
    · next k n s =>
      split
      · next h =>
        show E.Comm E.renVs _ (if _ then _ else _)
        rw [if_pos h]
        exact comm_word64 v s
      · exact Emb.Comm.stuck _ _
    · exact Emb.Comm.stuck _ _

theorem lookup_mapIdx (x : Id) (f : Nat → Bind) (xs : List Id) :
    (xs.mapIdx fun i x => (x, f i)).lookup x = if x ∈ xs then some (f (xs.idxOf x)) else none := by
  induction xs generalizing f with
  | nil => rfl
  | cons y ys ih =>
    rw [List.mapIdx_cons, List.lookup_cons]
    have := ih (fun i => f (i + 1))
    by_cases h : x = y
    · subst h; simp
    · have h' : (x == y) = false := by simpa using h
      have h'' : (y == x) = false := by simpa using fun e : y = x => h e.symm
      simp only [h', this, List.mem_cons, h, false_or, List.idxOf_cons, h'', cond_false]

theorem progs_global (g : Nat) (p x : Id) : (progs g : Prog ω).global p x =
    if p = pkg ∧ x ∈ names then some (if names.idxOf x < g then .var ⟨names.idxOf x, []⟩ else .hidden) else none := by
  unfold Prog.global progs
  simp only [List.lookup_cons, List.lookup_nil]
  by_cases h : p = pkg
  · subst h
    simp [globals, lookup_mapIdx]
  · have h' : (p == pkg) = false := by simpa using h
    simp [h', h]

theorem progs_within (g : Nat) : (progs g : Prog ω).Within g := by
  intro p x b h
  rw [progs_global] at h
  split at h
  · simp only [Option.some.injEq] at h
    split at h
    · next hi => exact .inr ⟨_, hi, h.symm⟩
    · exact .inl h.symm
  · cases h

theorem progs_le {g g' : Nat} (h : g ≤ g') : (progs g : Prog ω).Le (progs g') where
  pkgs := rfl
  methods := rfl
  globals p x := by
    rw [progs_global, progs_global]
    split
    · by_cases hi : names.idxOf x < g
      · exact .inr (by rw [if_pos hi, if_pos (by omega)])
      · exact .inl (by rw [if_neg hi])
    · exact .inr rfl
  value _ _ := .inr rfl
  func _ _ _ := Src.Le.refl _
  method _ _ _ := Src.Le.refl _
  zero _ _ := .inr rfl

/-- Field elements in memory. -/
def encFe (f : Fe) : Val :=
  .arr [.int .int32 f.f0, .int .int32 f.f1, .int .int32 f.f2, .int .int32 f.f3, .int .int32 f.f4, .int .int32 f.f5,
    .int .int32 f.f6, .int .int32 f.f7, .int .int32 f.f8, .int .int32 f.f9]

def decFe : Val → Option Fe
  | .arr [.int .int32 a0, .int .int32 a1, .int .int32 a2, .int .int32 a3, .int .int32 a4, .int .int32 a5,
      .int .int32 a6, .int .int32 a7, .int .int32 a8, .int .int32 a9] => some ⟨a0, a1, a2, a3, a4, a5, a6, a7, a8, a9⟩
  | _ => none

theorem decFe_some {v : Val} {f : Fe} (h : decFe v = some f) : v = encFe f := by
  unfold decFe at h
  split at h
  · cases h; rfl
  · cases h

end EdSrc

end Verif.Src
