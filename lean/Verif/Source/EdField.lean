/-
The field functions of edwards25519.go compute what the model says, wherever their arguments point to.
-/
import Verif.Source.Shapes
import Verif.Source.EdSquare

namespace Verif.Src.EdSrc

open Verif.Ed

variable {ω : Type}

/-! ### Values in memory -/

instance : Enc Fe := ⟨encFe, decFe, decFe_some, fun _ => rfl⟩

/-- Arrays of `n` integers. -/
def Ints (_t : ITy) (_n : Nat) : Type := Nat → Int

def encInts (t : ITy) (n : Nat) (b : Nat → Int) : Val := .arr ((List.range n).map fun i => .int t (b i))

/-- The integers of a list of values, if they have a type. -/
def intsIn (t : ITy) : List Val → Option (List Int)
  | [] => some []
  | .int u a :: vs => if u = t then match intsIn t vs with
      | some l => some (a :: l)
      | none => none
    else none
  | _ => none

def decInts (t : ITy) (n : Nat) : Val → Option (Nat → Int)
  | .arr vs => match intsIn t vs with
    | some l => if l.length = n then some fun i => l.getD i 0 else none
    | none => none
  | _ => none

theorem intsIn_some {t : ITy} {vs : List Val} {l : List Int} (h : intsIn t vs = some l) : vs = l.map (.int t ·) := by
  induction vs generalizing l with
  | nil => cases h; rfl
  | cons v vs ih =>
    cases v <;> try cases h
    unfold intsIn at h
    split at h
    · next e =>
      subst e
      split at h
      · next e => cases h; rw [ih e]; rfl
      · cases h
    · cases h

theorem getD_range (l : List Int) : (List.range l.length).map (fun i => l.getD i 0) = l := by
  apply List.ext_getElem
  · simp
  · intro i h1 h2
    simp only [List.getElem_map, List.getElem_range]
    rw [List.getD_eq_getElem?_getD, List.getElem?_eq_getElem h2]
    rfl

theorem decInts_some {t : ITy} {n : Nat} {v : Val} {b : Nat → Int} (h : decInts t n v = some b) : v = encInts t n b := by
  unfold decInts at h
  split at h
  · split at h
    · next l e =>
      split at h
      · next hl =>
        cases h
        subst hl
        rw [intsIn_some e]
        have := congrArg (List.map (Val.int t)) (getD_range l)
        rw [List.map_map] at this
        exact congrArg Val.arr this.symm
      · cases h
    · cases h
  · cases h

theorem encInts_plain (t : ITy) (n : Nat) (b : Nat → Int) : (encInts t n b).refers 0 = false := by
  show Val.anyRefers 0 _ = false
  rw [Val.anyRefers_false]
  intro v hv
  obtain ⟨i, _, rfl⟩ := List.mem_map.1 hv
  rfl

instance (t : ITy) (n : Nat) : Enc (Ints t n) := ⟨encInts t n, decInts t n, decInts_some, encInts_plain t n⟩

/-- Arrays of 32 bytes. -/
abbrev B32 := Ints .uint8 32

/-- No variable of the package. -/
structure G0 where

/-- The first variable of the package. -/
structure G1 where
  zero : Fe

instance : EncL G0 0 where
  encL _ := []
  decL vs := match vs with
    | [] => some ⟨⟩
    | _ => none
  decL_some {vs c} h := by
    split at h
    · rfl
    · cases h
  lengthL _ := rfl
  plainL _ := rfl

instance : EncL G1 1 where
  encL c := [encFe c.zero]
  decL vs := match vs with
    | [a] => match decFe a with
      | some z => some ⟨z⟩
      | none => none
    | _ => none
  decL_some {vs c} h := by
    split at h
    · split at h
      · next e => cases h; rw [decFe_some e]
      · cases h
    · cases h
  lengthL _ := rfl
  plainL _ := rfl

/-! ### The functions -/

/-- No further arguments, and no pointers in the effect. -/
def plainly (e : Effect) (l : List Int) : Option Effect := match l with
  | [] => some e
  | _ => none

theorem plainly_some {e e' : Effect} {l : List Int} (h : plainly e l = some e') : l = [] ∧ e = e' := by
  unfold plainly at h
  split at h
  · cases h; exact ⟨rfl, rfl⟩
  · cases h

def sumFeZero : G1 → Fe → List Int → Option Effect := fun c _ => plainly ([(1, encFe c.zero)], [])

/-- edwards25519.go:24-27 -/
def oneOf (z : Fe) : Fe := { z with f0 := 1 }

def sumFeOne : G1 → Fe → List Int → Option Effect := fun c _ => plainly ([(1, encFe (oneOf c.zero))], [])

def sumFeCMove : G0 → Fe → Fe → List Int → Option Effect
  | _, f, g, [b] => some ([(0, encFe (feCMove f g b))], [])
  | _, _, _, _ => none

def sumFeFromBytes : G0 → Fe → B32 → List Int → Option Effect := fun _ _ b => plainly ([(0, encFe (rawFromBytes b))], [])

def sumFeToBytes : G0 → B32 → Fe → List Int → Option Effect := fun _ _ h =>
  plainly ([(0, encInts .uint8 32 (rawBytes h)), (1, encFe (feReduce h))], [])

theorem FeZero_right : Right ω 1 (shape1 sumFeZero) edwards.FeZero 60 := by
  refine shape1_right ?_ ?_
  · intro c x l e h
    obtain ⟨rfl, rfl⟩ := plainly_some h
    simp [Effect.Plain, encFe_plain]
  · intro c x l e w h
    obtain ⟨rfl, rfl⟩ := plainly_some h
    krfl

theorem FeOne_right : Right ω 1 (shape1 sumFeOne) edwards.FeOne 60 := by
  refine shape1_right ?_ ?_
  · intro c x l e h
    obtain ⟨rfl, rfl⟩ := plainly_some h
    simp [Effect.Plain, encFe_plain]
  · intro c x l e w h
    obtain ⟨rfl, rfl⟩ := plainly_some h
    krfl

theorem FeAdd_right : Right ω 0 (alias3 feAdd) edwards.FeAdd 60 := by
  refine alias3_right ?_ ?_ ?_ ?_ ?_
  · intro a w; krfl
  · intro a b w; krfl
  · intro a b w; krfl
  · intro h a w; krfl
  · intro h a b w; krfl

theorem FeSub_right : Right ω 0 (alias3 feSub) edwards.FeSub 60 := by
  refine alias3_right ?_ ?_ ?_ ?_ ?_
  · intro a w; krfl
  · intro a b w; krfl
  · intro a b w; krfl
  · intro h a w; krfl
  · intro h a b w; krfl

theorem FeCopy_right : Right ω 0 (alias2 id) edwards.FeCopy 60 := by
  refine alias2_right ?_ ?_
  · intro a w; krfl
  · intro h a w; krfl

theorem FeNeg_right : Right ω 0 (alias2 feNeg) edwards.FeNeg 60 := by
  refine alias2_right ?_ ?_
  · intro a w; krfl
  · intro h a w; krfl

theorem FeMul_right : Right ω 0 (alias3 feMul) edwards.FeMul 60 := by
  rw [show feMul = rawMul from funext fun f => funext fun g => (rawMul_eq f g).symm]
  refine alias3_right ?_ ?_ ?_ ?_ ?_
  · intro a w; krfl
  · intro a b w; krfl
  · intro a b w; krfl
  · intro h a w; krfl
  · intro h a b w; krfl

theorem FeSquare_right : Right ω 0 (alias2 feSquare) edwards.FeSquare 60 := by
  rw [show feSquare = rawSquare from funext fun f => (rawSquare_eq f).symm]
  refine alias2_right ?_ ?_
  · intro a w; krfl
  · intro h a w; krfl

theorem FeSquare2_right : Right ω 0 (alias2 feSquare2) edwards.FeSquare2 60 := by
  rw [show feSquare2 = rawSquare2 from funext fun f => (rawSquare2_eq f).symm]
  refine alias2_right ?_ ?_
  · intro a w; krfl
  · intro h a w; krfl

theorem FeCMove_right : Right ω 0 (shape2 sumFeCMove) edwards.FeCMove 60 := by
  refine shape2_right ?_ ?_
  · intro c x y l e h
    unfold sumFeCMove at h
    split at h
    · cases h; simp [Effect.Plain, encFe_plain]
    · cases h
  · intro c x y l e w h
    unfold sumFeCMove at h
    split at h
    · cases h
      rw [← rawCMove_eq]
      krfl
    · cases h

theorem FeFromBytes_right : Right ω 0 (shape2 sumFeFromBytes) edwards.FeFromBytes 60 := by
  refine shape2_right ?_ ?_
  · intro c x y l e h
    obtain ⟨rfl, rfl⟩ := plainly_some h
    simp [Effect.Plain, encFe_plain]
  · intro c x y l e w h
    obtain ⟨rfl, rfl⟩ := plainly_some h
    krfl

theorem FeToBytes_right : Right ω 0 (shape2 sumFeToBytes) edwards.FeToBytes 60 := by
  refine shape2_right ?_ ?_
  · intro c x y l e h
    obtain ⟨rfl, rfl⟩ := plainly_some h
    simp [Effect.Plain, encFe_plain, encInts_plain]
  · intro c x y l e w h
    obtain ⟨rfl, rfl⟩ := plainly_some h
    rw [← rawReduce_eq]
    krfl

/-! ### Functions that call other functions -/

/-- Summaries of functions and of methods, with the number of variables of the package they use. -/
structure Table where
  funcs : List (Id × Nat × (List Val → List Val → Option Effect))
  methods : List ((Id × Id) × Nat × (List Val → List Val → Option Effect))

/-- The summaries that use only the first `g` variables of the package. -/
def Table.known (T : Table) (g : Nat) : Known ω where
  func p x := if p = pkg then match T.funcs.lookup x with
      | some (g', F) => if g' ≤ g then some (summary g' F) else none
      | none => none
    else none
  method t m := match T.methods.lookup (t, m) with
    | some (g', F) => if g' ≤ g then some (summary g' F) else none
    | none => none

/-- The summaries of a table are right. -/
structure Table.Ok (ω : Type) (T : Table) (k : Nat) : Prop where
  funcs : ∀ e ∈ T.funcs, ∃ f, edwards.funcs.lookup e.1 = some f ∧ Right ω e.2.1 e.2.2 f k
  methods : ∀ e ∈ T.methods, ∃ f, edwards.methods.lookup e.1 = some (pkg, f) ∧ Right ω e.2.1 e.2.2 f k

theorem mem_of_lookup {κ β : Type} [BEq κ] [LawfulBEq κ] {l : List (κ × β)} {a : κ} {b : β} (h : l.lookup a = some b) : (a, b) ∈ l := by
  induction l with
  | nil => cases h
  | cons e l ih =>
    obtain ⟨a', b'⟩ := e
    rw [List.lookup_cons] at h
    split at h
    · next e => cases h; rw [eq_of_beq e]; exact List.mem_cons_self
    · exact List.mem_cons_of_mem _ (ih h)

theorem Table.Ok.sound {T : Table} {k : Nat} (h : T.Ok ω k) (g : Nat) : Known.Sound (progs g : Prog ω) (T.known g) k where
  func p x S e := by
    unfold Table.known at e
    simp only at e
    split at e
    · next hp =>
      subst hp
      split at e
      · next g' F hl =>
        split at e
        · next hg =>
          cases e
          obtain ⟨f, h1, h2⟩ := h.funcs _ (mem_of_lookup hl)
          exact ⟨⟨edwards.types, edwards.funcs⟩, f, by simp [progs], h1, h2 g hg⟩
        · cases e
      · cases e
    · cases e
  method t m S e := by
    unfold Table.known at e
    simp only at e
    split at e
    · next g' F hl =>
      split at e
      · next hg =>
        cases e
        obtain ⟨f, h1, h2⟩ := h.methods _ (mem_of_lookup hl)
        exact ⟨pkg, f, h1, h2 g hg⟩
      · cases e
    · cases e

/-- What is shown with summaries is so. -/
theorem Table.Ok.run {T : Table} {k : Nat} (h : T.Ok ω k) {g n : Nat} {f : Func} {args rs : List Val} {s t : St ω}
    (e : (interpK (progs g) (T.known g) n).call pkg f args s = .ok rs t) :
    (interp (progs g) (n + k)).call pkg f args s = .ok rs t := by
  rcases (interpK_le (h.sound g) n).call pkg f args s with h | h
  · rw [e] at h; cases h
  · rw [h, e]

theorem Table.Ok.more {T : Table} {k k' : Nat} (h : T.Ok ω k) (hk : k ≤ k') : T.Ok ω k' where
  funcs e he := let ⟨f, h1, h2⟩ := h.funcs e he; ⟨f, h1, h2.more hk⟩
  methods e he := let ⟨f, h1, h2⟩ := h.methods e he; ⟨f, h1, h2.more hk⟩

/-- The table of the functions above. -/
noncomputable def table1 : Table where
  funcs := [(id!"FeMul", 0, alias3 feMul), (id!"FeSquare", 0, alias2 feSquare), (id!"FeAdd", 0, alias3 feAdd),
    (id!"FeSub", 0, alias3 feSub), (id!"FeCopy", 0, alias2 id), (id!"FeNeg", 0, alias2 feNeg),
    (id!"FeSquare2", 0, alias2 feSquare2), (id!"FeCMove", 0, shape2 sumFeCMove),
    (id!"FeFromBytes", 0, shape2 sumFeFromBytes), (id!"FeToBytes", 0, shape2 sumFeToBytes),
    (id!"FeZero", 1, shape1 sumFeZero), (id!"FeOne", 1, shape1 sumFeOne)]
  methods := []

theorem table1_ok : table1.Ok ω 60 where
  funcs := by
    simp only [table1, List.forall_mem_cons, List.not_mem_nil, false_imp_iff, implies_true, and_true]
    exact ⟨⟨_, rfl, FeMul_right⟩, ⟨_, rfl, FeSquare_right⟩, ⟨_, rfl, FeAdd_right⟩, ⟨_, rfl, FeSub_right⟩,
      ⟨_, rfl, FeCopy_right⟩, ⟨_, rfl, FeNeg_right⟩, ⟨_, rfl, FeSquare2_right⟩, ⟨_, rfl, FeCMove_right⟩,
      ⟨_, rfl, FeFromBytes_right⟩, ⟨_, rfl, FeToBytes_right⟩, ⟨_, rfl, FeZero_right⟩, ⟨_, rfl, FeOne_right⟩⟩
  methods := by simp [table1]

theorem FeInvert_right : Right ω 0 (alias2 feInvert) edwards.FeInvert 360 := by
  refine alias2_right ?_ ?_
  · intro a w; refine table1_ok.run (n := 300) ?_; krfl
  · intro h a w; refine table1_ok.run (n := 300) ?_; krfl

theorem fePow22523_right : Right ω 0 (alias2 fePow22523) edwards.fePow22523 360 := by
  refine alias2_right ?_ ?_
  · intro a w; refine table1_ok.run (n := 300) ?_; krfl
  · intro h a w; refine table1_ok.run (n := 300) ?_; krfl

def sumFeIsNegative : G0 → Fe → List Int → Option Effect := fun _ f =>
  plainly ([(0, encFe (feReduce f))], [.int .uint8 (rawIsNegative f)])

def sumFeIsNonZero : G0 → Fe → List Int → Option Effect := fun _ f =>
  plainly ([(0, encFe (feReduce f))], [.int .int32 (rawIsNonZero f)])

theorem FeIsNegative_right : Right ω 0 (shape1 sumFeIsNegative) edwards.FeIsNegative 360 := by
  refine shape1_right ?_ ?_
  · intro c x l e h
    obtain ⟨rfl, rfl⟩ := plainly_some h
    simp [Effect.Plain, encFe_plain, Val.refers]
  · intro c x l e w h
    obtain ⟨rfl, rfl⟩ := plainly_some h
    refine table1_ok.run (n := 300) ?_
    krfl

theorem FeIsNonZero_right : Right ω 0 (shape1 sumFeIsNonZero) edwards.FeIsNonZero 360 := by
  refine shape1_right ?_ ?_
  · intro c x l e h
    obtain ⟨rfl, rfl⟩ := plainly_some h
    simp [Effect.Plain, encFe_plain, Val.refers]
  · intro c x l e w h
    obtain ⟨rfl, rfl⟩ := plainly_some h
    refine table1_ok.run (n := 300) ?_
    krfl

/-- The table of all functions on elements of the field. -/
noncomputable def table2 : Table where
  funcs := table1.funcs ++ [(id!"FeInvert", 0, alias2 feInvert), (id!"fePow22523", 0, alias2 fePow22523),
    (id!"FeIsNegative", 0, shape1 sumFeIsNegative), (id!"FeIsNonZero", 0, shape1 sumFeIsNonZero)]
  methods := []

theorem table2_ok : table2.Ok ω 360 where
  funcs e he := by
    rcases List.mem_append.1 he with he | he
    · exact (table1_ok.more (by decide)).funcs e he
    · simp only [List.mem_cons, List.not_mem_nil, or_false] at he
      rcases he with rfl | rfl | rfl | rfl
      · exact ⟨_, rfl, FeInvert_right⟩
      · exact ⟨_, rfl, fePow22523_right⟩
      · exact ⟨_, rfl, FeIsNegative_right⟩
      · exact ⟨_, rfl, FeIsNonZero_right⟩
  methods := by simp [table2]

end Verif.Src.EdSrc
