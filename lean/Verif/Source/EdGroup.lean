/-
The functions and methods on points of edwards25519.go compute what the model says.
-/
import Verif.Source.EdField
import Verif.Model.ScalarMult

namespace Verif.Src.EdSrc

open Verif.Ed

variable {ω : Type}

/-! ### Values in memory -/

def encProj (p : Proj) : Val :=
  .struct id!"ProjectiveGroupElement" [(id!"X", encFe p.X), (id!"Y", encFe p.Y), (id!"Z", encFe p.Z)]

def decProj : Val → Option Proj
  | .struct t [(f0, a), (f1, b), (f2, c)] =>
    if t = id!"ProjectiveGroupElement" ∧ f0 = id!"X" ∧ f1 = id!"Y" ∧ f2 = id!"Z" then match decFe a, decFe b, decFe c with
      | some x, some y, some z => some ⟨x, y, z⟩
      | _, _, _ => none
    else none
  | _ => none

instance : Enc Proj where
  enc := encProj
  dec := decProj
  dec_some {v p} h := by
    unfold decProj at h
    split at h
    · split at h
      · next e =>
        obtain ⟨rfl, rfl, rfl, rfl⟩ := e
        split at h
        · next ex ey ez =>
          cases h
          rw [decFe_some ex, decFe_some ey, decFe_some ez]
          rfl
        · cases h
      · cases h
    · cases h
  plain _ := rfl

def encExt (p : Ext) : Val :=
  .struct id!"ExtendedGroupElement" [(id!"X", encFe p.X), (id!"Y", encFe p.Y), (id!"Z", encFe p.Z), (id!"T", encFe p.T)]

def decExt : Val → Option Ext
  | .struct t [(f0, a), (f1, b), (f2, c), (f3, d)] =>
    if t = id!"ExtendedGroupElement" ∧ f0 = id!"X" ∧ f1 = id!"Y" ∧ f2 = id!"Z" ∧ f3 = id!"T" then match decFe a, decFe b, decFe c, decFe d with
      | some x, some y, some z, some u => some ⟨x, y, z, u⟩
      | _, _, _, _ => none
    else none
  | _ => none

instance : Enc Ext where
  enc := encExt
  dec := decExt
  dec_some {v p} h := by
    unfold decExt at h
    split at h
    · split at h
      · next e =>
        obtain ⟨rfl, rfl, rfl, rfl, rfl⟩ := e
        split at h
        · next ex ey ez eu =>
          cases h
          rw [decFe_some ex, decFe_some ey, decFe_some ez, decFe_some eu]
          rfl
        · cases h
      · cases h
    · cases h
  plain _ := rfl

def encComp (p : Comp) : Val :=
  .struct id!"CompletedGroupElement" [(id!"X", encFe p.X), (id!"Y", encFe p.Y), (id!"Z", encFe p.Z), (id!"T", encFe p.T)]

def decComp : Val → Option Comp
  | .struct t [(f0, a), (f1, b), (f2, c), (f3, d)] =>
    if t = id!"CompletedGroupElement" ∧ f0 = id!"X" ∧ f1 = id!"Y" ∧ f2 = id!"Z" ∧ f3 = id!"T" then match decFe a, decFe b, decFe c, decFe d with
      | some x, some y, some z, some u => some ⟨x, y, z, u⟩
      | _, _, _, _ => none
    else none
  | _ => none

instance : Enc Comp where
  enc := encComp
  dec := decComp
  dec_some {v p} h := by
    unfold decComp at h
    split at h
    · split at h
      · next e =>
        obtain ⟨rfl, rfl, rfl, rfl, rfl⟩ := e
        split at h
        · next ex ey ez eu =>
          cases h
          rw [decFe_some ex, decFe_some ey, decFe_some ez, decFe_some eu]
          rfl
        · cases h
      · cases h
    · cases h
  plain _ := rfl

def encPre (p : Pre) : Val :=
  .struct id!"PreComputedGroupElement" [(id!"yPlusX", encFe p.yPlusX), (id!"yMinusX", encFe p.yMinusX), (id!"xy2d", encFe p.xy2d)]

def decPre : Val → Option Pre
  | .struct t [(f0, a), (f1, b), (f2, c)] =>
    if t = id!"PreComputedGroupElement" ∧ f0 = id!"yPlusX" ∧ f1 = id!"yMinusX" ∧ f2 = id!"xy2d" then match decFe a, decFe b, decFe c with
      | some x, some y, some z => some ⟨x, y, z⟩
      | _, _, _ => none
    else none
  | _ => none

instance : Enc Pre where
  enc := encPre
  dec := decPre
  dec_some {v p} h := by
    unfold decPre at h
    split at h
    · split at h
      · next e =>
        obtain ⟨rfl, rfl, rfl, rfl⟩ := e
        split at h
        · next ex ey ez =>
          cases h
          rw [decFe_some ex, decFe_some ey, decFe_some ez]
          rfl
        · cases h
      · cases h
    · cases h
  plain _ := rfl

def encCached (p : Cached) : Val :=
  .struct id!"CachedGroupElement" [(id!"yPlusX", encFe p.yPlusX), (id!"yMinusX", encFe p.yMinusX), (id!"Z", encFe p.Z), (id!"T2d", encFe p.T2d)]

def decCached : Val → Option Cached
  | .struct t [(f0, a), (f1, b), (f2, c), (f3, d)] =>
    if t = id!"CachedGroupElement" ∧ f0 = id!"yPlusX" ∧ f1 = id!"yMinusX" ∧ f2 = id!"Z" ∧ f3 = id!"T2d" then match decFe a, decFe b, decFe c, decFe d with
      | some x, some y, some z, some u => some ⟨x, y, z, u⟩
      | _, _, _, _ => none
    else none
  | _ => none

instance : Enc Cached where
  enc := encCached
  dec := decCached
  dec_some {v p} h := by
    unfold decCached at h
    split at h
    · split at h
      · next e =>
        obtain ⟨rfl, rfl, rfl, rfl, rfl⟩ := e
        split at h
        · next ex ey ez eu =>
          cases h
          rw [decFe_some ex, decFe_some ey, decFe_some ez, decFe_some eu]
          rfl
        · cases h
      · cases h
    · cases h
  plain _ := rfl

/-- The first three variables of the package. -/
structure G3 where
  (zero d d2 : Fe)

instance : EncL G3 3 where
  encL c := [encFe c.zero, encFe c.d, encFe c.d2]
  decL vs := match vs with
    | [a, b, c] => match decFe a, decFe b, decFe c with
      | some x, some y, some z => some ⟨x, y, z⟩
      | _, _, _ => none
    | _ => none
  decL_some {vs c} h := by
    split at h
    · split at h
      · next e1 e2 e3 => cases h; rw [decFe_some e1, decFe_some e2, decFe_some e3]
      · cases h
    · cases h
  lengthL _ := rfl
  plainL _ := rfl

/-! ### The functions -/

theorem plain1 {i : Nat} {v : Val} (h : v.refers 0 = false) : Effect.Plain ([(i, v)], []) := by
  simp [Effect.Plain, h]

def sumProjZero : G1 → Proj → List Int → Option Effect := fun c _ =>
  plainly ([(1, encProj ⟨c.zero, oneOf c.zero, oneOf c.zero⟩)], [])

def sumExtZero : G1 → Ext → List Int → Option Effect := fun c _ =>
  plainly ([(1, encExt ⟨c.zero, oneOf c.zero, oneOf c.zero, c.zero⟩)], [])

def sumPreZero : G1 → Pre → List Int → Option Effect := fun c _ =>
  plainly ([(1, encPre ⟨oneOf c.zero, oneOf c.zero, c.zero⟩)], [])

def sumProjDouble : G0 → Proj → Comp → List Int → Option Effect := fun _ p _ => plainly ([(1, encComp p.double)], [])

def sumExtToProj : G0 → Ext → Proj → List Int → Option Effect := fun _ p _ => plainly ([(1, encProj p.toProj)], [])

def sumExtToCached : G3 → Ext → Cached → List Int → Option Effect := fun c p _ =>
  plainly ([(4, encCached ⟨feAdd p.Y p.X, feSub p.Y p.X, p.Z, feMul p.T c.d2⟩)], [])

def sumCompToProj : G0 → Comp → Proj → List Int → Option Effect := fun _ p _ => plainly ([(1, encProj p.toProj)], [])

def sumCompToExt : G0 → Comp → Ext → List Int → Option Effect := fun _ p _ => plainly ([(1, encExt p.toExt)], [])

def sumGeAdd : G0 → Comp → Ext → Cached → List Int → Option Effect := fun _ _ p q => plainly ([(0, encComp (geAdd p q))], [])

def sumGeSub : G0 → Comp → Ext → Cached → List Int → Option Effect := fun _ _ p q => plainly ([(0, encComp (geSub p q))], [])

def sumGeMixedAdd : G0 → Comp → Ext → Pre → List Int → Option Effect := fun _ _ p q =>
  plainly ([(0, encComp (geMixedAdd p q))], [])

def sumGeMixedSub : G0 → Comp → Ext → Pre → List Int → Option Effect := fun _ _ p q =>
  plainly ([(0, encComp (geMixedSub p q))], [])

/-- The bytes of a point, from its coordinates. -/
def rawBytesOf (X Y Z : Fe) : Nat → Int := fun i =>
  if i = 31 then xor8 (rawBytes (feMul Y (feInvert Z)) 31) (u8 (rawIsNegative (feMul X (feInvert Z)) * 2^7))
  else rawBytes (feMul Y (feInvert Z)) i

def sumProjToBytes : G0 → Proj → B32 → List Int → Option Effect := fun _ p _ =>
  plainly ([(1, encInts .uint8 32 (rawBytesOf p.X p.Y p.Z))], [])

def sumExtToBytes : G0 → Ext → B32 → List Int → Option Effect := fun _ p _ =>
  plainly ([(1, encInts .uint8 32 (rawBytesOf p.X p.Y p.Z))], [])

def sumPreCMove : G0 → Pre → Pre → List Int → Option Effect
  | _, t, u, [b] => some ([(0, encPre (preCMove t u b))], [])
  | _, _, _, _ => none

theorem ProjZero_right : Right ω 1 (shape1 sumProjZero) edwards.ProjectiveGroupElement.Zero 400 := by
  refine shape1_right ?_ ?_
  · intro c x l e h
    obtain ⟨rfl, rfl⟩ := plainly_some h
    exact plain1 rfl
  · intro c x l e w h
    obtain ⟨rfl, rfl⟩ := plainly_some h
    refine table2_ok.run (n := 40) ?_
    krfl

theorem ExtZero_right : Right ω 1 (shape1 sumExtZero) edwards.ExtendedGroupElement.Zero 400 := by
  refine shape1_right ?_ ?_
  · intro c x l e h
    obtain ⟨rfl, rfl⟩ := plainly_some h
    exact plain1 rfl
  · intro c x l e w h
    obtain ⟨rfl, rfl⟩ := plainly_some h
    refine table2_ok.run (n := 40) ?_
    krfl

theorem PreZero_right : Right ω 1 (shape1 sumPreZero) edwards.PreComputedGroupElement.Zero 400 := by
  refine shape1_right ?_ ?_
  · intro c x l e h
    obtain ⟨rfl, rfl⟩ := plainly_some h
    exact plain1 rfl
  · intro c x l e w h
    obtain ⟨rfl, rfl⟩ := plainly_some h
    refine table2_ok.run (n := 40) ?_
    krfl

theorem ProjDouble_right : Right ω 0 (shape2 sumProjDouble) edwards.ProjectiveGroupElement.Double 400 := by
  refine shape2_right ?_ ?_
  · intro c x y l e h
    obtain ⟨rfl, rfl⟩ := plainly_some h
    exact plain1 rfl
  · intro c x y l e w h
    obtain ⟨rfl, rfl⟩ := plainly_some h
    refine table2_ok.run (n := 40) ?_
    krfl

theorem ExtToProj_right : Right ω 0 (shape2 sumExtToProj) edwards.ExtendedGroupElement.ToProjective 400 := by
  refine shape2_right ?_ ?_
  · intro c x y l e h
    obtain ⟨rfl, rfl⟩ := plainly_some h
    exact plain1 rfl
  · intro c x y l e w h
    obtain ⟨rfl, rfl⟩ := plainly_some h
    refine table2_ok.run (n := 40) ?_
    krfl

theorem ExtToCached_right : Right ω 3 (shape2 sumExtToCached) edwards.ExtendedGroupElement.ToCached 400 := by
  refine shape2_right ?_ ?_
  · intro c x y l e h
    obtain ⟨rfl, rfl⟩ := plainly_some h
    exact plain1 rfl
  · intro c x y l e w h
    obtain ⟨rfl, rfl⟩ := plainly_some h
    refine table2_ok.run (n := 40) ?_
    krfl

theorem CompToProj_right : Right ω 0 (shape2 sumCompToProj) edwards.CompletedGroupElement.ToProjective 400 := by
  refine shape2_right ?_ ?_
  · intro c x y l e h
    obtain ⟨rfl, rfl⟩ := plainly_some h
    exact plain1 rfl
  · intro c x y l e w h
    obtain ⟨rfl, rfl⟩ := plainly_some h
    refine table2_ok.run (n := 40) ?_
    krfl

theorem CompToExt_right : Right ω 0 (shape2 sumCompToExt) edwards.CompletedGroupElement.ToExtended 400 := by
  refine shape2_right ?_ ?_
  · intro c x y l e h
    obtain ⟨rfl, rfl⟩ := plainly_some h
    exact plain1 rfl
  · intro c x y l e w h
    obtain ⟨rfl, rfl⟩ := plainly_some h
    refine table2_ok.run (n := 40) ?_
    krfl

theorem GeAdd_right : Right ω 0 (shape3 sumGeAdd) edwards.geAdd 400 := by
  refine shape3_right ?_ ?_
  · intro c x y z l e h
    obtain ⟨rfl, rfl⟩ := plainly_some h
    exact plain1 rfl
  · intro c x y z l e w h
    obtain ⟨rfl, rfl⟩ := plainly_some h
    refine table2_ok.run (n := 40) ?_
    krfl

theorem GeSub_right : Right ω 0 (shape3 sumGeSub) edwards.geSub 400 := by
  refine shape3_right ?_ ?_
  · intro c x y z l e h
    obtain ⟨rfl, rfl⟩ := plainly_some h
    exact plain1 rfl
  · intro c x y z l e w h
    obtain ⟨rfl, rfl⟩ := plainly_some h
    refine table2_ok.run (n := 40) ?_
    krfl

theorem GeMixedAdd_right : Right ω 0 (shape3 sumGeMixedAdd) edwards.geMixedAdd 400 := by
  refine shape3_right ?_ ?_
  · intro c x y z l e h
    obtain ⟨rfl, rfl⟩ := plainly_some h
    exact plain1 rfl
  · intro c x y z l e w h
    obtain ⟨rfl, rfl⟩ := plainly_some h
    refine table2_ok.run (n := 40) ?_
    krfl

theorem GeMixedSub_right : Right ω 0 (shape3 sumGeMixedSub) edwards.geMixedSub 400 := by
  refine shape3_right ?_ ?_
  · intro c x y z l e h
    obtain ⟨rfl, rfl⟩ := plainly_some h
    exact plain1 rfl
  · intro c x y z l e w h
    obtain ⟨rfl, rfl⟩ := plainly_some h
    refine table2_ok.run (n := 40) ?_
    krfl

theorem ProjToBytes_right : Right ω 0 (shape2 sumProjToBytes) edwards.ProjectiveGroupElement.ToBytes 400 := by
  refine shape2_right ?_ ?_
  · intro c x y l e h
    obtain ⟨rfl, rfl⟩ := plainly_some h
    exact plain1 (encInts_plain _ _ _)
  · intro c x y l e w h
    obtain ⟨rfl, rfl⟩ := plainly_some h
    refine table2_ok.run (n := 40) ?_
    krfl

theorem ExtToBytes_right : Right ω 0 (shape2 sumExtToBytes) edwards.ExtendedGroupElement.ToBytes 400 := by
  refine shape2_right ?_ ?_
  · intro c x y l e h
    obtain ⟨rfl, rfl⟩ := plainly_some h
    exact plain1 (encInts_plain _ _ _)
  · intro c x y l e w h
    obtain ⟨rfl, rfl⟩ := plainly_some h
    refine table2_ok.run (n := 40) ?_
    krfl

theorem PreCMove_right : Right ω 0 (shape2 sumPreCMove) edwards.PreComputedGroupElementCMove 400 := by
  refine shape2_right ?_ ?_
  · intro c x y l e h
    unfold sumPreCMove at h
    split at h
    · cases h; exact plain1 rfl
    · cases h
  · intro c x y l e w h
    unfold sumPreCMove at h
    split at h
    · cases h
      refine table2_ok.run (n := 40) ?_
      krfl
    · cases h

/-- edwards25519.go:932-936 `equal`. -/
def rawEqual (b c : Int) : Int := w32 (sar ((xor32 b c % 2^32 - 1) % 2^32) 31)

/-- edwards25519.go:939-941 `negative`. -/
def rawNegative (b : Int) : Int := and32 (sar b 31) 1

def sumEqual : List Int → Option Effect
  | [b, c] => some ([], [.int .int32 (rawEqual b c)])
  | _ => none

def sumNegative : List Int → Option Effect
  | [b] => some ([], [.int .int32 (rawNegative b)])
  | _ => none

theorem Equal_right : Right ω 0 (shape0 sumEqual) edwards.equal 400 := by
  refine shape0_right ?_ ?_
  · intro l e h
    unfold sumEqual at h
    split at h
    · cases h; simp [Effect.Plain, Val.refers]
    · cases h
  · intro l e w h
    unfold sumEqual at h
    split at h
    · cases h; krfl
    · cases h

theorem Negative_right : Right ω 0 (shape0 sumNegative) edwards.negative 400 := by
  refine shape0_right ?_ ?_
  · intro l e h
    unfold sumNegative at h
    split at h
    · cases h; simp [Effect.Plain, Val.refers]
    · cases h
  · intro l e w h
    unfold sumNegative at h
    split at h
    · cases h; krfl
    · cases h

/-- The table of the functions above. -/
noncomputable def table3 : Table where
  funcs := table2.funcs ++ [(id!"geAdd", 0, shape3 sumGeAdd),
    (id!"geSub", 0, shape3 sumGeSub),
    (id!"geMixedAdd", 0, shape3 sumGeMixedAdd),
    (id!"geMixedSub", 0, shape3 sumGeMixedSub),
    (id!"PreComputedGroupElementCMove", 0, shape2 sumPreCMove),
    (id!"equal", 0, shape0 sumEqual),
    (id!"negative", 0, shape0 sumNegative)]
  methods := [((id!"ProjectiveGroupElement", id!"Zero"), 1, shape1 sumProjZero),
    ((id!"ExtendedGroupElement", id!"Zero"), 1, shape1 sumExtZero),
    ((id!"PreComputedGroupElement", id!"Zero"), 1, shape1 sumPreZero),
    ((id!"ProjectiveGroupElement", id!"Double"), 0, shape2 sumProjDouble),
    ((id!"ExtendedGroupElement", id!"ToProjective"), 0, shape2 sumExtToProj),
    ((id!"ExtendedGroupElement", id!"ToCached"), 3, shape2 sumExtToCached),
    ((id!"CompletedGroupElement", id!"ToProjective"), 0, shape2 sumCompToProj),
    ((id!"CompletedGroupElement", id!"ToExtended"), 0, shape2 sumCompToExt),
    ((id!"ProjectiveGroupElement", id!"ToBytes"), 0, shape2 sumProjToBytes),
    ((id!"ExtendedGroupElement", id!"ToBytes"), 0, shape2 sumExtToBytes)]

theorem table3_ok : table3.Ok ω 400 where
  funcs e he := by
    rcases List.mem_append.1 he with he | he
    · exact (table2_ok.more (by decide)).funcs e he
    · simp only [List.mem_cons, List.not_mem_nil, or_false] at he
      rcases he with rfl | rfl | rfl | rfl | rfl | rfl | rfl
      · exact ⟨_, rfl, GeAdd_right⟩
      · exact ⟨_, rfl, GeSub_right⟩
      · exact ⟨_, rfl, GeMixedAdd_right⟩
      · exact ⟨_, rfl, GeMixedSub_right⟩
      · exact ⟨_, rfl, PreCMove_right⟩
      · exact ⟨_, rfl, Equal_right⟩
      · exact ⟨_, rfl, Negative_right⟩
  methods e he := by
    simp only [table3, List.mem_cons, List.not_mem_nil, or_false] at he
    rcases he with rfl | rfl | rfl | rfl | rfl | rfl | rfl | rfl | rfl | rfl
    · exact ⟨_, rfl, ProjZero_right⟩
    · exact ⟨_, rfl, ExtZero_right⟩
    · exact ⟨_, rfl, PreZero_right⟩
    · exact ⟨_, rfl, ProjDouble_right⟩
    · exact ⟨_, rfl, ExtToProj_right⟩
    · exact ⟨_, rfl, ExtToCached_right⟩
    · exact ⟨_, rfl, CompToProj_right⟩
    · exact ⟨_, rfl, CompToExt_right⟩
    · exact ⟨_, rfl, ProjToBytes_right⟩
    · exact ⟨_, rfl, ExtToBytes_right⟩

def sumExtDouble : G0 → Ext → Comp → List Int → Option Effect := fun _ p _ => plainly ([(1, encComp p.double)], [])

theorem ExtDouble_right : Right ω 0 (shape2 sumExtDouble) edwards.ExtendedGroupElement.Double 500 := by
  refine shape2_right ?_ ?_
  · intro c x y l e h
    obtain ⟨rfl, rfl⟩ := plainly_some h
    exact plain1 rfl
  · intro c x y l e w h
    obtain ⟨rfl, rfl⟩ := plainly_some h
    refine table3_ok.run (n := 100) ?_
    krfl

/-! ### Multiples of the base point -/

/-- Tables of 32 rows of 8 points. -/
def encTable (b : Nat → Nat → Pre) : Val :=
  .arr ((List.range 32).map fun i => .arr ((List.range 8).map fun j => encPre (b i j)))

/-- Lists of values of a type. -/
def decAll {α : Type} (dec : Val → Option α) : List Val → Option (List α)
  | [] => some []
  | v :: vs => match dec v with
    | some a => match decAll dec vs with
      | some l => some (a :: l)
      | none => none
    | none => none

theorem decAll_some {α : Type} {dec : Val → Option α} {enc : α → Val} (h : ∀ v a, dec v = some a → v = enc a) {vs : List Val}
    {l : List α} (k : decAll dec vs = some l) : vs = l.map enc := by
  induction vs generalizing l with
  | nil => cases k; rfl
  | cons v vs ih =>
    unfold decAll at k
    split at k
    · next e1 =>
      split at k
      · next e2 => cases k; rw [h _ _ e1, ih e2]; rfl
      · cases k
    · cases k

def decRow : Val → Option (Nat → Pre)
  | .arr vs => match decAll decPre vs with
    | some l => if l.length = 8 then some fun i => l.getD i Pre.zero else none
    | none => none
  | _ => none

def encRow (b : Nat → Pre) : Val := .arr ((List.range 8).map fun j => encPre (b j))

theorem getD_range' {α : Type} (l : List α) (d : α) : (List.range l.length).map (fun i => l.getD i d) = l := by
  apply List.ext_getElem
  · simp
  · intro i h1 h2
    simp only [List.getElem_map, List.getElem_range]
    rw [List.getD_eq_getElem?_getD, List.getElem?_eq_getElem h2]
    rfl

theorem decRow_some (v : Val) (b : Nat → Pre) (h : decRow v = some b) : v = encRow b := by
  unfold decRow at h
  split at h
  · split at h
    · next l e =>
      split at h
      · next hl =>
        cases h
        rw [decAll_some (enc := encPre) (fun _ _ h => Enc.dec_some h) e]
        have := congrArg (List.map encPre) (getD_range' l Pre.zero)
        rw [List.map_map, hl] at this
        exact congrArg Val.arr this.symm
      · cases h
    · cases h
  · cases h

def decTable : Val → Option (Nat → Nat → Pre)
  | .arr vs => match decAll decRow vs with
    | some l => if l.length = 32 then some fun i => l.getD i (fun _ => Pre.zero) else none
    | none => none
  | _ => none

theorem decTable_some {v : Val} {b : Nat → Nat → Pre} (h : decTable v = some b) : v = encTable b := by
  unfold decTable at h
  split at h
  · split at h
    · next l e =>
      split at h
      · next hl =>
        cases h
        rw [decAll_some (enc := encRow) decRow_some e]
        have := congrArg (List.map encRow) (getD_range' l fun _ => Pre.zero)
        rw [List.map_map, hl] at this
        exact congrArg Val.arr this.symm
      · cases h
    · cases h
  · cases h

theorem encTable_plain (b : Nat → Nat → Pre) : (encTable b).refers 0 = false := by
  show Val.anyRefers 0 _ = false
  rw [Val.anyRefers_false]
  intro v hv
  obtain ⟨i, _, rfl⟩ := List.mem_map.1 hv
  show Val.anyRefers 0 _ = false
  rw [Val.anyRefers_false]
  intro v hv
  obtain ⟨j, _, rfl⟩ := List.mem_map.1 hv
  rfl

/-- The first five variables of the package. -/
structure G5 where
  (zero d d2 sqrtM1 : Fe)
  base : Nat → Nat → Pre

instance : EncL G5 5 where
  encL c := [encFe c.zero, encFe c.d, encFe c.d2, encFe c.sqrtM1, encTable c.base]
  decL vs := match vs with
    | [a, b, c, d, t] => match decFe a, decFe b, decFe c, decFe d, decTable t with
      | some x, some y, some z, some u, some v => some ⟨x, y, z, u, v⟩
      | _, _, _, _, _ => none
    | _ => none
  decL_some {vs c} h := by
    split at h
    · split at h
      · next e1 e2 e3 e4 e5 => cases h; rw [decFe_some e1, decFe_some e2, decFe_some e3, decFe_some e4, decTable_some e5]
      · cases h
    · cases h
  lengthL _ := rfl
  plainL c := by simp [Val.anyRefers, encFe_plain, encTable_plain]

/-- A row of the table. -/
def G5.row (c : G5) (pos : Nat) : List Pre := (List.range 8).map (c.base pos)

/-- edwards25519.go:949-962 `selectPoint`. -/
def rawSelect (zero : Fe) (row : List Pre) (b : Int) : Pre :=
  let bNegative := rawNegative b
  let bAbs := w32 (b - w32 (and32 (w32 (-bNegative)) b * 2^1))
  let t := (List.range 8).foldl (fun t i => preCMove t (row.getD i Pre.zero) (rawEqual bAbs (w32 (i + 1))))
    (⟨oneOf zero, oneOf zero, zero⟩ : Pre)
  preCMove t ⟨t.yMinusX, t.yPlusX, feNeg t.xy2d⟩ bNegative

def sumSelect : G5 → Pre → List Int → Option Effect
  | c, _, [.ofNat pos, b] => if pos < 32 then some ([(5, encPre (rawSelect c.zero (c.row pos) b))], []) else none
  | _, _, _ => none

end Verif.Src.EdSrc
