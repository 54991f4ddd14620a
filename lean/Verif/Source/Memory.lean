/-
Reading and writing parts of values and of memory: a place holds what was written to it last, and writing to one of two
places that have no part in common leaves the other as it was.
-/
import Verif.Source.Semantics

namespace Verif.Src

/-- The ways part: they lead to parts that have nothing in common. -/
def diverge : List Sel → List Sel → Bool
  | s :: p, t :: q => s ≠ t || diverge p q
  | _, _ => false

theorem diverge_cons {s t : Sel} {p q : List Sel} : diverge (s :: p) (t :: q) = true ↔ s ≠ t ∨ (s = t ∧ diverge p q = true) := by
  simp only [diverge, ne_eq, decide_not, Bool.or_eq_true, Bool.not_eq_eq_eq_not, Bool.not_true, decide_eq_false_iff_not]
  by_cases h : s = t <;> simp [h]

theorem diverge_comm (p q : List Sel) : diverge p q = diverge q p := by
  induction p generalizing q with
  | nil => cases q <;> rfl
  | cons s p ih =>
    cases q with
    | nil => rfl
    | cons t q =>
      rw [Bool.eq_iff_iff, diverge_cons, diverge_cons, ih q]
      constructor <;> rintro (h | ⟨rfl, h⟩)
      · exact .inl (Ne.symm h)
      · exact .inr ⟨rfl, h⟩
      · exact .inl (Ne.symm h)
      · exact .inr ⟨rfl, h⟩

theorem diverge_append {p q : List Sel} (h : diverge p q = true) (p' q' : List Sel) : diverge (p ++ p') (q ++ q') = true := by
  induction p generalizing q with
  | nil => cases q <;> simp [diverge] at h
  | cons s p ih =>
    cases q with
    | nil => simp [diverge] at h
    | cons t q =>
      rw [List.cons_append, List.cons_append, diverge_cons]
      rw [diverge_cons] at h
      exact h.imp_right fun ⟨e, h⟩ => ⟨e, ih h⟩

/-! ### Fields -/

theorem lookup_setField_self {f : Id} {v w : Val} {fs : List (Id × Val)} (h : fs.lookup f = some w) :
    (setField f v fs).lookup f = some v := by
  induction fs with
  | nil => simp at h
  | cons b fs ih =>
    obtain ⟨g, u⟩ := b
    unfold setField
    by_cases e : g = f
    · simp [e]
    · rw [if_neg e, List.lookup_cons]
      rw [List.lookup_cons] at h
      have : (f == g) = false := by simp [Ne.symm e]
      rw [this] at h ⊢
      exact ih h

theorem lookup_setField_of_ne {f g : Id} (n : f ≠ g) (v : Val) (fs : List (Id × Val)) :
    (setField f v fs).lookup g = fs.lookup g := by
  induction fs with
  | nil => rfl
  | cons b fs ih =>
    obtain ⟨k, u⟩ := b
    unfold setField
    by_cases e : k = f
    · rw [if_pos e, List.lookup_cons, List.lookup_cons]
      have : (g == k) = false := by simp [e, Ne.symm n]
      rw [this]
    · rw [if_neg e, List.lookup_cons, List.lookup_cons, ih]

theorem setField_setField (f : Id) (v w : Val) (fs : List (Id × Val)) :
    setField f w (setField f v fs) = setField f w fs := by
  induction fs with
  | nil => rfl
  | cons b fs ih =>
    obtain ⟨g, u⟩ := b
    by_cases e : g = f
    · simp [setField, e]
    · simp [setField, e, ih]

theorem setField_comm {f g : Id} (n : f ≠ g) (v w : Val) (fs : List (Id × Val)) :
    setField g w (setField f v fs) = setField f v (setField g w fs) := by
  induction fs with
  | nil => rfl
  | cons b fs ih =>
    obtain ⟨k, u⟩ := b
    by_cases e : k = f
    · have : k ≠ g := e ▸ n
      simp [setField, e, n]
    · by_cases e' : k = g
      · simp [setField, e', Ne.symm n]
      · simp [setField, e, e', ih]

theorem setField_self {f : Id} {v : Val} {fs : List (Id × Val)} (h : fs.lookup f = some v) : setField f v fs = fs := by
  induction fs with
  | nil => rfl
  | cons b fs ih =>
    obtain ⟨g, u⟩ := b
    rw [List.lookup_cons] at h
    by_cases e : g = f
    · have : (f == g) = true := by simp [e]
      rw [this] at h
      simp only [Option.some.injEq] at h
      simp [setField, e, h]
    · have : (f == g) = false := by simp [Ne.symm e]
      rw [this] at h
      simp [setField, e, ih h]

/-! ### Parts of values -/

theorem Val.get_nil (v : Val) : v.get [] = some v := by cases v <;> rfl

theorem Val.set_nil (v w : Val) : v.set [] w = some w := by cases v <;> rfl

theorem Val.get_arr (vs : List Val) (i : Nat) (p : List Sel) : (Val.arr vs).get (.idx i :: p) = vs[i]?.bind (·.get p) := by
  conv => lhs; unfold Val.get
  cases vs[i]? <;> rfl

theorem Val.get_struct (t : Id) (fs : List (Id × Val)) (f : Id) (p : List Sel) :
    (Val.struct t fs).get (.fld f :: p) = (fs.lookup f).bind (·.get p) := by
  conv => lhs; unfold Val.get
  cases fs.lookup f <;> rfl

theorem Val.set_arr (vs : List Val) (i : Nat) (p : List Sel) (w : Val) :
    (Val.arr vs).set (.idx i :: p) w = vs[i]?.bind fun u => (u.set p w).map fun u' => .arr (vs.set i u') := by
  conv => lhs; unfold Val.set
  cases vs[i]? with
  | none => rfl
  | some u => simp only [Option.bind_some]; cases u.set p w <;> rfl

theorem Val.set_struct (t : Id) (fs : List (Id × Val)) (f : Id) (p : List Sel) (w : Val) :
    (Val.struct t fs).set (.fld f :: p) w = (fs.lookup f).bind fun u => (u.set p w).map fun u' => .struct t (setField f u' fs) := by
  conv => lhs; unfold Val.set
  cases fs.lookup f with
  | none => rfl
  | some u => simp only [Option.bind_some]; cases u.set p w <;> rfl

/-- The first step into a value succeeds only on arrays and structures. -/
theorem Val.step {v : Val} {s : Sel} {p : List Sel} {u : Val} (h : v.get (s :: p) = some u) :
    (∃ vs i w, v = .arr vs ∧ s = .idx i ∧ vs[i]? = some w ∧ w.get p = some u) ∨
      (∃ t fs f w, v = .struct t fs ∧ s = .fld f ∧ fs.lookup f = some w ∧ w.get p = some u) := by
  cases v with
  | arr vs =>
    cases s with
    | idx i =>
      rw [Val.get_arr, Option.bind_eq_some_iff] at h
      obtain ⟨w, a, b⟩ := h
      exact .inl ⟨vs, i, w, rfl, rfl, a, b⟩
    | fld f => simp [Val.get] at h
  | struct t fs =>
    cases s with
    | idx i => simp [Val.get] at h
    | fld f =>
      rw [Val.get_struct, Option.bind_eq_some_iff] at h
      obtain ⟨w, a, b⟩ := h
      exact .inr ⟨t, fs, f, w, rfl, rfl, a, b⟩
  | _ => simp [Val.get] at h

theorem Val.set_step {v : Val} {s : Sel} {p : List Sel} {a v' : Val} (h : v.set (s :: p) a = some v') :
    (∃ vs i w w', v = .arr vs ∧ s = .idx i ∧ vs[i]? = some w ∧ w.set p a = some w' ∧ v' = .arr (vs.set i w')) ∨
      (∃ t fs f w w', v = .struct t fs ∧ s = .fld f ∧ fs.lookup f = some w ∧ w.set p a = some w' ∧
        v' = .struct t (setField f w' fs)) := by
  cases v with
  | arr vs =>
    cases s with
    | idx i =>
      rw [Val.set_arr, Option.bind_eq_some_iff] at h
      obtain ⟨w, b, c⟩ := h
      rw [Option.map_eq_some_iff] at c
      obtain ⟨w', c, d⟩ := c
      exact .inl ⟨vs, i, w, w', rfl, rfl, b, c, d.symm⟩
    | fld f => simp [Val.set] at h
  | struct t fs =>
    cases s with
    | idx i => simp [Val.set] at h
    | fld f =>
      rw [Val.set_struct, Option.bind_eq_some_iff] at h
      obtain ⟨w, b, c⟩ := h
      rw [Option.map_eq_some_iff] at c
      obtain ⟨w', c, d⟩ := c
      exact .inr ⟨t, fs, f, w, w', rfl, rfl, b, c, d.symm⟩
  | _ => simp [Val.set] at h

theorem Val.get_append (v : Val) (p q : List Sel) : v.get (p ++ q) = (v.get p).bind (·.get q) := by
  induction p generalizing v with
  | nil => rw [List.nil_append, Val.get_nil]; rfl
  | cons s p ih =>
    cases v with
    | arr vs =>
      cases s with
      | idx i =>
        rw [List.cons_append, Val.get_arr, Val.get_arr, Option.bind_assoc]
        congr 1
        funext w
        exact ih w
      | fld f => simp [Val.get]
    | struct t fs =>
      cases s with
      | idx i => simp [Val.get]
      | fld f =>
        rw [List.cons_append, Val.get_struct, Val.get_struct, Option.bind_assoc]
        congr 1
        funext w
        exact ih w
    | _ => simp [Val.get]

theorem Val.get_set {v v' a : Val} {p : List Sel} (h : v.set p a = some v') : v'.get p = some a := by
  induction p generalizing v v' with
  | nil => rw [Val.set_nil] at h; rw [Val.get_nil, ← h]
  | cons s p ih =>
    rcases Val.set_step h with ⟨vs, i, w, w', rfl, rfl, b, c, rfl⟩ | ⟨t, fs, f, w, w', rfl, rfl, b, c, rfl⟩
    · rw [Val.get_arr, List.getElem?_set_self (List.getElem?_eq_some_iff.1 b).1]
      exact ih c
    · rw [Val.get_struct, lookup_setField_self b]
      exact ih c

theorem Val.get_of_set {v v' a : Val} {p : List Sel} (h : v.set p a = some v') : ∃ u, v.get p = some u := by
  induction p generalizing v v' with
  | nil => exact ⟨v, v.get_nil⟩
  | cons s p ih =>
    rcases Val.set_step h with ⟨vs, i, w, w', rfl, rfl, b, c, rfl⟩ | ⟨t, fs, f, w, w', rfl, rfl, b, c, rfl⟩
    · rw [Val.get_arr, b]
      exact ih c
    · rw [Val.get_struct, b]
      exact ih c

theorem Val.set_of_get {v u : Val} {p : List Sel} (h : v.get p = some u) (a : Val) : ∃ v', v.set p a = some v' := by
  induction p generalizing v with
  | nil => exact ⟨a, v.set_nil a⟩
  | cons s p ih =>
    rcases Val.step h with ⟨vs, i, w, rfl, rfl, b, c⟩ | ⟨t, fs, f, w, rfl, rfl, b, c⟩
    · obtain ⟨w', d⟩ := ih c
      exact ⟨_, by rw [Val.set_arr, b, Option.bind_some, d]; rfl⟩
    · obtain ⟨w', d⟩ := ih c
      exact ⟨_, by rw [Val.set_struct, b, Option.bind_some, d]; rfl⟩

theorem Val.set_set {v v' a : Val} {p : List Sel} (h : v.set p a = some v') (b : Val) : v'.set p b = v.set p b := by
  induction p generalizing v v' with
  | nil => rw [Val.set_nil, Val.set_nil]
  | cons s p ih =>
    rcases Val.set_step h with ⟨vs, i, w, w', rfl, rfl, c, d, rfl⟩ | ⟨t, fs, f, w, w', rfl, rfl, c, d, rfl⟩
    · rw [Val.set_arr, Val.set_arr, List.getElem?_set_self (List.getElem?_eq_some_iff.1 c).1, c, Option.bind_some,
        Option.bind_some, ih d]
      congr 1
      funext u
      rw [List.set_set]
    · rw [Val.set_struct, Val.set_struct, lookup_setField_self c, c, Option.bind_some, Option.bind_some, ih d]
      congr 1
      funext u
      rw [setField_setField]

theorem Val.set_get {v u : Val} {p : List Sel} (h : v.get p = some u) : v.set p u = some v := by
  induction p generalizing v with
  | nil => rw [Val.get_nil] at h; rw [Val.set_nil, h]
  | cons s p ih =>
    rcases Val.step h with ⟨vs, i, w, rfl, rfl, b, c⟩ | ⟨t, fs, f, w, rfl, rfl, b, c⟩
    · rw [Val.set_arr, b, Option.bind_some, ih c]
      obtain ⟨l, e⟩ := List.getElem?_eq_some_iff.1 b
      simp [← e]
    · rw [Val.set_struct, b, Option.bind_some, ih c, Option.map_some, setField_self b]

theorem Val.set_append {v u u' a v' : Val} {p q : List Sel} (h : v.get p = some u) (k : u.set q a = some u')
    (l : v.set p u' = some v') : v.set (p ++ q) a = some v' := by
  induction p generalizing v v' with
  | nil =>
    rw [Val.get_nil] at h
    rw [Val.set_nil] at l
    rw [List.nil_append, ← l, ← k]
    simp only [Option.some.injEq] at h
    rw [h]
  | cons s p ih =>
    rcases Val.set_step l with ⟨vs, i, w, w', rfl, rfl, c, d, rfl⟩ | ⟨t, fs, f, w, w', rfl, rfl, c, d, rfl⟩
    · rw [Val.get_arr, c] at h
      rw [List.cons_append, Val.set_arr, c, Option.bind_some, ih h d]
      rfl
    · rw [Val.get_struct, c] at h
      rw [List.cons_append, Val.set_struct, c, Option.bind_some, ih h d]
      rfl

theorem Val.get_set_diverge {v v' a : Val} {p q : List Sel} (n : diverge p q = true) (h : v.set p a = some v') :
    v'.get q = v.get q := by
  induction p generalizing q v v' with
  | nil => cases q <;> simp [diverge] at n
  | cons s p ih =>
    cases q with
    | nil => simp [diverge] at n
    | cons t q =>
      rw [diverge_cons] at n
      rcases Val.set_step h with ⟨vs, i, w, w', rfl, rfl, c, d, rfl⟩ | ⟨_, fs, f, w, w', rfl, rfl, c, d, rfl⟩
      · cases t with
        | idx j =>
          rw [Val.get_arr, Val.get_arr]
          rcases n with n | ⟨e, n⟩
          · rw [List.getElem?_set_ne (by rintro rfl; exact n rfl)]
          · cases e
            rw [List.getElem?_set_self (List.getElem?_eq_some_iff.1 c).1, c]
            exact ih n d
        | fld g => simp [Val.get]
      · cases t with
        | idx j => simp [Val.get]
        | fld g =>
          rw [Val.get_struct, Val.get_struct]
          rcases n with n | ⟨e, n⟩
          · rw [lookup_setField_of_ne (by rintro rfl; exact n rfl)]
          · cases e
            rw [lookup_setField_self c, c]
            exact ih n d

theorem Val.set_comm {v v1 v2 a b : Val} {p q : List Sel} (n : diverge p q = true) (h : v.set p a = some v1)
    (k : v1.set q b = some v2) : ∃ v3, v.set q b = some v3 ∧ v3.set p a = some v2 := by
  induction p generalizing q v v1 v2 with
  | nil => cases q <;> simp [diverge] at n
  | cons s p ih =>
    cases q with
    | nil => simp [diverge] at n
    | cons t q =>
      rw [diverge_cons] at n
      rcases Val.set_step h with ⟨vs, i, w, w', rfl, rfl, c, d, rfl⟩ | ⟨_, fs, f, w, w', rfl, rfl, c, d, rfl⟩
      · rcases Val.set_step k with ⟨_, j, u, u', e, rfl, c', d', rfl⟩ | ⟨_, _, _, _, _, e, _⟩
        · cases e
          have il := (List.getElem?_eq_some_iff.1 c).1
          rcases n with n | ⟨e, n⟩
          · have ne : i ≠ j := by rintro rfl; exact n rfl
            rw [List.getElem?_set_ne ne] at c'
            refine ⟨.arr (vs.set j u'), by rw [Val.set_arr, c', Option.bind_some, d']; rfl, ?_⟩
            rw [Val.set_arr, List.getElem?_set_ne (Ne.symm ne), c, Option.bind_some, d, Option.map_some,
              List.set_comm _ _ ne]
          · cases e
            rw [List.getElem?_set_self il] at c'
            cases c'
            obtain ⟨w3, x, y⟩ := ih n d d'
            refine ⟨.arr (vs.set i w3), by rw [Val.set_arr, c, Option.bind_some, x]; rfl, ?_⟩
            rw [Val.set_arr, List.getElem?_set_self il, Option.bind_some, y, Option.map_some, List.set_set, List.set_set]
        · cases e
      · rcases Val.set_step k with ⟨_, _, _, _, e, _⟩ | ⟨_, _, g, u, u', e, rfl, c', d', rfl⟩
        · cases e
        · cases e
          rcases n with n | ⟨e, n⟩
          · have ne : f ≠ g := by rintro rfl; exact n rfl
            rw [lookup_setField_of_ne ne] at c'
            refine ⟨_, by rw [Val.set_struct, c', Option.bind_some, d']; rfl, ?_⟩
            rw [Val.set_struct, lookup_setField_of_ne (Ne.symm ne), c, Option.bind_some, d, Option.map_some,
              setField_comm ne]
          · cases e
            rw [lookup_setField_self c] at c'
            cases c'
            obtain ⟨w3, x, y⟩ := ih n d d'
            refine ⟨_, by rw [Val.set_struct, c, Option.bind_some, x]; rfl, ?_⟩
            rw [Val.set_struct, lookup_setField_self c, Option.bind_some, y, Option.map_some, setField_setField,
              setField_setField]

/-! ### Memory -/

/-- Two places have no part in common. -/
def Loc.disjoint (l m : Loc) : Bool := l.blk ≠ m.blk || diverge l.path m.path

theorem Loc.disjoint_iff {l m : Loc} : l.disjoint m = true ↔ l.blk ≠ m.blk ∨ (l.blk = m.blk ∧ diverge l.path m.path = true) := by
  unfold Loc.disjoint
  by_cases h : l.blk = m.blk <;> simp [h]

theorem Loc.disjoint_comm (l m : Loc) : l.disjoint m = m.disjoint l := by
  unfold Loc.disjoint
  rw [diverge_comm]
  congr 1
  simp [eq_comm]

theorem Loc.get_eq (l : Loc) (m : List Val) : l.get m = m[l.blk]?.bind (·.get l.path) := by
  unfold Loc.get; cases m[l.blk]? <;> rfl

theorem Loc.set_eq (l : Loc) (m : List Val) (a : Val) :
    l.set m a = m[l.blk]?.bind fun w => (w.set l.path a).map fun w' => m.set l.blk w' := by
  unfold Loc.set
  cases m[l.blk]? with
  | none => rfl
  | some w => simp only [Option.bind_some]; cases w.set l.path a <;> rfl

theorem Loc.set_some {l : Loc} {m m' : List Val} {a : Val} (h : l.set m a = some m') :
    ∃ w w', m[l.blk]? = some w ∧ w.set l.path a = some w' ∧ m' = m.set l.blk w' := by
  rw [Loc.set_eq, Option.bind_eq_some_iff] at h
  obtain ⟨w, c, h⟩ := h
  rw [Option.map_eq_some_iff] at h
  obtain ⟨w', d, e⟩ := h
  exact ⟨w, w', c, d, e.symm⟩

theorem Loc.get_some {l : Loc} {m : List Val} {u : Val} (h : l.get m = some u) :
    ∃ w, m[l.blk]? = some w ∧ w.get l.path = some u := by
  rw [Loc.get_eq, Option.bind_eq_some_iff] at h
  exact h

theorem Loc.set_length {l : Loc} {m m' : List Val} {a : Val} (h : l.set m a = some m') : m'.length = m.length := by
  obtain ⟨_, _, _, _, rfl⟩ := Loc.set_some h
  simp

theorem Loc.get_set {l : Loc} {m m' : List Val} {a : Val} (h : l.set m a = some m') : l.get m' = some a := by
  obtain ⟨w, w', c, d, rfl⟩ := Loc.set_some h
  rw [Loc.get_eq, List.getElem?_set_self (List.getElem?_eq_some_iff.1 c).1]
  exact Val.get_set d

theorem Loc.set_of_get {l : Loc} {m : List Val} {u : Val} (h : l.get m = some u) (a : Val) : ∃ m', l.set m a = some m' := by
  obtain ⟨w, c, d⟩ := Loc.get_some h
  obtain ⟨w', e⟩ := Val.set_of_get d a
  exact ⟨_, by rw [Loc.set_eq, c, Option.bind_some, e]; rfl⟩

theorem Loc.get_of_set {l : Loc} {m m' : List Val} {a : Val} (h : l.set m a = some m') : ∃ u, l.get m = some u := by
  obtain ⟨w, w', c, d, rfl⟩ := Loc.set_some h
  obtain ⟨u, e⟩ := Val.get_of_set d
  exact ⟨u, by rw [Loc.get_eq, c]; exact e⟩

theorem Loc.set_set {l : Loc} {m m' : List Val} {a : Val} (h : l.set m a = some m') (b : Val) : l.set m' b = l.set m b := by
  obtain ⟨w, w', c, d, rfl⟩ := Loc.set_some h
  rw [Loc.set_eq, Loc.set_eq, List.getElem?_set_self (List.getElem?_eq_some_iff.1 c).1, c, Option.bind_some,
    Option.bind_some, Val.set_set d]
  congr 1
  funext u
  rw [List.set_set]

theorem Loc.set_get {l : Loc} {m : List Val} {u : Val} (h : l.get m = some u) : l.set m u = some m := by
  obtain ⟨w, c, d⟩ := Loc.get_some h
  rw [Loc.set_eq, c, Option.bind_some, Val.set_get d]
  obtain ⟨i, e⟩ := List.getElem?_eq_some_iff.1 c
  simp [← e]

theorem Loc.get_set_disjoint {l k : Loc} {m m' : List Val} {a : Val} (n : l.disjoint k = true) (h : l.set m a = some m') :
    k.get m' = k.get m := by
  obtain ⟨w, w', c, d, rfl⟩ := Loc.set_some h
  rw [Loc.get_eq, Loc.get_eq]
  rcases Loc.disjoint_iff.1 n with n | ⟨e, n⟩
  · rw [List.getElem?_set_ne n]
  · rw [← e, List.getElem?_set_self (List.getElem?_eq_some_iff.1 c).1, c]
    exact Val.get_set_diverge n d

theorem Loc.set_comm {l k : Loc} {m m1 m2 : List Val} {a b : Val} (n : l.disjoint k = true) (h : l.set m a = some m1)
    (g : k.set m1 b = some m2) : ∃ m3, k.set m b = some m3 ∧ l.set m3 a = some m2 := by
  obtain ⟨w, w', c, d, rfl⟩ := Loc.set_some h
  obtain ⟨u, u', c', d', rfl⟩ := Loc.set_some g
  have il := (List.getElem?_eq_some_iff.1 c).1
  rcases Loc.disjoint_iff.1 n with n | ⟨e, n⟩
  · rw [List.getElem?_set_ne n] at c'
    refine ⟨m.set k.blk u', by rw [Loc.set_eq, c', Option.bind_some, d']; rfl, ?_⟩
    rw [Loc.set_eq, List.getElem?_set_ne (Ne.symm n), c, Option.bind_some, d, Option.map_some, List.set_comm _ _ n]
  · rw [← e, List.getElem?_set_self il] at c'
    cases c'
    obtain ⟨w3, x, y⟩ := Val.set_comm n d d'
    refine ⟨m.set l.blk w3, by rw [Loc.set_eq, ← e, c, Option.bind_some, x]; rfl, ?_⟩
    rw [Loc.set_eq, List.getElem?_set_self il, Option.bind_some, y, Option.map_some, List.set_set, ← e, List.set_set]

/-- Blocks added at the end change nothing for the places before. -/
theorem Loc.get_append {l : Loc} {m : List Val} {u : Val} (h : l.get m = some u) (x : List Val) : l.get (m ++ x) = some u := by
  obtain ⟨w, c, d⟩ := Loc.get_some h
  rw [Loc.get_eq, List.getElem?_append_left (List.getElem?_eq_some_iff.1 c).1, c]
  exact d

theorem Loc.set_append {l : Loc} {m m' : List Val} {a : Val} (h : l.set m a = some m') (x : List Val) :
    l.set (m ++ x) a = some (m' ++ x) := by
  obtain ⟨w, w', c, d, rfl⟩ := Loc.set_some h
  have il := (List.getElem?_eq_some_iff.1 c).1
  rw [Loc.set_eq, List.getElem?_append_left il, c, Option.bind_some, d, Option.map_some, List.set_append_left _ _ il]

/-- A part of a part. -/
theorem Loc.get_part {l : Loc} {m : List Val} {u : Val} (h : l.get m = some u) (q : List Sel) :
    Loc.get m ⟨l.blk, l.path ++ q⟩ = u.get q := by
  obtain ⟨w, c, d⟩ := Loc.get_some h
  rw [Loc.get_eq]
  show m[l.blk]?.bind _ = _
  rw [c, Option.bind_some, Val.get_append, d]
  rfl

theorem Loc.set_part {l : Loc} {m m' : List Val} {u u' a : Val} {q : List Sel} (h : l.get m = some u) (k : u.set q a = some u')
    (g : l.set m u' = some m') : Loc.set m ⟨l.blk, l.path ++ q⟩ a = some m' := by
  obtain ⟨w, c, d⟩ := Loc.get_some h
  obtain ⟨w2, w', c', d', rfl⟩ := Loc.set_some g
  rw [c] at c'
  cases c'
  rw [Loc.set_eq]
  show m[l.blk]?.bind _ = _
  rw [c, Option.bind_some, Val.set_append d k d']
  rfl

/-- Write several places. -/
def writeAll : List Val → List (Loc × Val) → Option (List Val)
  | m, [] => some m
  | m, (l, a) :: ws => match l.set m a with
    | some m' => writeAll m' ws
    | none => none

theorem writeAll_cons {m w : List Val} {l : Loc} {a : Val} {ws : List (Loc × Val)} (h : writeAll m ((l, a) :: ws) = some w) :
    ∃ m', l.set m a = some m' ∧ writeAll m' ws = some w := by
  unfold writeAll at h
  split at h
  · next m' e => exact ⟨m', e, h⟩
  · cases h

theorem writeAll_length {m w : List Val} {ws : List (Loc × Val)} (h : writeAll m ws = some w) : w.length = m.length := by
  induction ws generalizing m with
  | nil => cases h; rfl
  | cons b ws ih =>
    obtain ⟨m', c, d⟩ := writeAll_cons h
    rw [ih d, Loc.set_length c]

theorem writeAll_get_disjoint {m w : List Val} {ws : List (Loc × Val)} {l : Loc} (n : ∀ b ∈ ws, b.1.disjoint l = true)
    (h : writeAll m ws = some w) : l.get w = l.get m := by
  induction ws generalizing m with
  | nil => cases h; rfl
  | cons b ws ih =>
    obtain ⟨m', c, d⟩ := writeAll_cons h
    rw [ih (fun b e => n b (.tail _ e)) d, Loc.get_set_disjoint (n b (.head _)) c]

theorem writeAll_set_disjoint {m m' w : List Val} {ws : List (Loc × Val)} {l : Loc} {a : Val} (n : ∀ b ∈ ws, b.1.disjoint l = true)
    (h : writeAll m ws = some w) (k : l.set m a = some m') : ∃ w', writeAll m' ws = some w' ∧ l.set w a = some w' := by
  induction ws generalizing m m' with
  | nil => cases h; exact ⟨m', rfl, k⟩
  | cons b ws ih =>
    obtain ⟨m1, c, d⟩ := writeAll_cons h
    have nb := n b (.head _)
    obtain ⟨u, e⟩ := Loc.get_of_set k
    rw [← Loc.get_set_disjoint nb c] at e
    obtain ⟨m2, f⟩ := Loc.set_of_get e a
    obtain ⟨m3, g1, g2⟩ := Loc.set_comm nb c f
    rw [k] at g1
    cases g1
    obtain ⟨w', x, y⟩ := ih (fun b e => n b (.tail _ e)) d f
    exact ⟨w', by rw [writeAll, g2]; exact x, y⟩

/-- Writing what is there already. -/
theorem writeAll_self {m : List Val} {ws : List (Loc × Val)} (h : ∀ b ∈ ws, b.1.get m = some b.2) : writeAll m ws = some m := by
  induction ws with
  | nil => rfl
  | cons b ws ih =>
    rw [writeAll, Loc.set_get (h b (.head _))]
    exact ih fun b e => h b (.tail _ e)

end Verif.Src
