/-
Computations are local: what a computation does to a few blocks of memory, it does to any places of any memory, wherever
they are, and it touches nothing else.

The small memory has `k` blocks standing for places of a large memory, followed by blocks made by the computation.
-/
import Verif.Source.Memory

namespace Verif.Src

open M (stuck panic the check)

/-- A large memory, and the places in it that the first blocks of the small memory stand for. -/
structure Emb where
  mem : List Val
  win : List Loc

namespace Emb

variable (E : Emb) {ω : Type}

/-- The place in the large memory. -/
def ren (l : Loc) : Loc :=
  match E.win[l.blk]? with
  | some w => ⟨w.blk, w.path ++ l.path⟩
  | none => ⟨E.mem.length + (l.blk - E.win.length), l.path⟩

mutual

/-- The value in the large memory: its references go to the places there. -/
def renV : Val → Val
  | .ptr l => .ptr (E.ren l)
  | .slice l off len cap => .slice (E.ren l) off len cap
  | .arr vs => .arr (renVs vs)
  | .struct t fs => .struct t (renFs fs)
  | .int t v => .int t v
  | .bool b => .bool b
  | .str s => .str s
  | .nil => .nil
  | .err e => .err e
  | .obj k n => .obj k n
  | .func p f => .func p f

def renVs : List Val → List Val
  | [] => []
  | v :: vs => renV v :: renVs vs

def renFs : List (Id × Val) → List (Id × Val)
  | [] => []
  | (f, v) :: fs => (f, renV v) :: renFs fs

end

def renB : Bind → Bind
  | .var l => .var (E.ren l)
  | .val v => .val (E.renV v)
  | .hidden => .hidden

def renEnv : Env → Env
  | [] => []
  | (x, b) :: env => (x, E.renB b) :: renEnv env

def renC (c : Ctx) : Ctx := ⟨c.pkg, E.renEnv c.env⟩

def renCtl : Ctl → Ctl
  | .ret vs => .ret (E.renVs vs)
  | .next => .next
  | .brk => .brk
  | .cont => .cont

def renD : Deferred → Deferred
  | .func p f vs => .func p f (E.renVs vs)
  | .method r m vs => .method (E.renV r) m (E.renVs vs)

def renR : RangeOver → RangeOver
  | .vals vs => .vals (E.renVs vs)
  | .place l off n => .place (E.ren l) off n

/-- The number of a block made by the computation. -/
def renN (b : Nat) : Nat := E.mem.length + (b - E.win.length)

/-- The places are places of the large memory and have nothing in common. -/
structure Valid : Prop where
  get : ∀ w ∈ E.win, ∃ u, w.get E.mem = some u
  apart : E.win.Pairwise fun l m => l.disjoint m = true

/-- The large memory that goes with a small one. -/
def Mem (m m' : List Val) : Prop :=
  ∃ w, writeAll E.mem (E.win.zip (E.renVs (m.take E.win.length))) = some w ∧ m' = w ++ E.renVs (m.drop E.win.length)

/-- The state on the large memory that goes with a state on the small one. -/
structure Rel (s s' : St ω) : Prop where
  wins : E.win.length ≤ s.mem.length
  size : s.base ≤ s.mem.length
  base : ∀ l, (E.ren l).blk < s'.base ↔ l.blk < s.base
  defers : s'.defers = s.defers.map E.renD
  world : s'.world = s.world
  mem : E.Mem s.mem s'.mem

/-! ### Renaming -/

theorem renVs_eq (vs : List Val) : E.renVs vs = vs.map E.renV := by
  induction vs with
  | nil => rfl
  | cons v vs ih => rw [renVs, ih, List.map_cons]

theorem renFs_eq (fs : List (Id × Val)) : E.renFs fs = fs.map fun b => (b.1, E.renV b.2) := by
  induction fs with
  | nil => rfl
  | cons b fs ih => obtain ⟨f, v⟩ := b; rw [renFs, ih, List.map_cons]

theorem renVs_length (vs : List Val) : (E.renVs vs).length = vs.length := by rw [renVs_eq, List.length_map]

theorem renVs_getElem? (vs : List Val) (i : Nat) : (E.renVs vs)[i]? = vs[i]?.map E.renV := by rw [renVs_eq, List.getElem?_map]

theorem renVs_append (vs ws : List Val) : E.renVs (vs ++ ws) = E.renVs vs ++ E.renVs ws := by
  simp only [renVs_eq, List.map_append]

theorem renVs_take (n : Nat) (vs : List Val) : E.renVs (vs.take n) = (E.renVs vs).take n := by
  simp only [renVs_eq, List.map_take]

theorem renVs_drop (n : Nat) (vs : List Val) : E.renVs (vs.drop n) = (E.renVs vs).drop n := by
  simp only [renVs_eq, List.map_drop]

theorem renVs_set (vs : List Val) (i : Nat) (v : Val) : E.renVs (vs.set i v) = (E.renVs vs).set i (E.renV v) := by
  simp only [renVs_eq, List.map_set]

theorem renVs_replicate (n : Nat) (v : Val) : E.renVs (List.replicate n v) = List.replicate n (E.renV v) := by
  simp only [renVs_eq, List.map_replicate]

theorem renFs_lookup (fs : List (Id × Val)) (f : Id) : (E.renFs fs).lookup f = (fs.lookup f).map E.renV := by
  induction fs with
  | nil => rfl
  | cons b fs ih =>
    obtain ⟨g, v⟩ := b
    rw [renFs, List.lookup_cons, List.lookup_cons, ih]
    cases f == g <;> rfl

theorem renFs_setField (f : Id) (v : Val) (fs : List (Id × Val)) :
    E.renFs (setField f v fs) = setField f (E.renV v) (E.renFs fs) := by
  induction fs with
  | nil => rfl
  | cons b fs ih =>
    obtain ⟨g, u⟩ := b
    rw [renFs, setField, setField]
    split
    · rw [renFs]
    · rw [renFs, ih]

theorem renEnv_lookup (env : Env) (x : Id) : (E.renEnv env).lookup x = (env.lookup x).map E.renB := by
  induction env with
  | nil => rfl
  | cons b env ih =>
    obtain ⟨y, b⟩ := b
    rw [renEnv, List.lookup_cons, List.lookup_cons, ih]
    cases x == y <;> rfl

theorem ren_path (l : Loc) (q : List Sel) : E.ren ⟨l.blk, l.path ++ q⟩ = ⟨(E.ren l).blk, (E.ren l).path ++ q⟩ := by
  unfold ren
  show (match E.win[l.blk]? with | some w => _ | none => _) = _
  cases E.win[l.blk]? with
  | none => rfl
  | some w => simp [List.append_assoc]

theorem renV_get {v u : Val} {p : List Sel} (h : v.get p = some u) : (E.renV v).get p = some (E.renV u) := by
  induction p generalizing v with
  | nil => rw [Val.get_nil] at h ⊢; cases h; rfl
  | cons s p ih =>
    rcases Val.step h with ⟨vs, i, w, rfl, rfl, b, c⟩ | ⟨t, fs, f, w, rfl, rfl, b, c⟩
    · rw [renV, Val.get_arr, renVs_getElem?, b]
      exact ih c
    · rw [renV, Val.get_struct, renFs_lookup, b]
      exact ih c

theorem renV_set {v v' a : Val} {p : List Sel} (h : v.set p a = some v') :
    (E.renV v).set p (E.renV a) = some (E.renV v') := by
  induction p generalizing v v' with
  | nil => rw [Val.set_nil] at h ⊢; cases h; rfl
  | cons s p ih =>
    rcases Val.set_step h with ⟨vs, i, w, w', rfl, rfl, c, d, rfl⟩ | ⟨t, fs, f, w, w', rfl, rfl, c, d, rfl⟩
    · rw [renV, Val.set_arr, renVs_getElem?, c, Option.map_some, Option.bind_some, ih d, Option.map_some, renV, renVs_set]
    · rw [renV, Val.set_struct, renFs_lookup, c, Option.map_some, Option.bind_some, ih d, Option.map_some, renV,
        renFs_setField]

theorem renV_fit (v w : Val) : E.renV (v.fit w) = (E.renV v).fit (E.renV w) := by
  cases v <;> cases w <;> first | rfl | skip
  next t a u b => cases u <;> rfl

theorem renV_default (v : Val) : E.renV v.default = (E.renV v).default := by
  cases v <;> first | rfl | skip
  next t a => cases t <;> rfl

/-! ### Memory -/

variable {E}

theorem win_lt (h : E.Valid) {w : Loc} (m : w ∈ E.win) : w.blk < E.mem.length := by
  obtain ⟨u, g⟩ := h.get w m
  obtain ⟨w', c, _⟩ := Loc.get_some g
  exact (List.getElem?_eq_some_iff.1 c).1

theorem ren_win {l w : Loc} (h : E.win[l.blk]? = some w) : E.ren l = ⟨w.blk, w.path ++ l.path⟩ := by unfold ren; rw [h]

theorem ren_new {l : Loc} (h : E.win.length ≤ l.blk) : E.ren l = ⟨E.renN l.blk, l.path⟩ := by
  unfold ren
  rw [List.getElem?_eq_none h]
  rfl

/-- Windows are older than the blocks made by the computation. -/
theorem ren_lt (v : E.Valid) {l : Loc} {b : Nat} (h : E.win.length ≤ b) : (E.ren l).blk < E.renN b ↔ l.blk < b := by
  by_cases k : l.blk < E.win.length
  · have : E.win[l.blk]? = some E.win[l.blk] := List.getElem?_eq_getElem k
    rw [ren_win this]
    have := win_lt v (List.getElem_mem k)
    unfold renN
    show E.win[l.blk].blk < _ ↔ _
    omega
  · rw [ren_new (by omega)]
    unfold renN
    show _ + _ < _ ↔ _
    omega

mutual

theorem renV_refers {b b' : Nat} (h : ∀ l, (E.ren l).blk < b' ↔ l.blk < b) : ∀ x : Val, (E.renV x).refers b' = x.refers b
  | .ptr l => by
    have := h l
    simp only [renV, Val.refers, decide_eq_decide]
    omega
  | .slice l _ _ _ => by
    have := h l
    simp only [renV, Val.refers, decide_eq_decide]
    omega
  | .arr vs => by simp only [renV, Val.refers]; exact renVs_refers h vs
  | .struct _ fs => by simp only [renV, Val.refers]; exact renFs_refers h fs
  | .int _ _ | .bool _ | .str _ | .nil | .err _ | .obj _ _ | .func _ _ => by simp only [renV, Val.refers]

theorem renVs_refers {b b' : Nat} (h : ∀ l, (E.ren l).blk < b' ↔ l.blk < b) :
    ∀ x : List Val, Val.anyRefers b' (E.renVs x) = Val.anyRefers b x
  | [] => by simp only [renVs, Val.anyRefers]
  | x :: xs => by simp only [renVs, Val.anyRefers, renV_refers h x, renVs_refers h xs]

theorem renFs_refers {b b' : Nat} (h : ∀ l, (E.ren l).blk < b' ↔ l.blk < b) :
    ∀ x : List (Id × Val), Val.fieldRefers b' (E.renFs x) = Val.fieldRefers b x
  | [] => by simp only [renFs, Val.fieldRefers]
  | (_, x) :: xs => by simp only [renFs, Val.fieldRefers, renV_refers h x, renFs_refers h xs]

end

theorem zip_get {ρ : List Loc} {vs : List Val} {M w : List Val} (ap : ρ.Pairwise fun l m => l.disjoint m = true)
    (h : writeAll M (ρ.zip vs) = some w) {i : Nat} {l : Loc} {v : Val} (hl : ρ[i]? = some l) (hv : vs[i]? = some v) :
    l.get w = some v := by
  induction ρ generalizing vs M i with
  | nil => cases hl
  | cons r ρ ih =>
    cases vs with
    | nil => cases hv
    | cons u vs =>
      rw [List.zip_cons_cons] at h
      obtain ⟨M', c, d⟩ := writeAll_cons h
      rw [List.pairwise_cons] at ap
      cases i with
      | zero =>
        cases hl
        cases hv
        rw [writeAll_get_disjoint ?_ d, Loc.get_set c]
        intro b hb
        rw [Loc.disjoint_comm]
        exact ap.1 _ (List.of_mem_zip (a := b.1) (b := b.2) hb).1
      | succ i => exact ih ap.2 d hl hv

theorem zip_set {ρ : List Loc} {vs : List Val} {M w : List Val} (ap : ρ.Pairwise fun l m => l.disjoint m = true)
    (h : writeAll M (ρ.zip vs) = some w) {i : Nat} {l : Loc} {v : Val} (hl : ρ[i]? = some l) (hv : vs[i]? = some v) (a : Val) :
    ∃ w', l.set w a = some w' ∧ writeAll M (ρ.zip (vs.set i a)) = some w' := by
  induction ρ generalizing vs M i with
  | nil => cases hl
  | cons r ρ ih =>
    cases vs with
    | nil => cases hv
    | cons u vs =>
      rw [List.zip_cons_cons] at h
      obtain ⟨M', c, d⟩ := writeAll_cons h
      rw [List.pairwise_cons] at ap
      cases i with
      | zero =>
        cases hl
        obtain ⟨M2, e⟩ := Loc.set_of_get (Loc.get_set c) a
        obtain ⟨w', x, y⟩ := writeAll_set_disjoint (l := l) (a := a) (fun b hb => by
          rw [Loc.disjoint_comm]
          exact ap.1 _ (List.of_mem_zip (a := b.1) (b := b.2) hb).1) d e
        refine ⟨w', y, ?_⟩
        rw [List.set_cons_zero, List.zip_cons_cons, writeAll, ← Loc.set_set c, e]
        exact x
      | succ i =>
        obtain ⟨w', x, y⟩ := ih ap.2 d hl hv
        refine ⟨w', x, ?_⟩
        rw [List.set_cons_succ, List.zip_cons_cons, writeAll, c]
        exact y

theorem Mem.get (v : E.Valid) {m m' : List Val} (h : E.Mem m m') {l : Loc} {u : Val} (g : l.get m = some u) :
    (E.ren l).get m' = some (E.renV u) := by
  obtain ⟨w, hw, rfl⟩ := h
  obtain ⟨b, c, d⟩ := Loc.get_some g
  by_cases k : l.blk < E.win.length
  · have e : E.win[l.blk]? = some E.win[l.blk] := List.getElem?_eq_getElem k
    have := zip_get v.apart hw e (v := E.renV b) (by rw [renVs_getElem?, List.getElem?_take_of_lt k, c]; rfl)
    rw [ren_win e, Loc.get_part (Loc.get_append this _)]
    exact E.renV_get d
  · rw [ren_new (by omega), Loc.get_eq]
    show (w ++ _)[E.renN l.blk]?.bind (·.get l.path) = _
    rw [List.getElem?_append_right (by rw [writeAll_length hw]; unfold renN; omega), writeAll_length hw, renVs_getElem?,
      List.getElem?_drop]
    have : E.win.length + (E.renN l.blk - E.mem.length) = l.blk := by unfold renN; omega
    rw [this, c]
    exact E.renV_get d

theorem Mem.set (v : E.Valid) {m m' m1 : List Val} (h : E.Mem m m') {l : Loc} {a : Val} (g : l.set m a = some m1) :
    ∃ m1', (E.ren l).set m' (E.renV a) = some m1' ∧ E.Mem m1 m1' := by
  obtain ⟨w, hw, rfl⟩ := h
  obtain ⟨b, b', c, d, rfl⟩ := Loc.set_some g
  have il := (List.getElem?_eq_some_iff.1 c).1
  by_cases k : l.blk < E.win.length
  · have e : E.win[l.blk]? = some E.win[l.blk] := List.getElem?_eq_getElem k
    have hv : (E.renVs (m.take E.win.length))[l.blk]? = some (E.renV b) := by
      rw [renVs_getElem?, List.getElem?_take_of_lt k, c]; rfl
    have g1 := zip_get v.apart hw e hv
    obtain ⟨w', x, y⟩ := zip_set v.apart hw e hv (E.renV b')
    refine ⟨w' ++ E.renVs (m.drop E.win.length), ?_, w', ?_, ?_⟩
    · rw [ren_win e]
      exact Loc.set_part (Loc.get_append g1 _) (E.renV_set d) (Loc.set_append x _)
    · rw [← y, List.take_set, renVs_set]
    · rw [List.drop_set_of_lt k]
  · refine ⟨_, ?_, w, ?_, rfl⟩
    · rw [ren_new (by omega), Loc.set_eq]
      show (w ++ _)[E.renN l.blk]?.bind _ = _
      rw [List.getElem?_append_right (by rw [writeAll_length hw]; unfold renN; omega), writeAll_length hw, renVs_getElem?,
        List.getElem?_drop]
      have e : E.win.length + (E.renN l.blk - E.mem.length) = l.blk := by unfold renN; omega
      rw [e, c, Option.map_some, Option.bind_some]
      show Option.map _ ((E.renV b).set l.path _) = _
      rw [E.renV_set d, Option.map_some]
      show some (List.set _ (E.renN l.blk) _) = _
      rw [List.set_append_right _ _ (by rw [writeAll_length hw]; unfold renN; omega), writeAll_length hw, List.drop_set,
        if_neg k, renVs_set]
      congr 3
      unfold renN; omega
    · rw [← hw, List.take_set_of_le (by omega)]

theorem Mem.length {m m' : List Val} (h : E.Mem m m') : m'.length = E.mem.length + (m.length - E.win.length) := by
  obtain ⟨w, hw, rfl⟩ := h
  rw [List.length_append, writeAll_length hw, renVs_length, List.length_drop]

theorem Mem.alloc {m m' : List Val} (h : E.Mem m m') (k : E.win.length ≤ m.length) (v : Val) :
    E.Mem (m ++ [v]) (m' ++ [E.renV v]) := by
  obtain ⟨w, hw, rfl⟩ := h
  refine ⟨w, ?_, ?_⟩
  · rw [List.take_append_of_le_length k]; exact hw
  · rw [List.drop_append_of_le_length k, renVs_append, List.append_assoc]
    rfl

theorem Mem.take {m m' : List Val} (h : E.Mem m m') {n : Nat} (k : E.win.length ≤ n) :
    E.Mem (m.take n) (m'.take (E.renN n)) := by
  obtain ⟨w, hw, rfl⟩ := h
  refine ⟨w, ?_, ?_⟩
  · rw [List.take_take, Nat.min_eq_left k]; exact hw
  · rw [List.take_append, writeAll_length hw, List.take_of_length_le (by rw [writeAll_length hw]; unfold renN; omega)]
    congr 1
    rw [List.drop_take, renVs_take]
    congr 1
    unfold renN; omega

/-! ### Computations -/

variable (E) {α β : Type}

/-- `y` does on the large memory what `x` does on the small one, unless that gets stuck; `r` is the renaming of results. -/
def Comm (r : α → α) (x y : M ω α) : Prop := ∀ s s', E.Rel s s' →
  match x s with
  | .ok a t => ∃ t', y s' = .ok (r a) t' ∧ E.Rel t t' ∧ t.base = s.base
  | .panic t => ∃ t', y s' = .panic t' ∧ E.Rel t t' ∧ t.base = s.base
  | .crash t => ∃ t', y s' = .crash t' ∧ E.Rel t t' ∧ t.base = s.base
  | .stuck => True

variable {E}

theorem Comm.pure (r : α → α) (a : α) : E.Comm r (Pure.pure a : M ω α) (Pure.pure (r a)) := fun _ s' h => ⟨s', rfl, h, rfl⟩

theorem Comm.pure' {r : α → α} {a b : α} (h : b = r a) : E.Comm r (Pure.pure a : M ω α) (Pure.pure b) := h ▸ Comm.pure r a

theorem Comm.stuck (r : α → α) (y : M ω α) : E.Comm r M.stuck y := fun _ _ _ => trivial

theorem Comm.panic (r : α → α) : E.Comm r (M.panic : M ω α) M.panic := fun _ s' h => ⟨s', rfl, h, rfl⟩

theorem Comm.bind {r : α → α} {q : β → β} {x y : M ω α} {f g : α → M ω β} (h : E.Comm r x y)
    (k : ∀ a, E.Comm q (f a) (g (r a))) : E.Comm q (x >>= f) (y >>= g) := by
  intro s s' hs
  show match M.bind x f s with | .ok a t => _ | .panic t => _ | .crash t => _ | .stuck => _
  have := h s s' hs
  unfold M.bind
  show match (match x s with | .ok a s => f a s | .panic s => .panic s | .crash s => .crash s | .stuck => .stuck : R ω β) with
    | .ok a t => _ | .panic t => _ | .crash t => _ | .stuck => _
  cases e : x s with
  | ok a t =>
    rw [e] at this
    obtain ⟨t', e', ht, hb⟩ := this
    have := k a t t' ht
    simp only
    have e2 : (y >>= g) s' = g (r a) t' := by
      show M.bind y g s' = _
      unfold M.bind; rw [e']
    rw [e2]
    cases e3 : f a t with
    | ok b u => rw [e3] at this; obtain ⟨u', x1, x2, x3⟩ := this; exact ⟨u', x1, x2, x3.trans hb⟩
    | panic u => rw [e3] at this; obtain ⟨u', x1, x2, x3⟩ := this; exact ⟨u', x1, x2, x3.trans hb⟩
    | crash u => rw [e3] at this; obtain ⟨u', x1, x2, x3⟩ := this; exact ⟨u', x1, x2, x3.trans hb⟩
    | stuck => trivial
  | panic t =>
    rw [e] at this
    obtain ⟨t', e', ht⟩ := this
    refine ⟨t', ?_, ht⟩
    show M.bind y g s' = _
    unfold M.bind; rw [e']
  | crash t =>
    rw [e] at this
    obtain ⟨t', e', ht⟩ := this
    refine ⟨t', ?_, ht⟩
    show M.bind y g s' = _
    unfold M.bind; rw [e']
  | stuck => trivial

theorem Comm.the {r : α → α} {a b : Option α} (h : ∀ x, a = some x → b = some (r x)) : E.Comm r (the a : M ω α) (the b) := by
  cases a with
  | none => exact Comm.stuck _ _
  | some a => rw [h a rfl]; exact Comm.pure r a

theorem Comm.check (b : Bool) : E.Comm id (check b : M ω Unit) (check b) := by
  cases b
  · exact Comm.panic _
  · exact Comm.pure id ()

theorem comm_alloc (v : Val) : E.Comm E.ren (alloc v : M ω Loc) (alloc (E.renV v)) := by
  intro s s' h
  refine ⟨{ s' with mem := s'.mem ++ [E.renV v] }, ?_,
    ⟨?_, ?_, h.base, h.defers, h.world, h.mem.alloc h.wins v⟩, rfl⟩
  · show R.ok _ _ = _
    rw [ren_new h.wins, h.mem.length]
    rfl
  · have := h.wins
    simp
    omega
  · have := h.size
    simp
    omega

theorem comm_load (v : E.Valid) (l : Loc) : E.Comm E.renV (load l : M ω Val) (load (E.ren l)) := by
  intro s s' h
  unfold load
  cases e : l.get s.mem with
  | none => trivial
  | some u =>
    refine ⟨s', ?_, h, rfl⟩
    rw [h.mem.get v e]

theorem comm_store (v : E.Valid) (l : Loc) (a : Val) : E.Comm id (store l a : M ω Unit) (store (E.ren l) (E.renV a)) := by
  intro s s' h
  unfold store
  cases e : l.get s.mem with
  | none => trivial
  | some u =>
    simp only
    cases e' : l.set s.mem (u.fit a) with
    | none => trivial
    | some m =>
      simp only
      by_cases c : (decide (l.blk < s.base) && a.refers s.base) = true
      · rw [if_pos c]; trivial
      · rw [if_neg c]
        obtain ⟨m', x, y⟩ := h.mem.set v e'
        refine ⟨{ s' with mem := m' }, ?_, ⟨?_, ?_, h.base, h.defers, h.world, y⟩, rfl⟩
        · rw [h.mem.get v e]
          simp only
          rw [← E.renV_fit, x]
          simp only
          rw [renV_refers h.base, decide_eq_decide.2 (h.base l), if_neg c]
        · rw [Loc.set_length e']; exact h.wins
        · rw [Loc.set_length e']; exact h.size

theorem comm_binOp (op : BinOp) (x y : Val) : E.Comm E.renV (binOp op x y : M ω Val) (binOp op (E.renV x) (E.renV y)) := by
  unfold binOp
  cases x <;> cases y <;> simp only [renV] <;> first | exact Comm.stuck _ _ | skip
  all_goals cases op <;> simp only <;>
    first
    | exact Comm.stuck _ _
    | exact Comm.pure' (by simp only [renV])
    | exact Comm.bind (Comm.check _) fun _ => Comm.pure' (by simp only [renV])
    | skip
  all_goals refine Comm.bind (r := id) (Comm.the fun x h => h) fun t => ?_
  all_goals first
    | exact Comm.bind (Comm.check _) fun _ => Comm.pure' (by simp only [renV, id])
    | exact Comm.the fun x h => by cases h <;> rfl

theorem comm_unOp (op : UnOp) (x : Val) : E.Comm E.renV (unOp op x : M ω Val) (unOp op (E.renV x)) := by
  unfold unOp
  cases op <;> cases x <;> simp only [renV] <;> first | exact Comm.stuck _ _ | exact Comm.pure' (by simp only [renV])

theorem comm_index (v : Val) (n : Nat) : E.Comm id (index v n : M ω Nat) (index (E.renV v) n) := by
  unfold index
  cases v <;> simp only [renV] <;> first | exact Comm.stuck _ _ | skip
  exact Comm.bind (Comm.check _) fun _ => Comm.pure id _

theorem comm_single (vs : List Val) : E.Comm E.renV (single vs : M ω Val) (single (E.renVs vs)) := by
  rcases vs with _ | ⟨v, _ | ⟨w, vs⟩⟩ <;> simp only [renVs] <;> unfold single
  · exact Comm.stuck _ _
  · exact Comm.pure _ _
  · exact Comm.stuck _ _

theorem renV_arrLen (v : Val) : (E.renV v).arrLen = v.arrLen := by
  cases v <;> simp [renV, Val.arrLen, renVs_length]

theorem comm_arrLen (v : Val) : E.Comm id (the v.arrLen : M ω Nat) (the (E.renV v).arrLen) :=
  Comm.the fun x h => by rw [renV_arrLen, h]; rfl

theorem comm_cut (l : Loc) (off len cap : Nat) (lo hi : Option Int) :
    E.Comm E.renV (cut l off len cap lo hi : M ω Val) (cut (E.ren l) off len cap lo hi) := by
  unfold cut
  exact Comm.bind (Comm.check _) fun _ => Comm.pure' (by simp only [renV])

theorem comm_contents (h : E.Valid) (v : Val) : E.Comm E.renVs (contents v : M ω (List Val)) (contents (E.renV v)) := by
  unfold contents
  cases v <;> simp only [renV] <;> first | exact Comm.stuck _ _ | exact Comm.pure _ [] | skip
  · refine Comm.pure' ?_
    rw [renVs_eq, List.map_map]
    rfl
  · refine Comm.bind (comm_load h _) fun w => ?_
    cases w <;> simp only [renV] <;> first | exact Comm.stuck _ _ | skip
    refine Comm.pure' ?_
    rw [renVs_take, renVs_drop]

theorem renVs_splice (vs : List Val) (off : Nat) (ws : List Val) : E.renVs (splice vs off ws) = splice (E.renVs vs) off (E.renVs ws) := by
  unfold splice
  rw [renVs_append, renVs_append, renVs_take, renVs_drop, renVs_length]

theorem comm_copyVal (h : E.Valid) (d s : Val) : E.Comm id (copyVal d s : M ω Nat) (copyVal (E.renV d) (E.renV s)) := by
  unfold copyVal
  cases d <;> simp only [renV] <;> first | exact Comm.stuck _ _ | exact Comm.pure id _ | skip
  refine Comm.bind (comm_contents h _) fun ws => ?_
  refine Comm.bind (comm_load h _) fun w => ?_
  cases w <;> simp only [renV] <;> first | exact Comm.stuck _ _ | skip
  rw [← renVs_take, ← renVs_splice]
  refine Comm.bind (comm_store h _ (.arr _)) fun _ => Comm.pure' ?_
  rw [renVs_length]
  rfl

theorem comm_newSlice (vs : List Val) (n : Nat) : E.Comm E.renV (newSlice vs n : M ω Val) (newSlice (E.renVs vs) n) := by
  unfold newSlice
  refine Comm.bind (comm_alloc (.arr _)) fun l => Comm.pure' ?_
  rw [renV, renVs_length]

theorem comm_appendVal (h : E.Valid) (s x : Val) : E.Comm E.renV (appendVal s x : M ω Val) (appendVal (E.renV s) (E.renV x)) := by
  unfold appendVal
  cases s <;> simp only [renV] <;> first | exact Comm.stuck _ _ | exact comm_newSlice _ _ | skip
  split
  · rw [← ren_path]
    exact Comm.bind (comm_store h _ _) fun _ => Comm.pure' (by rw [renV])
  · refine Comm.bind (comm_contents h (.slice _ _ _ _)) fun vs => ?_
    have : E.renVs vs ++ [E.renV x] = E.renVs (vs ++ [x]) := by rw [renVs_append]; rfl
    rw [this]
    exact comm_newSlice _ _

theorem valByte_ren (v : Val) : valByte (E.renV v) = valByte v := by
  cases v <;> simp only [renV, valByte]

theorem comm_convNamed (h : E.Valid) (x : Id) (v : Val) : E.Comm E.renV (convNamed x v : M ω Val) (convNamed x (E.renV v)) := by
  unfold convNamed
  split
  · cases v <;> simp only [renV] <;> first | exact Comm.stuck _ _ | exact Comm.pure' (by rw [renV])
  · split
    · have := fun v => comm_contents (ω := ω) h v
      cases v <;> simp only [renV] <;> first
        | exact Comm.stuck _ _
        | exact Comm.pure' (by rw [renV])
        | (refine Comm.bind (this _) fun vs => Comm.pure' ?_
           rw [renV, renVs_eq, List.map_map]
           congr 2
           funext v
           exact (valByte_ren v))
    · exact Comm.stuck _ _

theorem comm_lenOf (v : Val) : E.Comm E.renV (lenOf v : M ω Val) (lenOf (E.renV v)) := by
  unfold lenOf
  cases v <;> simp only [renV] <;> first | exact Comm.stuck _ _ | exact Comm.pure' (by simp only [renV, renVs_length])

theorem comm_builtinVal (h : E.Valid) (x : Id) (vs : List Val) :
    E.Comm E.renVs (builtinVal x vs : M ω (List Val)) (builtinVal x (E.renVs vs)) := by
  unfold builtinVal
  split
  · rcases vs with _ | ⟨v, _ | ⟨w, vs⟩⟩ <;> simp only [renVs] <;> first | exact Comm.stuck _ _ | skip
    exact Comm.bind (comm_lenOf _) fun _ => Comm.pure' (by simp only [renVs])
  · split
    · rcases vs with _ | ⟨v, _ | ⟨w, _ | ⟨u, vs⟩⟩⟩ <;> simp only [renVs] <;> first | exact Comm.stuck _ _ | skip
      exact Comm.bind (comm_copyVal h _ _) fun _ => Comm.pure' (by simp only [renVs, renV]; rfl)
    · split
      · rcases vs with _ | ⟨v, _ | ⟨w, _ | ⟨u, vs⟩⟩⟩ <;> simp only [renVs] <;> first | exact Comm.stuck _ _ | skip
        exact Comm.bind (comm_appendVal h _ _) fun _ => Comm.pure' (by simp only [renVs])
      · exact Comm.stuck _ _

theorem comm_makeVal (z : Val) (vs : List Val) :
    E.Comm E.renVs (makeVal z vs : M ω (List Val)) (makeVal (E.renV z) (E.renVs vs)) := by
  unfold makeVal
  rcases vs with _ | ⟨v, _ | ⟨w, _ | ⟨u, vs⟩⟩⟩ <;> simp only [renVs] <;> first | exact Comm.stuck _ _ | skip
  · cases v <;> simp only [renV] <;> first | exact Comm.stuck _ _ | skip
    refine Comm.bind (Comm.check _) fun _ => ?_
    rw [← renVs_replicate]
    exact Comm.bind (comm_newSlice _ _) fun _ => Comm.pure' (by simp only [renVs])
  · cases v <;> simp only [renV] <;> first | exact Comm.stuck _ _ | skip
    cases w <;> simp only [renV] <;> first | exact Comm.stuck _ _ | skip
    refine Comm.bind (Comm.check _) fun _ => ?_
    rw [← renVs_replicate]
    exact Comm.bind (comm_newSlice _ _) fun _ => Comm.pure' (by simp only [renVs])

end Emb

end Verif.Src
