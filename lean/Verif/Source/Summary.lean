/-
Reasoning about calls one function at a time: what has been shown about a function replaces its body when the functions
that call it are considered, and what it does to a few blocks of memory it does anywhere.
-/
import Verif.Source.Mono
import Verif.Source.LocalInterp

namespace Verif.Src

open M (stuck panic the check)

variable {ω : Type}

/-- What is known about some functions and methods. A summary is stuck where nothing is known. -/
structure Known (ω : Type) where
  func : Id → Id → Option (List Val → M ω (List Val))
  method : Id → Id → Option (List Val → M ω (List Val))

/-- Call a method, by its summary if there is one. -/
def callMethodK (P : Prog ω) (K : Known ω) (I : Interp ω) (r : Val) (m : Id) (vs : List Val) : M ω (List Val) :=
  match r with
  | .ptr l => do
    match ← load l with
    | .struct t _ => match K.method t m with
      | some S => S (r :: vs)
      | none => callMethod P I r m vs
    | _ => callMethod P I r m vs
  | _ => callMethod P I r m vs

/-- Calls, by summaries if there are some. -/
def multiK (P : Prog ω) (K : Known ω) (I : Interp ω) (c : Ctx) (e : Expr) : M ω (List Val) :=
  match e with
  | .call (.id x) args => match K.func c.pkg x with
    | some S => match P.find c x with
      | some _ => nextMulti P I c e
      | none => if isBuiltin x || namesType x then nextMulti P I c e else do
        let vs ← evals I c args
        S vs
    | none => nextMulti P I c e
  | .call (.sel (.id p) m) args => match P.find c p with
    | some (.var _) => do
      let r ← receiver I c (.id p)
      let vs ← evals I c args
      callMethodK P K I r m vs
    | _ => nextMulti P I c e
  | .call (.sel e m) args => do
    let r ← receiver I c e
    let vs ← evals I c args
    callMethodK P K I r m vs
  | e => nextMulti P I c e

/-- One more unit of fuel, with summaries. -/
def Interp.succK (P : Prog ω) (K : Known ω) (I : Interp ω) : Interp ω := { I.succ P with multi := multiK P K I }

/-- The interpreter with summaries. -/
def interpK (P : Prog ω) (K : Known ω) : Nat → Interp ω
  | 0 => .none
  | n + 1 => (interpK P K n).succK P K

/-- The summaries are right, given `k` units of fuel. -/
structure Known.Sound (P : Prog ω) (K : Known ω) (k : Nat) : Prop where
  func : ∀ p x S, K.func p x = some S → ∃ g f, P.pkgs.lookup p = some g ∧ g.funcs.lookup x = some f ∧
    ∀ vs, Le (S vs) ((interp P k).call p f vs)
  method : ∀ t m S, K.method t m = some S → ∃ p f, P.methods.lookup (t, m) = some (p, f) ∧
    ∀ vs, Le (S vs) ((interp P k).call p f vs)

theorem load_bind {α : Type} (l : Loc) (f : Val → M ω α) (s : St ω) :
    (load l >>= f) s = match l.get s.mem with | some v => f v s | none => .stuck := by
  show M.bind (load l) f s = _
  unfold M.bind load
  cases l.get s.mem <;> rfl

theorem callMethodK_le {P : Prog ω} {K : Known ω} {k : Nat} (h : K.Sound P k) {I J : Interp ω} (i : I.Le J)
    (j : (interp P k).Le J) (r : Val) (m : Id) (vs : List Val) :
    Le (callMethodK P K I r m vs) (callMethod P J r m vs) := by
  have gen := callMethod_mono (.refl P) i r m vs
  unfold callMethodK
  split
  · next l =>
    intro s
    rw [load_bind]
    cases e : l.get s.mem with
    | none => exact .inl rfl
    | some v =>
      simp only
      cases v <;> simp only <;> first | exact gen s | skip
      next st _ =>
        cases hS : K.method st m with
        | none => exact gen s
        | some S =>
          obtain ⟨p, f, e1, e2⟩ := h.method _ _ _ hS
          have : callMethod P J (.ptr l) m vs s = J.call p f (.ptr l :: vs) s := by
            unfold callMethod
            simp only
            rw [load_bind, e]
            simp only
            rw [e1]
          rw [this]
          exact ((e2 _).trans (j.call _ _ _)) s
  · exact gen

theorem multiK_le {P : Prog ω} {K : Known ω} {k : Nat} (h : K.Sound P k) {I J : Interp ω} (i : I.Le J)
    (j : (interp P k).Le J) (c : Ctx) (e : Expr) : Le (multiK P K I c e) (nextMulti P J c e) := by
  have gen := nextMulti_mono (.refl P) i c e
  unfold multiK
  split
  · next x args =>
    split
    · next S hS =>
      obtain ⟨g, f, e1, e2, e3⟩ := h.func _ _ _ hS
      split
      · exact gen
      · next hf =>
        split
        · exact gen
        · next hb =>
          simp only [Bool.or_eq_true, not_or, Bool.not_eq_true] at hb
          unfold nextMulti Prog.pkg
          simp only
          rw [hf]
          simp only
          rw [hb.1, hb.2, e1]
          simp only [Bool.false_eq_true, if_false]
          show Le _ (M.bind (M.pure g) _)
          unfold M.bind M.pure
          simp only
          rw [e2]
          show Le _ (M.bind (M.pure f) _)
          unfold M.bind M.pure
          simp only
          exact Le.bind (evals_mono i _ _) fun vs => (e3 _).trans (j.call _ _ _)
    · exact gen
  · split
    · next hf =>
      unfold nextMulti
      simp only
      rw [hf]
      exact Le.bind (receiver_mono i _ _) fun r => Le.bind (evals_mono i _ _) fun vs => callMethodK_le h i j _ _ _
    · exact gen
  · next e m args hne =>
    unfold nextMulti
    split
    · next he => cases he
    · next he => simp only [Expr.call.injEq, Expr.sel.injEq] at he; exact absurd he.1.1 (hne _)
    · next he =>
      cases he
      exact Le.bind (receiver_mono i _ _) fun r => Le.bind (evals_mono i _ _) fun vs => callMethodK_le h i j _ _ _
    · next hn => exact absurd rfl (hn _ _ _)
  · exact gen

/-- What the interpreter with summaries says is so. -/
theorem interpK_le {P : Prog ω} {K : Known ω} {k : Nat} (h : K.Sound P k) (n : Nat) :
    (interpK P K n).Le (interp P (n + k)) := by
  induction n with
  | zero => exact Interp.none_le _
  | succ n ih =>
    have s := succ_mono (.refl P) ih
    rw [Nat.add_right_comm]
    exact ⟨s.expr, s.loc, multiK_le h ih (interp_mono (.refl P) (by omega)), s.stmt, s.iter, s.call, s.zero, s.comp⟩

/-! ### Calls on a few blocks -/

mutual

theorem Emb.renV_plain (E : Emb) : ∀ v : Val, v.refers 0 = false → E.renV v = v
  | .ptr l, h => by simp [Val.refers] at h
  | .slice l _ _ _, h => by simp [Val.refers] at h
  | .arr vs, h => by rw [Emb.renV, Emb.renVs_plain E vs (by simpa [Val.refers] using h)]
  | .struct t fs, h => by rw [Emb.renV, Emb.renFs_plain E fs (by simpa [Val.refers] using h)]
  | .int _ _, _ | .bool _, _ | .str _, _ | .nil, _ | .err _, _ | .obj _ _, _ | .func _ _, _ => by simp only [Emb.renV]

theorem Emb.renVs_plain (E : Emb) : ∀ vs : List Val, Val.anyRefers 0 vs = false → E.renVs vs = vs
  | [], _ => rfl
  | v :: vs, h => by
    simp only [Val.anyRefers, Bool.or_eq_false_iff] at h
    rw [Emb.renVs, Emb.renV_plain E v h.1, Emb.renVs_plain E vs h.2]

theorem Emb.renFs_plain (E : Emb) : ∀ fs : List (Id × Val), Val.fieldRefers 0 fs = false → E.renFs fs = fs
  | [], _ => rfl
  | (f, v) :: vs, h => by
    simp only [Val.fieldRefers, Bool.or_eq_false_iff] at h
    rw [Emb.renFs, Emb.renV_plain E v h.1, Emb.renFs_plain E vs h.2]

end

/-- A program whose libraries have no variables of their own and are local. -/
structure Prog.Bare (P : Prog ω) : Prop where
  value : ∀ p x v, P.ext.value p x = some v → v.refers 0 = false
  zero : ∀ p x v, P.ext.zero p x = some v → v.refers 0 = false
  func : ∀ (E : Emb), E.Valid → ∀ p x vs, E.Comm E.renVs (P.ext.func p x vs) (P.ext.func p x (E.renVs vs))
  method : ∀ (E : Emb), E.Valid → ∀ r m vs, E.Comm E.renVs (P.ext.method r m vs) (P.ext.method (E.renV r) m (E.renVs vs))

theorem Prog.Bare.closed {P : Prog ω} (b : P.Bare) {E : Emb} (v : E.Valid) (h : ∀ p x b, P.global p x = some b → E.renB b = b) :
    E.Closed P where
  glob := h
  value p x v e := E.renV_plain v (b.value p x v e)
  zero p x v e := E.renV_plain v (b.zero p x v e)
  func := b.func E v
  method := b.method E v

/-- A call that does something to the blocks `vs` does it to any places of any memory holding the same values. -/
theorem call_anywhere {P : Prog ω} (b : P.Bare) {n : Nat} {p : Id} {f : Func} {args rs vs vs' : List Val} {s : St ω}
    (run : (interp P n).call p f args ⟨vs, vs.length, [], s.world⟩ = .ok rs ⟨vs', vs.length, [], s.world⟩)
    (pl : Val.anyRefers 0 vs = false) (pl' : Val.anyRefers 0 vs' = false) (plr : Val.anyRefers 0 rs = false)
    (len' : vs'.length = vs.length) {ρ : List Loc} (len : ρ.length = vs.length)
    (apart : ρ.Pairwise fun l m => l.disjoint m = true) (get : ∀ b ∈ ρ.zip vs, b.1.get s.mem = some b.2)
    (glob : ∀ p x b, P.global p x = some b → (⟨s.mem, ρ⟩ : Emb).renB b = b) :
    ∃ m, writeAll s.mem (ρ.zip vs') = some m ∧
      (interp P n).call p f ((⟨s.mem, ρ⟩ : Emb).renVs args) s = .ok rs { s with mem := m } := by
  let E : Emb := ⟨s.mem, ρ⟩
  have valid : E.Valid := by
    refine ⟨fun w hw => ?_, apart⟩
    obtain ⟨i, hi, e⟩ := List.getElem_of_mem hw
    have hi' : i < vs.length := len ▸ hi
    have hi : i < ρ.length := hi
    refine ⟨vs[i], get (w, vs[i]) ?_⟩
    rw [List.mem_iff_getElem]
    refine ⟨i, by rw [List.length_zip]; omega, ?_⟩
    rw [List.getElem_zip]
    exact congrArg (·, vs[i]) e
  cases n with
  | zero => cases run
  | succ n =>
    have rel : E.Rel ⟨vs, vs.length, [], s.world⟩ { s with base := s.mem.length, defers := [] } := by
      refine ⟨Nat.le_of_eq len, Nat.le_refl _, fun l => ?_, rfl, rfl, s.mem, ?_, ?_⟩
      · have : s.mem.length = E.renN vs.length := by
          show s.mem.length = s.mem.length + (vs.length - ρ.length)
          omega
        show (E.ren l).blk < s.mem.length ↔ l.blk < vs.length
        rw [this]
        exact Emb.ren_lt valid (Nat.le_of_eq len)
      · show writeAll s.mem (ρ.zip (E.renVs (vs.take ρ.length))) = _
        rw [List.take_of_length_le (by omega), E.renVs_plain vs pl]
        exact writeAll_self get
      · show s.mem = s.mem ++ E.renVs (vs.drop ρ.length)
        rw [List.drop_of_length_le (by omega)]
        exact (List.append_nil _).symm
    have := (Emb.comm_interp valid (b.closed valid glob) (n + 1)).call p f args _ _ rel
    rw [run] at this
    obtain ⟨t', e, r, _⟩ := this
    obtain ⟨m, hm, em⟩ := r.mem
    have wd := r.world
    change writeAll s.mem (ρ.zip (E.renVs (vs'.take ρ.length))) = _ at hm
    change t'.mem = m ++ E.renVs (vs'.drop ρ.length) at em
    rw [List.take_of_length_le (by omega), E.renVs_plain vs' pl'] at hm
    rw [List.drop_of_length_le (by omega), Emb.renVs, List.append_nil] at em
    rw [E.renVs_plain rs plr] at e
    refine ⟨m, hm, ?_⟩
    change framed _ _ = _ at e
    show framed _ _ = _
    unfold framed at e ⊢
    simp only at e
    generalize body P (interp P n) p f (E.renVs args) _ = o at e
    cases o with
    | ok us t =>
      simp only [R.ok.injEq] at e ⊢
      obtain ⟨rfl, e⟩ := e
      refine ⟨rfl, ?_⟩
      subst e
      simp only at em wd
      simp only [St.mk.injEq]
      exact ⟨em, trivial, trivial, wd⟩
    | panic t => cases e
    | crash t => cases e
    | stuck => cases e

end Verif.Src
