/-
Rules for single steps of the interpreter, for runs that depend on values and places that are not known.
-/
import Verif.Source.Steps

namespace Verif.Src

variable {ω : Type} {P : Prog ω} {I : Interp ω} {c : Ctx} {s t u : St ω}

theorem load_ok {l : Loc} {v : Val} (h : l.get s.mem = some v) : load l s = .ok v s := by
  unfold load; rw [h]

theorem expr_id {x : Id} {l : Loc} {v : Val} (h : P.find c x = some (.var l)) (h' : l.get s.mem = some v) :
    (I.succ P).expr c (.id x) s = .ok v s := by
  show nextExpr P I c (.id x) s = _
  unfold nextExpr
  simp only [h]
  exact load_ok h'

theorem loc_id {x : Id} {l : Loc} (h : P.find c x = some (.var l)) : (I.succ P).loc c (.id x) s = .ok l s := by
  show nextLoc P I c (.id x) s = _
  unfold nextLoc
  simp only [h]
  rfl

theorem index_ok {ty : ITy} {k : Int} {n : Nat} (h : 0 ≤ k) (h' : k < n) : (index (.int ty k) n : M ω Nat) s = .ok k.toNat s := by
  have e : (M.check (0 ≤ k && k < n) : M ω Unit) s = .ok () s := by
    unfold M.check
    rw [if_pos (by simp [h, h'])]
    rfl
  exact (M.bind_ok e).trans rfl

/-- `e[i]` where `e` is a pointer to an array. -/
theorem loc_idx_ptr {e i : Expr} {l : Loc} {vs : List Val} {ty : ITy} {k : Int} (h1 : I.expr c e s = .ok (.ptr l) s)
    (h2 : l.get s.mem = some (.arr vs)) (h3 : I.expr c i s = .ok (.int ty k) s) (h4 : 0 ≤ k) (h5 : k < vs.length) :
    (I.succ P).loc c (.idx e i) s = .ok ⟨l.blk, l.path ++ [.idx k.toNat]⟩ s := by
  refine (M.bind_ok h1).trans ?_
  refine (M.bind_ok (load_ok h2)).trans ?_
  refine (M.bind_ok (x := M.the (some vs.length)) (a := vs.length) rfl).trans ?_
  refine (M.bind_ok h3).trans ?_
  exact (M.bind_ok (index_ok h4 h5)).trans rfl

/-- `e[i]` where `e` is an array. -/
theorem loc_idx_arr {e i : Expr} {l : Loc} {vs : List Val} {ty : ITy} {k : Int} (h1 : I.expr c e s = .ok (.arr vs) s)
    (h2 : I.loc c e s = .ok l s) (h3 : I.expr c i s = .ok (.int ty k) s) (h4 : 0 ≤ k) (h5 : k < vs.length) :
    (I.succ P).loc c (.idx e i) s = .ok ⟨l.blk, l.path ++ [.idx k.toNat]⟩ s := by
  refine (M.bind_ok h1).trans ?_
  refine (M.bind_ok h2).trans ?_
  refine (M.bind_ok h3).trans ?_
  exact (M.bind_ok (index_ok h4 h5)).trans rfl

theorem expr_idx {e i : Expr} {l : Loc} {v : Val} (h : I.loc c (.idx e i) s = .ok l s) (h' : l.get s.mem = some v) :
    (I.succ P).expr c (.idx e i) s = .ok v s :=
  (M.bind_ok h).trans (load_ok h')

theorem expr_bin {op : BinOp} {a b : Expr} {x y v : Val} (ho : op ≠ .land) (ho' : op ≠ .lor) (h1 : I.expr c a s = .ok x s)
    (h2 : I.expr c b s = .ok y s) (h3 : (binOp op x y : M ω Val) s = .ok v s) : (I.succ P).expr c (.bin op a b) s = .ok v s := by
  cases op <;> first
    | exact absurd rfl ho
    | exact absurd rfl ho'
    | exact (M.bind_ok h1).trans ((M.bind_ok h2).trans h3)

theorem expr_land {a b : Expr} {x y : Bool} (h1 : I.expr c a s = .ok (.bool x) s)
    (h2 : x = true → I.expr c b s = .ok (.bool y) s) : (I.succ P).expr c (.bin .land a b) s = .ok (.bool (x && y)) s := by
  refine (M.bind_ok h1).trans ?_
  cases x with
  | true => exact h2 rfl
  | false => rfl

theorem expr_lor {a b : Expr} {x y : Bool} (h1 : I.expr c a s = .ok (.bool x) s)
    (h2 : x = false → I.expr c b s = .ok (.bool y) s) : (I.succ P).expr c (.bin .lor a b) s = .ok (.bool (x || y)) s := by
  refine (M.bind_ok h1).trans ?_
  cases x with
  | true => rfl
  | false => exact h2 rfl

theorem expr_un {op : UnOp} {a : Expr} {x v : Val} (h1 : I.expr c a s = .ok x s) (h3 : (unOp op x : M ω Val) s = .ok v s) :
    (I.succ P).expr c (.un op a) s = .ok v s :=
  (M.bind_ok h1).trans h3

/-- Conversions. -/
theorem multi_conv {x : Id} {e : Expr} {v w : Val} (h : P.find c x = none) (hb : isBuiltin x = false) (ht : namesType x = true)
    (h1 : I.expr c e s = .ok v s) (h2 : (convNamed x v : M ω Val) s = .ok w s) :
    (I.succ P).multi c (.call (.id x) [e]) s = .ok [w] s := by
  show nextMulti P I c (.call (.id x) [e]) s = _
  unfold nextMulti
  simp only [h, hb, ht]
  exact (M.bind_ok h1).trans ((M.bind_ok h2).trans rfl)

theorem expr_call {f : Expr} {args : List Expr} {v : Val} (h : I.multi c (.call f args) s = .ok [v] s) :
    (I.succ P).expr c (.call f args) s = .ok v s :=
  (M.bind_ok h).trans rfl

theorem store_ok {l : Loc} {old v : Val} {m : List Val} (h : l.get s.mem = some old) (h' : l.set s.mem (old.fit v) = some m)
    (hv : v.refers s.base = false) : store l v s = .ok () { s with mem := m } := by
  unfold store
  rw [h]
  simp only [h', hv, Bool.and_false]
  rfl

/-- `a[i] = e` -/
theorem stmt_assign_idx {a i e : Expr} {l : Loc} {v : Val} (h1 : I.loc c (.idx a i) s = .ok l s) (h2 : I.expr c e s = .ok v s)
    (h3 : store l v s = .ok () t) : (I.succ P).stmt c (.assign [.idx a i] [e]) s = .ok (c.env, .next) t := by
  have e1 : targets I c [.idx a i] s = .ok [some l] s := (M.bind_ok h1).trans rfl
  have e2 : rhs I c 1 [e] s = .ok [v] s := (M.bind_ok h2).trans rfl
  have e3 : storeAll [some l] [v] s = .ok () t := (M.bind_ok h3).trans rfl
  exact (M.bind_ok e1).trans ((M.bind_ok e2).trans ((M.bind_ok e3).trans rfl))

/-- `l op= e` -/
theorem stmt_opAssign {op : BinOp} {a e : Expr} {l : Loc} {x y z : Val} (h1 : I.loc c a s = .ok l s)
    (h2 : l.get s.mem = some x) (h3 : I.expr c e s = .ok y s) (h4 : (binOp op x y : M ω Val) s = .ok z s)
    (h5 : store l z s = .ok () t) : (I.succ P).stmt c (.opAssign op a e) s = .ok (c.env, .next) t :=
  (M.bind_ok h1).trans ((M.bind_ok (load_ok h2)).trans ((M.bind_ok h3).trans ((M.bind_ok h4).trans ((M.bind_ok h5).trans rfl))))

/-- `x := e`, in a scope that does not have x. -/
theorem stmt_define {x : Id} {e : Expr} {v : Val} (hx : x ≠ id!"_") (hs : c.env.scope.lookup x = none)
    (h : I.expr c e s = .ok v s) :
    (I.succ P).stmt c (.define [x] [e]) s =
      .ok ((x, .var ⟨s.mem.length, []⟩) :: c.env, .next) { s with mem := s.mem ++ [v.default] } := by
  have e2 : rhs I c 1 [e] s = .ok [v] s := (M.bind_ok h).trans rfl
  refine (M.bind_ok e2).trans ?_
  have e3 : define c.env.scope c.env [x] [v] s =
      .ok ((x, .var ⟨s.mem.length, []⟩) :: c.env) { s with mem := s.mem ++ [v.default] } := by
    unfold define
    rw [if_neg hx, hs]
    rfl
  exact (M.bind_ok e3).trans rfl

theorem execs_last {x : Stmt} {env : Env} {r : Ctl} (h : I.stmt c x s = .ok (env, r) t) : execs I c [x] s = .ok r t := by
  unfold execs
  rw [M.bind_ok h]
  cases r <;> rfl

/-- Statements that end with something else than the next statement. -/
theorem execs_leave {x : Stmt} {ss : List Stmt} {env : Env} {r : Ctl} (h : I.stmt c x s = .ok (env, r) t) (hr : r ≠ .next) :
    execs I c (x :: ss) s = .ok r t := by
  unfold execs
  rw [M.bind_ok h]
  cases r <;> first | exact absurd rfl hr | rfl

/-- `if e { ... } else { ... }` -/
theorem stmt_if {e : Expr} {bt bf : List Stmt} {b : Bool} {r : Ctl}
    (h2 : I.expr { c with env := c.env.enter } e s = .ok (.bool b) s)
    (h3 : execs I { c with env := c.env.enter.enter } (if b then bt else bf) s = .ok r t) :
    (I.succ P).stmt c (.ite none e bt bf) s = .ok (c.env, r) t := by
  have e2 : cond I { c with env := c.env.enter } e s = .ok b s := (M.bind_ok h2).trans rfl
  exact (M.bind_ok e2).trans ((M.bind_ok (x := block I { c with env := c.env.enter } (if b then bt else bf)) h3).trans rfl)

/-- `for x := range e { ... }` where `e` is a pointer to an array. -/
theorem stmt_range_ptr {x : Id} {e : Expr} {b : List Stmt} {l : Loc} {vs : List Val} {r : Ctl} (h1 : I.expr c e s = .ok (.ptr l) s)
    (h2 : l.get s.mem = some (.arr vs)) (hx : x ≠ id!"_")
    {n : Nat} (hn : vs.length = n)
    (h3 : rangeLoop I { c with env := (x, .var ⟨s.mem.length, []⟩) :: c.env.enter } b (.place l 0 n)
      (some ⟨s.mem.length, []⟩) none n 0 { s with mem := s.mem ++ [.nil] } = .ok r t) :
    (I.succ P).stmt c (.range (some x) none e b) s = .ok (c.env, r) t := by
  subst hn
  have e1 : rangeOver I c e s = .ok (.place l 0 vs.length) s :=
    (M.bind_ok h1).trans ((M.bind_ok (load_ok h2)).trans rfl)
  have e2 : rangeVar c.env.enter (some x) s =
      .ok ((x, .var ⟨s.mem.length, []⟩) :: c.env.enter, some ⟨s.mem.length, []⟩) { s with mem := s.mem ++ [.nil] } := by
    unfold rangeVar
    simp only [if_neg hx]
    rfl
  exact (M.bind_ok e1).trans ((M.bind_ok e2).trans ((M.bind_ok rfl).trans ((M.bind_ok h3).trans rfl)))

/-- An iteration of it. -/
theorem range_step {b : List Stmt} {o : RangeOver} {l : Loc} {n i : Nat} {r : R ω Ctl} (h1 : store l (.int .int i) s = .ok () t)
    (h2 : block I c b t = .ok .next u) (h3 : rangeLoop I c b o (some l) none n (i + 1) u = r) :
    rangeLoop I c b o (some l) none (n + 1) i s = r := by
  have e1 : setVar (some l) (return .int .int i) s = .ok () t := h1
  exact (M.bind_ok e1).trans ((M.bind_ok rfl).trans ((M.bind_ok h2).trans h3))

theorem expr_addr_id {x : Id} {l : Loc} (h : I.loc c (.id x) s = .ok l s) :
    (I.succ P).expr c (.addr (.id x)) s = .ok (.ptr l) s := (M.bind_ok h).trans rfl

theorem expr_addr_idx {a i : Expr} {l : Loc} (h : I.loc c (.idx a i) s = .ok l s) :
    (I.succ P).expr c (.addr (.idx a i)) s = .ok (.ptr l) s := (M.bind_ok h).trans rfl

theorem evals_nil : evals I c [] s = .ok [] s := rfl

theorem evals_cons {e : Expr} {es : List Expr} {v : Val} {vs : List Val} (h : I.expr c e s = .ok v t) (h' : evals I c es t = .ok vs u) :
    evals I c (e :: es) s = .ok (v :: vs) u := (M.bind_ok h).trans ((M.bind_ok h').trans rfl)

/-- A call of a function of the package. -/
theorem multi_call {x : Id} {args : List Expr} {k : Pkg} {f : Func} {vs rs : List Val} (h : P.find c x = none)
    (hb : isBuiltin x = false) (ht : namesType x = false) (hk : P.pkgs.lookup c.pkg = some k) (hf : k.funcs.lookup x = some f)
    (h1 : evals I c args s = .ok vs t) (h2 : I.call c.pkg f vs t = .ok rs u) :
    (I.succ P).multi c (.call (.id x) args) s = .ok rs u := by
  show nextMulti P I c (.call (.id x) args) s = _
  unfold nextMulti
  simp only [h, hb, ht]
  have e1 : (P.pkg c : M ω Pkg) s = .ok k s := by
    unfold Prog.pkg
    rw [hk]
    rfl
  refine (M.bind_ok e1).trans ?_
  have e2 : (M.the (k.funcs.lookup x) : M ω Func) s = .ok f s := by rw [hf]; rfl
  exact (M.bind_ok e2).trans ((M.bind_ok h1).trans h2)

theorem stmt_expr {e : Expr} {vs : List Val} (h : I.multi c e s = .ok vs t) : (I.succ P).stmt c (.expr e) s = .ok (c.env, .next) t :=
  (M.bind_ok h).trans rfl

end Verif.Src
