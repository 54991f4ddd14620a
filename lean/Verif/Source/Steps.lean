/-
Running a function piece by piece: lists of statements, iterations of loops, and the call around them.
-/
import Verif.Source.Summary

namespace Verif.Src

variable {ω : Type}

/-- Statements in order, with the names in scope at the end. -/
def execsEnv (I : Interp ω) (c : Ctx) : List Stmt → M ω (Env × Ctl)
  | [] => return (c.env, .next)
  | s :: ss => do
    match ← I.stmt c s with
    | (env, .next) => execsEnv I { c with env := env } ss
    | (env, r) => return (env, r)

theorem M.bind_ok {α β : Type} {x : M ω α} {f : α → M ω β} {s t : St ω} {a : α} (h : x s = .ok a t) :
    (x >>= f) s = f a t := by
  show M.bind x f s = _
  unfold M.bind
  rw [h]

/-- The first statements, then the others. -/
theorem execs_append {I : Interp ω} {c : Ctx} {ss ss' : List Stmt} {s t : St ω} {env : Env} {r : R ω Ctl}
    (h : execsEnv I c ss s = .ok (env, .next) t) (k : execs I { c with env := env } ss' t = r) :
    execs I c (ss ++ ss') s = r := by
  induction ss generalizing c s with
  | nil => cases h; exact k
  | cons x xs ih =>
    unfold execsEnv at h
    change M.bind _ _ s = _ at h
    unfold M.bind at h
    cases e : I.stmt c x s with
    | ok a u =>
      rw [e] at h
      simp only at h
      show execs I c (x :: (xs ++ ss')) s = r
      unfold execs
      rw [M.bind_ok e]
      rcases a with ⟨env', ctl⟩
      cases ctl with
      | next => exact ih h k
      | _ => cases h
    | panic u => rw [e] at h; cases h
    | crash u => rw [e] at h; cases h
    | stuck => rw [e] at h; cases h

theorem execs_split (k : Nat) {I : Interp ω} {c : Ctx} {ss : List Stmt} {s t : St ω} {env : Env} {r : R ω Ctl}
    (h : execsEnv I c (ss.take k) s = .ok (env, .next) t) (h' : execs I { c with env := env } (ss.drop k) t = r) :
    execs I c ss s = r := by
  rw [← List.take_append_drop k ss]
  exact execs_append h h'

theorem execs_one {I : Interp ω} {c : Ctx} {x : Stmt} {ss : List Stmt} {s t : St ω} {env : Env} {r : R ω Ctl}
    (h : I.stmt c x s = .ok (env, .next) t) (h' : execs I { c with env := env } ss t = r) :
    execs I c (x :: ss) s = r := by
  unfold execs
  rw [M.bind_ok h]
  exact h'

theorem execsEnv_mono {I J : Interp ω} (h : I.Le J) (c : Ctx) (ss : List Stmt) : Le (execsEnv I c ss) (execsEnv J c ss) := by
  induction ss generalizing c with
  | nil => exact .refl _
  | cons x xs ih =>
    unfold execsEnv
    refine Le.bind (h.stmt _ _) fun a => ?_
    rcases a with ⟨env, ctl⟩
    cases ctl with
    | next => exact ih _
    | _ => exact .refl _

theorem Le.ok {α : Type} {x y : M ω α} (h : Le x y) {s t : St ω} {a : α} (e : x s = .ok a t) : y s = .ok a t := by
  rcases h s with h | h
  · rw [e] at h; cases h
  · rw [h, e]

/-- An iteration that goes through. -/
theorem iter_step {P : Prog ω} {n : Nat} {c : Ctx} {e : Option Expr} {post : Option Stmt} {b : List Stmt} {s s1 s2 : St ω}
    {r : R ω Ctl} (h1 : condOpt (interp P n) c e s = .ok true s) (h2 : block (interp P n) c b s = .ok .next s1)
    (h3 : stmtOpt (interp P n) c post s1 = .ok () s2) (h4 : (interp P n).iter c e post b s2 = r) :
    (interp P (n + 1)).iter c e post b s = r := by
  show nextIter (interp P n) c e post b s = r
  unfold nextIter
  rw [M.bind_ok h1]
  simp only [if_true]
  rw [M.bind_ok h2]
  simp only
  rw [M.bind_ok h3]
  exact h4

/-- The body of a loop and the statement after it. -/
def bodyPost (I : Interp ω) (c : Ctx) (b : List Stmt) (post : Option Stmt) : M ω Ctl :=
  block I c b >>= fun x => stmtOpt I c post >>= fun _ => M.pure x

theorem bodyPost_mono {I J : Interp ω} (h : I.Le J) (c : Ctx) (b : List Stmt) (post : Option Stmt) :
    Le (bodyPost I c b post) (bodyPost J c b post) :=
  Le.bind (block_mono h _ _) fun _ => Le.bind (stmtOpt_mono h _ _) fun _ => .refl _

theorem iter_step' {P : Prog ω} {n : Nat} {c : Ctx} {e : Option Expr} {post : Option Stmt} {b : List Stmt} {s s2 : St ω}
    {r : R ω Ctl} (h1 : condOpt (interp P n) c e s = .ok true s) (h2 : bodyPost (interp P n) c b post s = .ok .next s2)
    (h4 : (interp P n).iter c e post b s2 = r) :
    (interp P (n + 1)).iter c e post b s = r := by
  change M.bind _ _ _ = _ at h2
  unfold M.bind at h2
  cases e1 : block (interp P n) c b s with
  | ok x s1 =>
    rw [e1] at h2
    change M.bind _ _ _ = _ at h2
    unfold M.bind at h2
    cases e2 : stmtOpt (interp P n) c post s1 with
    | ok y s3 =>
      rw [e2] at h2
      cases h2
      exact iter_step h1 e1 e2 h4
    | panic u => rw [e2] at h2; cases h2
    | crash u => rw [e2] at h2; cases h2
    | stuck => rw [e2] at h2; cases h2
  | panic u => rw [e1] at h2; cases h2
  | crash u => rw [e1] at h2; cases h2
  | stuck => rw [e1] at h2; cases h2

/-- The parts of a loop. -/
def Stmt.loopParts : Option Stmt → Option Stmt × Option Expr × Option Stmt × List Stmt
  | some (.loop i e p b) => (i, e, p, b)
  | _ => (none, none, none, [])

/-- The end of a loop. -/
theorem iter_done {P : Prog ω} {n : Nat} {c : Ctx} {e : Option Expr} {post : Option Stmt} {b : List Stmt} {s : St ω}
    (h1 : condOpt (interp P n) c e s = .ok false s) :
    (interp P (n + 1)).iter c e post b s = .ok .next s := by
  show nextIter (interp P n) c e post b s = _
  unfold nextIter
  rw [M.bind_ok h1]
  rfl

/-- A loop left by `break`. -/
theorem iter_break {P : Prog ω} {n : Nat} {c : Ctx} {e : Option Expr} {post : Option Stmt} {b : List Stmt} {s s1 : St ω}
    (h1 : condOpt (interp P n) c e s = .ok true s) (h2 : block (interp P n) c b s = .ok .brk s1) :
    (interp P (n + 1)).iter c e post b s = .ok .next s1 := by
  show nextIter (interp P n) c e post b s = _
  unfold nextIter
  rw [M.bind_ok h1]
  simp only [if_true]
  rw [M.bind_ok h2]
  rfl

/-- A loop with its own variable. -/
theorem stmt_loop {P : Prog ω} {n : Nat} {c c' : Ctx} {i : Option Stmt} {e : Option Expr} {post : Option Stmt}
    {b : List Stmt} {s t u : St ω} {r : Ctl} (h1 : initial (interp P n) c i s = .ok c' t)
    (h2 : (interp P n).iter c' e post b t = .ok r u) :
    (interp P (n + 1)).stmt c (.loop i e post b) s = .ok (c.env, r) u := by
  exact (M.bind_ok h1).trans ((M.bind_ok h2).trans rfl)

/-- A conditional. -/
theorem stmt_ite {P : Prog ω} {n : Nat} {c c' : Ctx} {i : Option Stmt} {e : Expr} {bt bf : List Stmt}
    {s s1 s2 s3 : St ω} {r : Ctl} {b : Bool} (h1 : initial (interp P n) c i s = .ok c' s1)
    (h2 : cond (interp P n) c' e s1 = .ok b s2) (h3 : block (interp P n) c' (if b then bt else bf) s2 = .ok r s3) :
    (interp P (n + 1)).stmt c (.ite i e bt bf) s = .ok (c.env, r) s3 := by
  exact (M.bind_ok h1).trans ((M.bind_ok h2).trans ((M.bind_ok h3).trans rfl))

/-- A call, from the run of the statements of the function. -/
theorem call_of_execs {P : Prog ω} {n : Nat} {p : Id} {f : Func} {vs rs : List Val} {s s1 t : St ω} {env : Env} {ctl : Ctl}
    (h1 : (params [] (f.recv.toList ++ f.params) vs >>= fun env => namedResults (interp P n) ⟨p, env⟩ env f.results)
      { s with base := s.mem.length, defers := [] } = .ok env s1)
    (h2 : execs (interp P n) ⟨p, env⟩ f.body s1 = .ok ctl t) (h3 : results f env ctl t = .ok rs t)
    (h4 : t.defers = []) (h5 : Val.anyRefers s.mem.length rs = false) :
    (interp P (n + 1)).call p f vs s = .ok rs { t with mem := t.mem.take s.mem.length, base := s.base, defers := s.defers } := by
  show framed (body P (interp P n) p f vs) s = _
  unfold framed
  have : body P (interp P n) p f vs { s with base := s.mem.length, defers := [] } = .ok rs t := by
    unfold body
    change M.bind _ _ _ = _ at h1
    show M.bind _ _ _ = _
    unfold M.bind at h1 ⊢
    cases e : (params [] (f.recv.toList ++ f.params) vs : M ω Env) { s with base := s.mem.length, defers := [] } with
    | ok a u =>
      rw [e] at h1
      have h6 : (unwind P (interp P n)) t = .ok () t := by
        unfold unwind
        have : (pending : M ω _) t = .ok [] t := by unfold pending; rw [h4]
        rw [M.bind_ok this]
        rfl
      have h7 : onPanic (unwind P (interp P n)) (execs (interp P n) ⟨p, env⟩ f.body >>= fun r => results f env r) s1 = .ok rs t := by
        unfold onPanic
        rw [M.bind_ok h2, h3]
      exact (M.bind_ok h1).trans ((M.bind_ok h7).trans ((M.bind_ok h6).trans rfl))
    | panic u => rw [e] at h1; cases h1
    | crash u => rw [e] at h1; cases h1
    | stuck => rw [e] at h1; cases h1
  rw [this]
  simp only
  rw [h5]
  rfl

end Verif.Src
