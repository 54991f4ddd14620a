/-
Calls and loops put together from the runs of their parts.
-/
import Verif.Source.Kit

namespace Verif.Src

variable {ω : Type}

/-- How a call ends, given how its statements end. -/
def finish (P : Prog ω) (I : Interp ω) (f : Func) (env : Env) (s : St ω) (r : R ω Ctl) : R ω (List Val) :=
  framed (onPanic (unwind P I) ((fun _ => r : M ω Ctl) >>= fun x => results f env x) >>= fun rs => unwind P I >>= fun _ => pure rs) s

/-- How statements end, given how the first of them ends. -/
def after (I : Interp ω) (c : Ctx) (ss : List Stmt) : R ω (Env × Ctl) → R ω Ctl
  | .ok (env, .next) t => execs I { c with env := env } ss t
  | .ok (_, r) t => .ok r t
  | .panic t => .panic t
  | .crash t => .crash t
  | .stuck => .stuck

theorem execs_cons {I : Interp ω} {c : Ctx} {x : Stmt} {ss : List Stmt} {s : St ω} :
    execs I c (x :: ss) s = after I c ss (I.stmt c x s) := by
  unfold execs
  show M.bind _ _ s = _
  unfold M.bind after
  cases I.stmt c x s with
  | ok a t => rcases a with ⟨env, ctl⟩; cases ctl <;> rfl
  | _ => rfl

/-- A call: its parameters, the first statements, one more, and the rest. -/
theorem call_parts {P : Prog ω} {n : Nat} {p : Id} {f : Func} {vs : List Val} {s s1 s2 : St ω} {env env2 : Env} {r : R ω (Env × Ctl)}
    {x : Stmt} {rest : List Stmt} (k : Nat)
    (h1 : (params [] (f.recv.toList ++ f.params) vs >>= fun env => namedResults (interp P n) ⟨p, env⟩ env f.results)
      { s with base := s.mem.length, defers := [] } = .ok env s1)
    (h2 : execsEnv (interp P n) ⟨p, env⟩ (f.body.take k) s1 = .ok (env2, .next) s2)
    (h3 : f.body.drop k = x :: rest)
    (h4 : (interp P n).stmt ⟨p, env2⟩ x s2 = r) :
    (interp P (n + 1)).call p f vs s = finish P (interp P n) f env s (after (interp P n) ⟨p, env2⟩ rest r) := by
  have e : execs (interp P n) ⟨p, env⟩ f.body s1 = after (interp P n) ⟨p, env2⟩ rest r := by
    refine execs_split k h2 ?_
    rw [h3, execs_cons, h4]
  show framed (body P (interp P n) p f vs) s = _
  unfold finish framed
  have : body P (interp P n) p f vs { s with base := s.mem.length, defers := [] } =
      (onPanic (unwind P (interp P n)) ((fun _ => after (interp P n) ⟨p, env2⟩ rest r : M ω Ctl) >>= fun x => results f env x) >>=
        fun rs => unwind P (interp P n) >>= fun _ => pure rs) { s with base := s.mem.length, defers := [] } := by
    unfold body
    change M.bind _ _ _ = _ at h1
    show M.bind _ _ _ = _
    unfold M.bind at h1 ⊢
    cases e1 : (params [] (f.recv.toList ++ f.params) vs : M ω Env) { s with base := s.mem.length, defers := [] } with
    | ok a u =>
      rw [e1] at h1
      refine (M.bind_ok h1).trans ?_
      show M.bind _ _ _ = M.bind _ _ _
      unfold M.bind
      have : onPanic (unwind P (interp P n)) (execs (interp P n) ⟨p, env⟩ f.body >>= fun r => results f env r) s1 =
          onPanic (unwind P (interp P n)) ((fun _ => after (interp P n) ⟨p, env2⟩ rest r : M ω Ctl) >>= fun x => results f env x)
            { s with base := s.mem.length, defers := [] } := by
        unfold onPanic
        have : (execs (interp P n) ⟨p, env⟩ f.body >>= fun r => results f env r) s1 =
          ((fun _ => after (interp P n) ⟨p, env2⟩ rest r : M ω Ctl) >>= fun x => results f env x)
            { s with base := s.mem.length, defers := [] } := by
          show M.bind _ _ _ = M.bind _ _ _
          unfold M.bind
          rw [e]
        rw [this]
      erw [this]
    | panic u => rw [e1] at h1; cases h1
    | crash u => rw [e1] at h1; cases h1
    | stuck => rw [e1] at h1; cases h1
  rw [this]

/-! ### `range` -/

/-- The parts of a `range` loop. -/
def Stmt.rangeParts : Option Stmt → Option Id × Option Id × Expr × List Stmt
  | some (.range k v e b) => (k, v, e, b)
  | _ => (none, none, .id 0, [])

/-- One iteration. -/
def rangeStep (I : Interp ω) (c : Ctx) (b : List Stmt) (o : RangeOver) (k v : Option Loc) (i : Nat) : M ω Ctl :=
  setVar k (return .int .int i) >>= fun _ => setVar v (o.elem i) >>= fun _ => block I c b

theorem rangeStep_comm {I : Interp ω} {E : Emb} (vl : E.Valid) (hI : E.IComm I) {c : Ctx} {b : List Stmt} {o : RangeOver} {k v : Option Loc} {i : Nat}
    (hc : E.renC c = c) (ho : E.renR o = o) (hk : k.map E.ren = k) (hv : v.map E.ren = v) :
    E.Comm E.renCtl (rangeStep I c b o k v i) (rangeStep I c b o k v i) := by
  have : E.Comm E.renCtl (rangeStep I c b o k v i) (rangeStep I (E.renC c) b (E.renR o) (k.map E.ren) (v.map E.ren) i) := by
    unfold rangeStep
    exact Emb.Comm.bind (Emb.comm_setVar vl _ (Emb.Comm.pure' (by rw [Emb.renV]))) fun _ =>
      Emb.Comm.bind (Emb.comm_setVar vl _ (Emb.comm_elem vl _ _)) fun _ => Emb.comm_block hI _ _
  rw [hc, ho, hk, hv] at this
  exact this

/-- How the rest of a loop ends, given how an iteration ends. -/
def afterStep (I : Interp ω) (c : Ctx) (b : List Stmt) (o : RangeOver) (k v : Option Loc) (n i : Nat) : R ω Ctl → R ω Ctl
  | .ok .brk t => .ok .next t
  | .ok (.ret vs) t => .ok (.ret vs) t
  | .ok .next t => rangeLoop I c b o k v n i t
  | .ok .cont t => rangeLoop I c b o k v n i t
  | .panic t => .panic t
  | .crash t => .crash t
  | .stuck => .stuck

theorem range_succ {I : Interp ω} {c : Ctx} {b : List Stmt} {o : RangeOver} {k v : Option Loc} {n i : Nat} {s : St ω} :
    rangeLoop I c b o k v (n + 1) i s = afterStep I c b o k v n (i + 1) (rangeStep I c b o k v i s) := by
  unfold rangeLoop rangeStep
  show M.bind _ _ s = afterStep _ _ _ _ _ _ _ _ (M.bind _ _ s)
  unfold M.bind
  cases setVar k (return .int .int i) s with
  | ok u t =>
    simp only
    show M.bind _ _ t = afterStep _ _ _ _ _ _ _ _ (M.bind _ _ t)
    unfold M.bind
    cases setVar v (o.elem i) t with
    | ok u' t' =>
      simp only
      show M.bind _ _ t' = _
      unfold M.bind afterStep
      cases block I c b t' with
      | ok ctl t'' => cases ctl <;> rfl
      | _ => rfl
    | _ => rfl
  | _ => rfl

/-- How a statement ends, given how its loop ends. -/
def endLoop (env : Env) : R ω Ctl → R ω (Env × Ctl)
  | .ok r t => .ok (env, r) t
  | .panic t => .panic t
  | .crash t => .crash t
  | .stuck => .stuck

/-- The start of a `range` loop. -/
def rangeStart (I : Interp ω) (c : Ctx) (k v : Option Id) (e : Expr) : M ω (RangeOver × Env × Option Loc × Option Loc) :=
  rangeOver I c e >>= fun o => rangeVar c.env.enter k >>= fun a => rangeVar a.1 v >>= fun b => pure (o, b.1, a.2, b.2)

theorem stmt_range {P : Prog ω} {n : Nat} {c : Ctx} {k v : Option Id} {e : Expr} {b : List Stmt} {s t : St ω}
    {o : RangeOver} {env : Env} {lk lv : Option Loc} {r : R ω Ctl}
    (h : rangeStart (interp P n) c k v e s = .ok (o, env, lk, lv) t)
    (h' : rangeLoop (interp P n) { c with env := env } b o lk lv o.size 0 t = r) :
    (interp P (n + 1)).stmt c (.range k v e b) s = endLoop c.env r := by
  unfold rangeStart at h
  change M.bind _ _ s = _ at h
  unfold M.bind at h
  cases e1 : rangeOver (interp P n) c e s with
  | ok o1 s1 =>
    rw [e1] at h
    change M.bind _ _ s1 = _ at h
    unfold M.bind at h
    cases e2 : (rangeVar c.env.enter k : M ω _) s1 with
    | ok a s2 =>
      rw [e2] at h
      change M.bind _ _ s2 = _ at h
      unfold M.bind at h
      cases e3 : (rangeVar a.1 v : M ω _) s2 with
      | ok b' s3 =>
        rw [e3] at h
        cases h
        refine (M.bind_ok e1).trans ((M.bind_ok e2).trans ((M.bind_ok e3).trans ?_))
        show M.bind _ _ _ = _
        unfold M.bind
        erw [h']
        cases r <;> rfl
      | panic u => rw [e3] at h; cases h
      | crash u => rw [e3] at h; cases h
      | stuck => rw [e3] at h; cases h
    | panic u => rw [e2] at h; cases h
    | crash u => rw [e2] at h; cases h
    | stuck => rw [e2] at h; cases h
  | panic u => rw [e1] at h; cases h
  | crash u => rw [e1] at h; cases h
  | stuck => rw [e1] at h; cases h

def Stmt.isRange : Option Stmt → Bool
  | some (.range _ _ _ _) => true
  | _ => false

/-- A call with a `range` loop after the first `k` statements. -/
theorem call_range {P : Prog ω} {n : Nat} {p : Id} {f : Func} {vs : List Val} {s s1 s2 t : St ω} {env env2 env3 : Env}
    {o : RangeOver} {lk lv : Option Loc} {r : R ω Ctl} (k : Nat)
    (h1 : (params [] (f.recv.toList ++ f.params) vs >>= fun env => namedResults (interp P (n + 1)) ⟨p, env⟩ env f.results)
      { s with base := s.mem.length, defers := [] } = .ok env s1)
    (h2 : execsEnv (interp P (n + 1)) ⟨p, env⟩ (f.body.take k) s1 = .ok (env2, .next) s2)
    (h3 : Stmt.isRange f.body[k]? = true)
    (h4 : rangeStart (interp P n) ⟨p, env2⟩ (Stmt.rangeParts f.body[k]?).1 (Stmt.rangeParts f.body[k]?).2.1
      (Stmt.rangeParts f.body[k]?).2.2.1 s2 = .ok (o, env3, lk, lv) t)
    (h5 : rangeLoop (interp P n) ⟨p, env3⟩ (Stmt.rangeParts f.body[k]?).2.2.2 o lk lv o.size 0 t = r) :
    (interp P (n + 2)).call p f vs s =
      finish P (interp P (n + 1)) f env s (after (interp P (n + 1)) ⟨p, env2⟩ (f.body.drop (k + 1)) (endLoop env2 r)) := by
  rcases hb : f.body[k]? with _ | x
  · rw [hb] at h3; cases h3
  · rw [hb] at h3 h4 h5
    cases x with
    | range a b e ss =>
      refine call_parts k h1 h2 ?_ (stmt_range h4 h5)
      obtain ⟨hk, e⟩ := List.getElem?_eq_some_iff.1 hb
      rw [List.drop_eq_getElem_cons hk, e]; rfl
    | _ => cases h3

/-! ### Iterations on more memory -/

/-- A name bound to something in the first `k` blocks. -/
def Bind.below (k : Nat) : Bind → Bool
  | .var l => decide (l.blk < k)
  | .val v => !v.refers k
  | .hidden => true

theorem Emb.renB_below {E : Emb} {k : Nat} (hE : E.win = firstBlocks k) {b : Bind} (h : b.below k = true) : E.renB b = b := by
  cases b with
  | var l => simp only [Bind.below, decide_eq_true_eq] at h; rw [Emb.renB, Emb.ren_below hE h]
  | val v => simp only [Bind.below, Bool.not_eq_true'] at h; rw [Emb.renB, Emb.renV_below hE v h]
  | hidden => rfl

theorem Emb.renEnv_below {E : Emb} {k : Nat} (hE : E.win = firstBlocks k) {e : Env} (h : (e.all fun b => b.2.below k) = true) :
    E.renEnv e = e := by
  induction e with
  | nil => rfl
  | cons b e ih =>
    rw [List.all_cons, Bool.and_eq_true] at h
    obtain ⟨x, b⟩ := b
    rw [Emb.renEnv, Emb.renB_below hE h.1, ih h.2]

theorem Emb.renC_below {E : Emb} {k : Nat} (hE : E.win = firstBlocks k) {c : Ctx} (h : (c.env.all fun b => b.2.below k) = true) :
    E.renC c = c := by
  unfold Emb.renC
  rw [Emb.renEnv_below hE h]

def RangeOver.below (k : Nat) : RangeOver → Bool
  | .vals vs => !Val.anyRefers k vs
  | .place l _ _ => decide (l.blk < k)

theorem Emb.renR_below {E : Emb} {k : Nat} (hE : E.win = firstBlocks k) {o : RangeOver} (h : o.below k = true) : E.renR o = o := by
  cases o with
  | vals vs => simp only [RangeOver.below, Bool.not_eq_true'] at h; rw [Emb.renR, Emb.renVs_below hE vs h]
  | place l _ _ => simp only [RangeOver.below, decide_eq_true_eq] at h; rw [Emb.renR, Emb.ren_below hE h]

theorem Emb.renO_below {E : Emb} {k : Nat} (hE : E.win = firstBlocks k) {o : Option Loc} (h : (o.all fun l => decide (l.blk < k)) = true) :
    o.map E.ren = o := by
  cases o with
  | none => rfl
  | some l => simp only [Option.all_some, decide_eq_true_eq] at h; rw [Option.map_some, Emb.ren_below hE h]

theorem repo_comm (S : Sys ω) {F g : List Val} (h : 2 ≤ F.length) (n : Nat) :
    (⟨F ++ g, firstBlocks F.length⟩ : Emb).IComm (interp (repo S) n) := by
  refine Emb.comm_interp (Emb.valid_first F g) ((repo_bare S).closed (Emb.valid_first F g) fun p x b hb => ?_) n
  rcases global_cases S hb with ⟨v, rfl, hv⟩ | rfl | rfl
  · rw [Emb.renB, Emb.renV_plain _ v hv]
  · rw [Emb.renB, Emb.ren_below (k := F.length) rfl (by show 0 < _; omega)]
  · rw [Emb.renB, Emb.ren_below (k := F.length) rfl (by show 1 < _; omega)]

/-- What a computation on more memory does, given how it ends without. -/
def Grown {α : Type} (x : M ω α) (r : α → α) (F g : List Val) (b : Nat) (w : ω) (o : R ω α) : Prop :=
  match o with
  | .ok a t => ∀ F' new, t.mem = F' ++ new → F'.length = F.length → Val.anyRefers F.length F' = false → t.defers = [] →
    ∃ g', x ⟨F ++ g, b, [], w⟩ = .ok (r a) ⟨F' ++ g', b, [], t.world⟩
  | .panic t => ∃ t', x ⟨F ++ g, b, [], w⟩ = .panic t' ∧ t'.world = t.world ∧ (t.defers = [] → t'.defers = [])
  | .crash t => ∃ t', x ⟨F ++ g, b, [], w⟩ = .crash t' ∧ t'.world = t.world
  | .stuck => True

theorem grown {α : Type} {x : M ω α} {r : α → α} {F g : List Val} {b : Nat} {w : ω}
    (hx : (⟨F ++ g, firstBlocks F.length⟩ : Emb).Comm r x x) (pl : Val.anyRefers F.length F = false) (hb : b < F.length) :
    Grown x r F g b w (x ⟨F, b, [], w⟩) := grow hx pl hb

/-- An iteration, on more memory. -/
theorem step_grow (S : Sys ω) {n : Nat} {c : Ctx} {b : List Stmt} {o : RangeOver} {k v : Option Loc} {i : Nat}
    {F g : List Val} {base : Nat} {w : ω} (len : 2 ≤ F.length) (hb : base < F.length) (pl : Val.anyRefers F.length F = false)
    (hc : (c.env.all fun b => b.2.below F.length) = true) (ho : o.below F.length = true)
    (hk : (k.all fun l => decide (l.blk < F.length)) = true) (hv : (v.all fun l => decide (l.blk < F.length)) = true) :
    Grown (rangeStep (interp (repo S) n) c b o k v i) (⟨F ++ g, firstBlocks F.length⟩ : Emb).renCtl F g base w
      (rangeStep (interp (repo S) n) c b o k v i ⟨F, base, [], w⟩) :=
  grown (rangeStep_comm (Emb.valid_first F g) (repo_comm S len n) (Emb.renC_below rfl hc) (Emb.renR_below rfl ho)
    (Emb.renO_below rfl hk) (Emb.renO_below rfl hv)) pl hb

/-! ### `for` -/

/-- How the rest of a loop without condition ends, given how an iteration ends. -/
def afterIter (I : Interp ω) (c : Ctx) (b : List Stmt) : R ω Ctl → R ω Ctl
  | .ok .brk t => .ok .next t
  | .ok (.ret vs) t => .ok (.ret vs) t
  | .ok .next t => I.iter c none none b t
  | .ok .cont t => I.iter c none none b t
  | .panic t => .panic t
  | .crash t => .crash t
  | .stuck => .stuck

theorem iter_eq {P : Prog ω} {n : Nat} {c : Ctx} {b : List Stmt} {s : St ω} :
    (interp P (n + 1)).iter c none none b s = afterIter (interp P n) c b (block (interp P n) c b s) := by
  show nextIter (interp P n) c none none b s = _
  unfold nextIter
  have h1 : condOpt (interp P n) c none s = .ok true s := rfl
  rw [M.bind_ok h1]
  simp only [if_true]
  show M.bind _ _ s = _
  unfold M.bind afterIter
  cases block (interp P n) c b s with
  | ok ctl t => cases ctl <;> rfl
  | _ => rfl

theorem block_grow (S : Sys ω) {n : Nat} {c : Ctx} {b : List Stmt} {F g : List Val} {base : Nat} {w : ω} (len : 2 ≤ F.length)
    (hb : base < F.length) (pl : Val.anyRefers F.length F = false) (hc : (c.env.all fun b => b.2.below F.length) = true) :
    Grown (block (interp (repo S) n) c b) (⟨F ++ g, firstBlocks F.length⟩ : Emb).renCtl F g base w
      (block (interp (repo S) n) c b ⟨F, base, [], w⟩) := by
  refine grown ?_ pl hb
  have := Emb.comm_block (repo_comm S (g := g) len n) c b
  rwa [Emb.renC_below rfl hc] at this

theorem block_more {P : Prog ω} {n m : Nat} {c : Ctx} {b : List Stmt} {s : St ω} {r : R ω Ctl} (h : n ≤ m)
    (e : block (interp P n) c b s = r) (hr : r ≠ .stuck) : block (interp P m) c b s = r := by
  rcases block_mono (interp_mono (Prog.Le.refl P) h) c b s with h | h
  · rw [e] at h; exact absurd h hr
  · rw [h, e]

/-- A call with a loop without condition after the first `k` statements. -/
theorem call_for {P : Prog ω} {n : Nat} {p : Id} {f : Func} {vs : List Val} {s s1 s2 : St ω} {env env2 : Env}
    {b : List Stmt} {r : R ω Ctl} (k : Nat)
    (h1 : (params [] (f.recv.toList ++ f.params) vs >>= fun env => namedResults (interp P (n + 1)) ⟨p, env⟩ env f.results)
      { s with base := s.mem.length, defers := [] } = .ok env s1)
    (h2 : execsEnv (interp P (n + 1)) ⟨p, env⟩ (f.body.take k) s1 = .ok (env2, .next) s2)
    (h3 : f.body.drop k = .loop none none none b :: f.body.drop (k + 1))
    (h5 : (interp P n).iter ⟨p, env2.enter⟩ none none b s2 = r) :
    (interp P (n + 2)).call p f vs s =
      finish P (interp P (n + 1)) f env s (after (interp P (n + 1)) ⟨p, env2⟩ (f.body.drop (k + 1)) (endLoop env2 r)) := by
  refine call_parts k h1 h2 h3 ?_
  refine (M.bind_ok (a := (⟨p, env2.enter⟩ : Ctx)) (t := s2) rfl).trans ?_
  show M.bind _ _ _ = _
  unfold M.bind
  rw [h5]
  cases r <;> rfl

end Verif.Src
