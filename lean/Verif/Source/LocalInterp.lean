/-
The interpreter is local (see `Verif.Source.Local`).
-/
import Verif.Source.Local

namespace Verif.Src.Emb

open M (stuck panic the check)

variable {E : Emb} {ω : Type}

/-- The variables of packages are where they are in the large memory, and the libraries are local. -/
structure Closed (E : Emb) (P : Prog ω) : Prop where
  glob : ∀ p x b, P.global p x = some b → E.renB b = b
  value : ∀ p x v, P.ext.value p x = some v → E.renV v = v
  zero : ∀ p x v, P.ext.zero p x = some v → E.renV v = v
  func : ∀ p x vs, E.Comm E.renVs (P.ext.func p x vs) (P.ext.func p x (E.renVs vs))
  method : ∀ r m vs, E.Comm E.renVs (P.ext.method r m vs) (P.ext.method (E.renV r) m (E.renVs vs))

/-- An interpreter is local. -/
structure IComm (E : Emb) (I : Interp ω) : Prop where
  expr : ∀ c e, E.Comm E.renV (I.expr c e) (I.expr (E.renC c) e)
  loc : ∀ c e, E.Comm E.ren (I.loc c e) (I.loc (E.renC c) e)
  multi : ∀ c e, E.Comm E.renVs (I.multi c e) (I.multi (E.renC c) e)
  stmt : ∀ c s, E.Comm (fun r => (E.renEnv r.1, E.renCtl r.2)) (I.stmt c s) (I.stmt (E.renC c) s)
  iter : ∀ c e p b, E.Comm E.renCtl (I.iter c e p b) (I.iter (E.renC c) e p b)
  call : ∀ p f vs, E.Comm E.renVs (I.call p f vs) (I.call p f (E.renVs vs))
  zero : ∀ c t, E.Comm E.renV (I.zero c t) (I.zero (E.renC c) t)
  comp : ∀ c t es, E.Comm E.renV (I.comp c t es) (I.comp (E.renC c) t es)

section
variable (v : E.Valid) {P : Prog ω} (h : E.Closed P) {I : Interp ω} (i : E.IComm I)

theorem comm_pkg (c : Ctx) : E.Comm id (P.pkg c) (P.pkg (E.renC c)) := Comm.the fun _ h => h

include h in
theorem find_ren (c : Ctx) (x : Id) : P.find (E.renC c) x = (P.find c x).map E.renB := by
  unfold Prog.find
  show (match (E.renEnv c.env).lookup x with | some b => some b | none => P.global c.pkg x) = _
  rw [renEnv_lookup]
  cases c.env.lookup x with
  | some b => rfl
  | none =>
    simp only [Option.map_none]
    cases e : P.global c.pkg x with
    | none => rfl
    | some b => simp only [Option.map_some, h.glob _ _ _ e]

include i in
theorem comm_evals (c : Ctx) (es : List Expr) : E.Comm E.renVs (evals I c es) (evals I (E.renC c) es) := by
  induction es with
  | nil => exact Comm.pure _ []
  | cons e es ih =>
    unfold evals
    exact Comm.bind (i.expr _ _) fun _ => Comm.bind ih fun _ => Comm.pure' (by rw [renVs])

include v h i in
theorem comm_nextLoc (c : Ctx) (e : Expr) : E.Comm E.ren (nextLoc P I c e) (nextLoc P I (E.renC c) e) := by
  unfold nextLoc
  split
  · rw [find_ren h]
    cases P.find c _ with
    | none => exact Comm.stuck _ _
    | some b =>
      cases b with
      | var l => exact Comm.pure _ _
      | _ => exact Comm.stuck _ _
  · refine Comm.bind (i.expr _ _) fun u => ?_
    cases u <;> simp only [renV] <;> first | exact Comm.stuck _ _ | exact Comm.panic _ | exact Comm.pure _ _
  · refine Comm.bind (i.expr _ _) fun u => ?_
    cases u <;> simp only [renV] <;> first | exact Comm.stuck _ _ | exact Comm.panic _ | skip
    · exact Comm.bind (i.loc _ _) fun l => Comm.pure' (by rw [ren_path])
    · exact Comm.pure' (by rw [ren_path])
  · refine Comm.bind (i.expr _ _) fun u => ?_
    cases u <;> simp only [renV] <;> first | exact Comm.stuck _ _ | exact Comm.panic _ | skip
    · refine Comm.bind (i.loc _ _) fun l => Comm.bind (i.expr _ _) fun j => ?_
      rw [renVs_length]
      exact Comm.bind (comm_index _ _) fun _ => Comm.pure' (by rw [ren_path]; rfl)
    · refine Comm.bind (comm_load v _) fun u => Comm.bind (comm_arrLen _) fun n => Comm.bind (i.expr _ _) fun j => ?_
      exact Comm.bind (comm_index _ _) fun _ => Comm.pure' (by rw [ren_path]; rfl)
    · refine Comm.bind (i.expr _ _) fun j => ?_
      exact Comm.bind (comm_index _ _) fun _ => Comm.pure' (by rw [ren_path]; rfl)
  · exact Comm.stuck _ _

include i in
theorem comm_bound (c : Ctx) (e : Option Expr) : E.Comm id (bound I c e) (bound I (E.renC c) e) := by
  unfold bound
  split
  · exact Comm.pure id _
  · refine Comm.bind (i.expr _ _) fun u => ?_
    cases u <;> simp only [renV] <;> first | exact Comm.stuck _ _ | exact Comm.pure id _

include v i in
theorem comm_sliceOf (c : Ctx) (e : Expr) (u : Val) (lo hi : Option Int) :
    E.Comm E.renV (sliceOf I c e u lo hi) (sliceOf I (E.renC c) e (E.renV u) lo hi) := by
  unfold sliceOf
  cases u <;> simp only [renV] <;> first | exact Comm.stuck _ _ | exact comm_cut _ _ _ _ _ _ | skip
  · exact Comm.bind (Comm.check _) fun _ => Comm.pure' (by rw [renV])
  · refine Comm.bind (i.loc _ _) fun l => ?_
    rw [renVs_length]
    exact comm_cut _ _ _ _ _ _
  · exact Comm.bind (comm_load v _) fun u => Comm.bind (comm_arrLen _) fun n => comm_cut _ _ _ _ _ _

include i in
theorem comm_zeroFields (c : Ctx) (fs : List (Id × Ty)) :
    E.Comm E.renFs (zeroFields I c fs) (zeroFields I (E.renC c) fs) := by
  induction fs with
  | nil => exact Comm.pure _ []
  | cons e es ih =>
    unfold zeroFields
    exact Comm.bind (i.zero _ _) fun _ => Comm.bind ih fun _ => Comm.pure' (by rw [renFs])

include h i in
theorem comm_nextZero (c : Ctx) (t : Ty) : E.Comm E.renV (nextZero P I c t) (nextZero P I (E.renC c) t) := by
  unfold nextZero
  split
  · split
    · exact Comm.pure' (by rw [renV])
    · split
      · exact Comm.pure' (by rw [renV])
      · split
        · exact Comm.pure' (by rw [renV])
        · split
          · exact Comm.pure' (by rw [renV])
          · refine Comm.bind (comm_pkg c) fun k => ?_
            show E.Comm _ (match k.types.lookup _ with | some (.struct fs) => _ | some t => _ | none => _)
              (match k.types.lookup _ with | some (.struct fs) => _ | some t => _ | none => _)
            split
            · exact Comm.bind (comm_zeroFields i _ _) fun _ => Comm.pure' (by rw [renV])
            · exact i.zero _ _
            · exact Comm.stuck _ _
  · split
    · exact i.zero ⟨_, []⟩ _
    · exact Comm.the fun x e => by rw [e, h.zero _ _ _ e]
  · refine Comm.bind (i.expr _ _) fun u => ?_
    cases u <;> simp only [renV] <;> first | exact Comm.stuck _ _ | skip
    exact Comm.bind (i.zero _ _) fun _ => Comm.pure' (by rw [renV, renVs_replicate])
  · exact Comm.bind (comm_zeroFields i _ _) fun _ => Comm.pure' (by rw [renV])
  · exact Comm.pure' (by rw [renV])
  · exact Comm.pure' (by rw [renV])
  · exact Comm.pure' (by rw [renV])

include i in
theorem comm_element (c : Ctx) (t : Ty) (e : Expr) : E.Comm E.renV (element I c t e) (element I (E.renC c) t e) := by
  unfold element
  split
  · exact i.comp _ _ _
  · exact i.expr _ _

include i in
theorem comm_elements (c : Ctx) (t : Ty) (z : Val) (es : List (Option Expr × Expr)) :
    E.Comm E.renVs (elements I c t z es) (elements I (E.renC c) t (E.renV z) es) := by
  induction es with
  | nil => exact Comm.pure _ []
  | cons e es ih =>
    unfold elements
    exact Comm.bind (comm_element i _ _ _) fun _ => Comm.bind ih fun _ => Comm.pure' (by rw [renVs, renV_fit])

include i in
theorem comm_fields (c : Ctx) (ts : List (Id × Ty)) (es : List (Option Expr × Expr)) (vs : List (Id × Val)) :
    E.Comm E.renFs (fields I c ts es vs) (fields I (E.renC c) ts es (E.renFs vs)) := by
  have key : ∀ (f : Id) (u : Val) (vs : List (Id × Val)),
      setField f ((((E.renFs vs).lookup f).getD .nil).fit (E.renV u)) (E.renFs vs) =
        E.renFs (setField f (((vs.lookup f).getD .nil).fit u) vs) := by
    intro f u vs
    rw [renFs_setField, renV_fit, renFs_lookup]
    congr 2
    cases vs.lookup f <;> rfl
  induction es generalizing ts vs with
  | nil => unfold fields; exact Comm.pure _ _
  | cons e es ih =>
    obtain ⟨k, e⟩ := e
    cases k with
    | none =>
      cases ts with
      | nil => unfold fields; exact Comm.stuck _ _
      | cons t ts =>
        unfold fields
        refine Comm.bind (comm_element i _ _ _) fun u => ?_
        rw [key]
        exact ih _ _
    | some k =>
      cases k with
      | id f =>
        unfold fields
        refine Comm.bind (comm_element i _ _ _) fun u => ?_
        rw [key]
        exact ih _ _
      | _ => unfold fields; exact Comm.stuck _ _

include h i in
theorem comm_nextComp (c : Ctx) (t : Ty) (es : List (Option Expr × Expr)) :
    E.Comm E.renV (nextComp P I c t es) (nextComp P I (E.renC c) t es) := by
  unfold nextComp
  split
  · refine Comm.bind (i.zero _ _) fun z => Comm.bind (comm_elements i _ _ _ _) fun vs => Comm.bind (i.expr _ _) fun u => ?_
    cases u <;> simp only [renV] <;> first | exact Comm.stuck _ _ | skip
    exact Comm.pure' (by rw [renV, renVs_append, renVs_replicate, renVs_length])
  · refine Comm.bind (i.zero _ _) fun z => Comm.bind (comm_elements i _ _ _ _) fun vs => ?_
    rw [renVs_length]
    exact comm_newSlice _ _
  · show E.Comm _ (match structOf P c _ with | some (_, ts) => _ | none => _)
      (match structOf P c _ with | some (_, ts) => _ | none => _)
    split
    · refine Comm.bind (i.zero _ _) fun z => ?_
      cases z <;> simp only [renV] <;> first | exact Comm.stuck _ _ | skip
      exact Comm.bind (comm_fields i _ _ _ _) fun _ => Comm.pure' (by rw [renV])
    · split
      · refine Comm.bind (comm_pkg c) fun k => ?_
        show E.Comm _ (match k.types.lookup _ with | some u => _ | none => _)
          (match k.types.lookup _ with | some u => _ | none => _)
        split
        · exact i.comp _ _ _
        · exact Comm.stuck _ _
      · split
        · split
          · exact i.comp ⟨_, []⟩ _ _
          · exact Comm.stuck _ _
        · exact Comm.the fun x e => by rw [e, h.zero _ _ _ e]
      · exact Comm.stuck _ _

include v h i in
theorem comm_nextExpr (c : Ctx) (e : Expr) : E.Comm E.renV (nextExpr P I c e) (nextExpr P I (E.renC c) e) := by
  have ld : ∀ e, E.Comm E.renV (I.loc c e >>= load) (I.loc (E.renC c) e >>= load) :=
    fun e => Comm.bind (i.loc _ _) fun l => comm_load v _
  unfold nextExpr
  split
  · exact Comm.pure' (by rw [renV])
  · exact Comm.pure' (by rw [renV])
  · rw [find_ren h]
    cases P.find c _ with
    | some b =>
      cases b with
      | var l => exact comm_load v _
      | val u => exact Comm.pure _ _
      | hidden => exact Comm.stuck _ _
    | none =>
      simp only [Option.map_none]
      split
      · exact Comm.pure' (by rw [renV])
      · split
        · exact Comm.pure' (by rw [renV])
        · split
          · exact Comm.pure' (by rw [renV])
          · show E.Comm _ (match P.pkgs.lookup c.pkg with | some k => _ | none => _)
              (match P.pkgs.lookup c.pkg with | some k => _ | none => _)
            split
            · split
              · exact Comm.pure' (by rw [renV]; rfl)
              · exact Comm.stuck _ _
            · exact Comm.stuck _ _
  · rw [find_ren h]
    cases P.find c _ with
    | some b =>
      cases b with
      | hidden => exact Comm.stuck _ _
      | _ => exact ld _
    | none =>
      simp only [Option.map_none]
      split
      · next l e => 
        have := h.glob _ _ _ e
        simp only [renB, Bind.var.injEq] at this
        conv => rhs; rw [← this]
        exact comm_load v _
      · next u e =>
        have := h.glob _ _ _ e
        simp only [renB, Bind.val.injEq] at this
        exact Comm.pure' this.symm
      · exact Comm.stuck _ _
      · exact Comm.the fun x e => by rw [e, h.value _ _ _ e]
  · exact ld _
  · exact ld _
  · exact ld _
  · exact Comm.bind (i.comp _ _ _) fun u => Comm.bind (comm_alloc _) fun l => Comm.pure' (by rw [renV])
  · exact Comm.bind (i.loc _ _) fun l => Comm.pure' (by rw [renV])
  · refine Comm.bind (i.expr _ _) fun u => Comm.bind (comm_bound i _ _) fun lo => Comm.bind (comm_bound i _ _) fun hi => ?_
    exact comm_sliceOf v i _ _ _ _ _
  · refine Comm.bind (i.expr _ _) fun u => ?_
    cases u <;> simp only [renV] <;> first | exact Comm.stuck _ _ | skip
    split
    · exact i.expr _ _
    · exact Comm.pure' (by rw [renV])
    · exact Comm.stuck _ _
  · refine Comm.bind (i.expr _ _) fun u => ?_
    cases u <;> simp only [renV] <;> first | exact Comm.stuck _ _ | skip
    split
    · exact Comm.pure' (by rw [renV])
    · exact i.expr _ _
    · exact Comm.stuck _ _
  · exact Comm.bind (i.expr _ _) fun u => Comm.bind (i.expr _ _) fun w => comm_binOp _ _ _
  · exact Comm.bind (i.expr _ _) fun u => comm_unOp _ _
  · exact i.comp _ _ _
  · exact Comm.pure' (by rw [renV]; rfl)
  · refine Comm.bind (i.expr _ _) fun u => ?_
    cases u <;> simp only [renV] <;> first | exact Comm.pure' (by simp only [renV]) | skip
    have : E.renVs (byteVals ‹_›) = byteVals ‹_› := by
      rw [renVs_eq, byteVals, List.map_map]
      rfl
    conv => rhs; rw [← this]
    exact comm_newSlice _ _
  · exact Comm.bind (i.multi _ _) fun u => comm_single _
  · exact Comm.stuck _ _

include i in
theorem comm_builtin (w : E.Valid) (c : Ctx) (x : Id) (as : List Expr) : E.Comm E.renVs (builtin I c x as) (builtin I (E.renC c) x as) := by
  unfold builtin
  split
  · split
    · exact Comm.bind (i.zero _ _) fun z => Comm.bind (comm_evals i _ _) fun vs => comm_makeVal _ _
    · exact Comm.stuck _ _
  · exact Comm.bind (comm_evals i _ _) fun vs => comm_builtinVal w _ _

include i in
theorem comm_receiver (c : Ctx) (e : Expr) : E.Comm E.renV (receiver I c e) (receiver I (E.renC c) e) := by
  unfold receiver
  refine Comm.bind (i.expr _ _) fun u => ?_
  cases u <;> simp only [renV] <;> first | exact Comm.pure' (by simp only [renV]) | skip
  exact Comm.bind (i.loc _ _) fun l => Comm.pure' (by rw [renV])

include v h i in
theorem comm_callMethod (r : Val) (m : Id) (vs : List Val) :
    E.Comm E.renVs (callMethod P I r m vs) (callMethod P I (E.renV r) m (E.renVs vs)) := by
  have ex := h.method r m vs
  unfold callMethod
  cases r <;> simp only [renV] at ex ⊢ <;> first | exact ex | exact Comm.panic _ | skip
  next l =>
  refine Comm.bind (comm_load v _) fun u => ?_
  cases u <;> simp only [renV] <;> first | exact ex | skip
  split
  · next p f _ =>
    have := i.call p f (.ptr l :: vs)
    rw [renVs, renV] at this
    exact this
  · exact ex

include v h i in
theorem comm_nextMulti (c : Ctx) (e : Expr) : E.Comm E.renVs (nextMulti P I c e) (nextMulti P I (E.renC c) e) := by
  have fv : ∀ (l : Loc) (args : List Expr),
      E.Comm E.renVs (load l >>= fun u => match u with
          | .func p f => evals I c args >>= I.call p f
          | _ => stuck)
        (load (E.ren l) >>= fun u => match u with
          | .func p f => evals I (E.renC c) args >>= I.call p f
          | _ => stuck) := by
    intro l args
    refine Comm.bind (comm_load v _) fun u => ?_
    cases u <;> simp only [renV] <;> first | exact Comm.stuck _ _ | skip
    exact Comm.bind (comm_evals i _ _) fun vs => i.call _ _ _
  unfold nextMulti
  split
  · rw [find_ren h]
    cases P.find c _ with
    | some b =>
      cases b with
      | var l => exact fv l _
      | _ => exact Comm.stuck _ _
    | none =>
      simp only [Option.map_none]
      split
      · exact comm_builtin i v _ _ _
      · split
        · split
          · exact Comm.bind (i.expr _ _) fun u => Comm.bind (comm_convNamed v _ _) fun w => Comm.pure' (by simp only [renVs])
          · exact Comm.stuck _ _
        · refine Comm.bind (comm_pkg c) fun k => Comm.bind (r := id) (Comm.the fun _ h => h) fun f => ?_
          exact Comm.bind (comm_evals i _ _) fun vs => i.call _ _ _
  · rw [find_ren h]
    cases P.find c _ with
    | some b =>
      cases b with
      | hidden => exact Comm.stuck _ _
      | _ => exact Comm.bind (comm_receiver i _ _) fun r => Comm.bind (comm_evals i _ _) fun vs => comm_callMethod v h i _ _ _
    | none =>
      simp only [Option.map_none]
      split
      · next k e =>
        split
        · exact Comm.bind (comm_evals i _ _) fun vs => i.call _ _ _
        · split
          · next l e' =>
            have : E.renB (.var l) = .var l := h.glob _ _ _ e'
            simp only [renB, Bind.var.injEq] at this
            conv => rhs; rw [← this]
            exact fv l _
          · exact Comm.stuck _ _
      · exact Comm.bind (comm_evals i _ _) fun vs => h.func _ _ _
  · exact Comm.bind (comm_receiver i _ _) fun r => Comm.bind (comm_evals i _ _) fun vs => comm_callMethod v h i _ _ _
  · exact Comm.bind (i.expr _ _) fun u => Comm.pure' (by simp only [renVs])

include i in
theorem comm_execs (c : Ctx) (ss : List Stmt) : E.Comm E.renCtl (execs I c ss) (execs I (E.renC c) ss) := by
  induction ss generalizing c with
  | nil => exact Comm.pure' rfl
  | cons s ss ih =>
    unfold execs
    refine Comm.bind (i.stmt _ _) fun r => ?_
    obtain ⟨env, r⟩ := r
    cases r <;> simp only [renCtl]
    · exact ih ⟨c.pkg, env⟩
    · exact Comm.pure' rfl
    · exact Comm.pure' rfl
    · exact Comm.pure' rfl

include i in
theorem comm_rhs (c : Ctx) (n : Nat) (es : List Expr) : E.Comm E.renVs (rhs I c n es) (rhs I (E.renC c) n es) := by
  unfold rhs
  split
  · split
    · exact Comm.bind (i.expr _ _) fun u => Comm.pure' (by simp only [renVs])
    · exact i.multi _ _
  · exact comm_evals i _ _

theorem comm_declare (env : Env) (xs : List Id) (vs : List Val) :
    E.Comm (ω := ω) E.renEnv (declare env xs vs) (declare (E.renEnv env) xs (E.renVs vs)) := by
  induction xs generalizing env vs with
  | nil =>
    cases vs with
    | nil => unfold declare; exact Comm.pure _ _
    | cons u vs => unfold declare; exact Comm.stuck _ _
  | cons x xs ih =>
    cases vs with
    | nil => unfold declare; exact Comm.stuck _ _
    | cons u vs =>
      unfold declare
      rw [renVs]
      simp only
      split
      · exact ih _ _
      · exact Comm.bind (comm_alloc _) fun l => ih ((x, .var l) :: env) _

include v in
theorem comm_define (scope env : Env) (xs : List Id) (vs : List Val) :
    E.Comm (ω := ω) E.renEnv (define scope env xs vs) (define (E.renEnv scope) (E.renEnv env) xs (E.renVs vs)) := by
  induction xs generalizing env vs with
  | nil =>
    cases vs with
    | nil => unfold define; exact Comm.pure _ _
    | cons u vs => unfold define; exact Comm.stuck _ _
  | cons x xs ih =>
    cases vs with
    | nil => unfold define; exact Comm.stuck _ _
    | cons u vs =>
      unfold define
      rw [renVs]
      simp only
      split
      · exact ih _ _
      · rw [renEnv_lookup]
        have new : E.Comm (ω := ω) E.renEnv (alloc u.default >>= fun l => define scope ((x, .var l) :: env) xs vs)
            (alloc (E.renV u).default >>= fun l => define (E.renEnv scope) ((x, .var l) :: E.renEnv env) xs (E.renVs vs)) := by
          rw [← renV_default]
          exact Comm.bind (comm_alloc _) fun l => ih ((x, .var l) :: env) _
        cases scope.lookup x with
        | none => exact new
        | some b =>
          cases b with
          | var l => exact Comm.bind (comm_store v _ _) fun _ => ih _ _
          | _ => exact new

include i in
theorem comm_targets (c : Ctx) (es : List Expr) :
    E.Comm (fun ls => ls.map (Option.map E.ren)) (targets I c es) (targets I (E.renC c) es) := by
  induction es with
  | nil => exact Comm.pure' rfl
  | cons e es ih =>
    have gen : ∀ e, E.Comm (fun ls => ls.map (Option.map E.ren)) (do
          let l ← I.loc c e
          return some l :: (← targets I c es)) (do
          let l ← I.loc (E.renC c) e
          return some l :: (← targets I (E.renC c) es)) :=
      fun e => Comm.bind (i.loc _ _) fun l => Comm.bind ih fun ls => Comm.pure' rfl
    cases e with
    | id x =>
      unfold targets
      split
      · exact Comm.bind ih fun ls => Comm.pure' rfl
      · exact gen _
    | _ => unfold targets; exact gen _

include v in
theorem comm_storeAll (ls : List (Option Loc)) (vs : List Val) :
    E.Comm (ω := ω) id (storeAll ls vs) (storeAll (ls.map (Option.map E.ren)) (E.renVs vs)) := by
  induction ls generalizing vs with
  | nil =>
    cases vs with
    | nil => exact Comm.pure id _
    | cons u vs => exact Comm.stuck _ _
  | cons l ls ih =>
    cases vs with
    | nil => cases l <;> exact Comm.stuck _ _
    | cons u vs =>
      rw [renVs]
      cases l with
      | none => exact ih _
      | some l => exact Comm.bind (comm_store v _ _) fun _ => ih _

theorem renC_enter (c : Ctx) : ({ E.renC c with env := (E.renC c).env.enter } : Ctx) = E.renC { c with env := c.env.enter } := rfl

include i in
theorem comm_block (c : Ctx) (ss : List Stmt) : E.Comm E.renCtl (block I c ss) (block I (E.renC c) ss) :=
  comm_execs i { c with env := c.env.enter } ss

include i in
theorem comm_initial (c : Ctx) (s : Option Stmt) : E.Comm E.renC (initial I c s) (initial I (E.renC c) s) := by
  unfold initial
  split
  · exact Comm.pure' rfl
  · rw [renC_enter]
    exact Comm.bind (i.stmt _ _) fun r => Comm.pure' rfl

include i in
theorem comm_cond (c : Ctx) (e : Expr) : E.Comm id (cond I c e) (cond I (E.renC c) e) := by
  unfold cond
  refine Comm.bind (i.expr _ _) fun u => ?_
  cases u <;> simp only [renV] <;> first | exact Comm.stuck _ _ | exact Comm.pure id _

include i in
theorem comm_condOpt (c : Ctx) (e : Option Expr) : E.Comm id (condOpt I c e) (condOpt I (E.renC c) e) := by
  unfold condOpt
  split
  · exact Comm.pure id _
  · exact comm_cond i _ _

include i in
theorem comm_stmtOpt (c : Ctx) (e : Option Stmt) : E.Comm id (stmtOpt I c e) (stmtOpt I (E.renC c) e) := by
  unfold stmtOpt
  split
  · exact Comm.pure id _
  · exact Comm.bind (i.stmt _ _) fun _ => Comm.pure id _

include i in
theorem comm_nextIter (c : Ctx) (e : Option Expr) (p : Option Stmt) (b : List Stmt) :
    E.Comm E.renCtl (nextIter I c e p b) (nextIter I (E.renC c) e p b) := by
  unfold nextIter
  refine Comm.bind (comm_condOpt i _ _) fun t => ?_
  simp only [id]
  split
  · refine Comm.bind (comm_block i _ _) fun r => ?_
    have next : E.Comm E.renCtl (stmtOpt I c p >>= fun _ => I.iter c e p b)
        (stmtOpt I (E.renC c) p >>= fun _ => I.iter (E.renC c) e p b) :=
      Comm.bind (comm_stmtOpt i _ _) fun _ => i.iter _ _ _ _
    cases r <;> simp only [renCtl] <;> first | exact next | exact Comm.pure' rfl
  · exact Comm.pure' rfl

include v i in
theorem comm_rangeOver (c : Ctx) (e : Expr) : E.Comm E.renR (rangeOver I c e) (rangeOver I (E.renC c) e) := by
  unfold rangeOver
  refine Comm.bind (i.expr _ _) fun u => ?_
  cases u <;> simp only [renV] <;> first | exact Comm.stuck _ _ | exact Comm.pure' rfl | skip
  exact Comm.bind (comm_load v _) fun u => Comm.bind (comm_arrLen _) fun n => Comm.pure' rfl

include v in
theorem comm_elem (r : RangeOver) (j : Nat) : E.Comm (ω := ω) E.renV (r.elem j) ((E.renR r).elem j) := by
  cases r with
  | vals vs => exact Comm.the fun x e => by rw [renVs_getElem?, e]; rfl
  | place l off n =>
    show E.Comm E.renV (load _) (load _)
    rw [← ren_path]
    exact comm_load v _

include v in
theorem comm_setVar (l : Option Loc) {x y : M ω Val} (k : E.Comm E.renV x y) :
    E.Comm id (setVar l x) (setVar (l.map E.ren) y) := by
  cases l with
  | none => exact Comm.pure id _
  | some l => exact Comm.bind k fun u => comm_store v _ _

include v i in
theorem comm_rangeLoop (c : Ctx) (b : List Stmt) (r : RangeOver) (k w : Option Loc) (n j : Nat) :
    E.Comm E.renCtl (rangeLoop I c b r k w n j) (rangeLoop I (E.renC c) b (E.renR r) (k.map E.ren) (w.map E.ren) n j) := by
  induction n generalizing j with
  | zero => exact Comm.pure' rfl
  | succ n ih =>
    unfold rangeLoop
    refine Comm.bind (comm_setVar v _ (Comm.pure' (by rw [renV]))) fun _ => Comm.bind (comm_setVar v _ (comm_elem v _ _)) fun _ =>
      Comm.bind (comm_block i _ _) fun t => ?_
    cases t <;> simp only [renCtl] <;> first | exact ih _ | exact Comm.pure' rfl

theorem comm_rangeVar (env : Env) (x : Option Id) :
    E.Comm (ω := ω) (fun r => (E.renEnv r.1, r.2.map E.ren)) (rangeVar env x) (rangeVar (E.renEnv env) x) := by
  unfold rangeVar
  split
  · exact Comm.pure' rfl
  · split
    · exact Comm.pure' rfl
    · exact Comm.bind (comm_alloc .nil) fun l => Comm.pure' rfl

include i in
theorem comm_matchesCase (c : Ctx) (u : Val) (es : List Expr) :
    E.Comm id (matchesCase I c u es) (matchesCase I (E.renC c) (E.renV u) es) := by
  induction es with
  | nil => exact Comm.pure id _
  | cons e es ih =>
    unfold matchesCase
    refine Comm.bind (i.expr _ _) fun w => Comm.bind (comm_binOp _ _ _) fun b => ?_
    cases b <;> simp only [renV] <;> first | exact Comm.stuck _ _ | skip
    split
    · exact Comm.pure id _
    · exact ih
    · exact Comm.stuck _ _

include i in
theorem comm_findCase (c : Ctx) (u : Val) (cs : List (List Expr × List Stmt)) :
    E.Comm id (findCase I c u cs) (findCase I (E.renC c) (E.renV u) cs) := by
  induction cs with
  | nil => exact Comm.pure id _
  | cons e cs ih =>
    obtain ⟨_ | _, ss⟩ := e
    · exact Comm.pure id _
    · unfold findCase
      refine Comm.bind (comm_matchesCase i _ _ _) fun b => ?_
      simp only [id]
      split
      · exact Comm.pure id _
      · exact ih

include i in
theorem comm_zeros (c : Ctx) (t : Ty) (xs : List Id) : E.Comm E.renVs (zeros I c t xs) (zeros I (E.renC c) t xs) := by
  induction xs with
  | nil => exact Comm.pure _ []
  | cons e es ih =>
    unfold zeros
    exact Comm.bind (i.zero _ _) fun _ => Comm.bind ih fun _ => Comm.pure' (by rw [renVs])

theorem comm_pushDefer (d : Deferred) : E.Comm (ω := ω) id (pushDefer d) (pushDefer (E.renD d)) := by
  intro s s' h
  refine ⟨{ s' with defers := E.renD d :: s'.defers }, rfl, ⟨h.wins, h.size, h.base, ?_, h.world, h.mem⟩, rfl⟩
  show _ :: _ = _
  rw [h.defers]
  rfl

theorem renEnv_scope (env : Env) : (E.renEnv env).scope = E.renEnv env.scope := by
  induction env with
  | nil => rfl
  | cons b env ih =>
    obtain ⟨x, b⟩ := b
    unfold Env.scope at ih ⊢
    rw [renEnv, List.takeWhile_cons, List.takeWhile_cons, ih]
    simp only
    split
    · rw [renEnv]
    · rfl

include v i in
theorem comm_nextStmt (c : Ctx) (s : Stmt) :
    E.Comm (fun r => (E.renEnv r.1, E.renCtl r.2)) (nextStmt P I c s) (nextStmt P I (E.renC c) s) := by
  have sc : (E.renC c).env.scope = E.renEnv c.env.scope := renEnv_scope _
  unfold nextStmt
  split
  · exact Comm.bind (i.multi _ _) fun _ => Comm.pure' rfl
  · rw [sc]
    exact Comm.bind (comm_rhs i _ _ _) fun vs => Comm.bind (comm_define v _ c.env _ _) fun env => Comm.pure' rfl
  · exact Comm.bind (comm_targets i _ _) fun ts => Comm.bind (comm_rhs i _ _ _) fun vs =>
      Comm.bind (comm_storeAll v _ _) fun _ => Comm.pure' rfl
  · exact Comm.bind (i.loc _ _) fun t => Comm.bind (comm_load v _) fun x => Comm.bind (i.expr _ _) fun y =>
      Comm.bind (comm_binOp _ _ _) fun z => Comm.bind (comm_store v _ _) fun _ => Comm.pure' rfl
  · exact Comm.bind (comm_zeros i _ _ _) fun vs => Comm.bind (comm_declare c.env _ _) fun env => Comm.pure' rfl
  · refine Comm.bind (comm_rhs i _ _ _) fun vs => ?_
    have : (E.renVs vs).map Val.default = E.renVs (vs.map Val.default) := by
      rw [renVs_eq, renVs_eq, List.map_map, List.map_map]
      congr 1
      funext u
      exact (E.renV_default u).symm
    rw [this]
    exact Comm.bind (comm_declare c.env _ _) fun env => Comm.pure' rfl
  · exact Comm.stuck _ _
  · exact Comm.pure' rfl
  · exact Comm.bind (i.multi _ _) fun vs => Comm.pure' rfl
  · exact Comm.bind (comm_evals i _ _) fun vs => Comm.pure' rfl
  · refine Comm.bind (comm_initial i _ _) fun c' => Comm.bind (comm_cond i _ _) fun b => ?_
    exact Comm.bind (comm_block i _ _) fun r => Comm.pure' rfl
  · exact Comm.bind (comm_initial i _ _) fun c' => Comm.bind (i.iter _ _ _ _) fun r => Comm.pure' rfl
  · refine Comm.bind (comm_rangeOver v i _ _) fun r => Comm.bind (comm_rangeVar c.env.enter _) fun k =>
      Comm.bind (comm_rangeVar _ _) fun w => ?_
    have : (E.renR r).size = r.size := by cases r <;> simp [renR, RangeOver.size, renVs_length]
    rw [this]
    exact Comm.bind (comm_rangeLoop v i ⟨c.pkg, w.1⟩ _ _ _ _ _ _) fun r => Comm.pure' rfl
  · refine Comm.bind (comm_initial i _ _) fun c' => Comm.bind (i.expr _ _) fun u => Comm.bind (comm_findCase i _ _ _) fun ss =>
      Comm.bind (comm_block i _ _) fun r => ?_
    cases r <;> exact Comm.pure' rfl
  · exact Comm.bind (comm_block i _ _) fun r => Comm.pure' rfl
  · exact Comm.pure' rfl
  · exact Comm.pure' rfl
  · refine Comm.bind (comm_pkg c) fun k => Comm.bind (r := id) (Comm.the fun _ h => h) fun f => ?_
    exact Comm.bind (comm_evals i _ _) fun vs => Comm.bind (comm_pushDefer (.func _ _ _)) fun _ => Comm.pure' rfl
  · exact Comm.bind (comm_receiver i _ _) fun r => Comm.bind (comm_evals i _ _) fun vs =>
      Comm.bind (comm_pushDefer (.method _ _ _)) fun _ => Comm.pure' rfl
  · exact Comm.stuck _ _

theorem renV_pass (t : Ty) (u : Val) : E.renV (pass t u) = pass t (E.renV u) := by
  unfold pass
  cases t <;> cases u <;> simp only [renV] <;> first | rfl | skip
  next x t a =>
    cases t <;> simp only [renV]
    split <;> simp only [renV]

theorem comm_params (env : Env) (ps : List (Id × Ty)) (vs : List Val) :
    E.Comm (ω := ω) E.renEnv (params env ps vs) (params (E.renEnv env) ps (E.renVs vs)) := by
  induction ps generalizing env vs with
  | nil =>
    cases vs with
    | nil => unfold params; exact Comm.pure _ _
    | cons u vs => unfold params; exact Comm.stuck _ _
  | cons p ps ih =>
    obtain ⟨x, t⟩ := p
    cases vs with
    | nil => unfold params; exact Comm.stuck _ _
    | cons u vs =>
      unfold params
      rw [renVs]
      simp only
      rw [← renV_pass]
      exact Comm.bind (comm_alloc _) fun l => ih ((x, .var l) :: env) _

include v h i in
theorem comm_runDefers (ds : List Deferred) : E.Comm id (runDefers P I ds) (runDefers P I (ds.map E.renD)) := by
  induction ds with
  | nil => exact Comm.pure id _
  | cons d ds ih =>
    cases d with
    | func p f vs => exact Comm.bind (i.call _ _ _) fun _ => ih
    | method r m vs => exact Comm.bind (comm_callMethod v h i _ _ _) fun _ => ih

theorem comm_pending : E.Comm (ω := ω) (List.map E.renD) pending pending := by
  intro s s' h
  exact ⟨s', by unfold pending; rw [h.defers], h, rfl⟩

include i in
theorem comm_namedResults (c : Ctx) (env : Env) (rs : List (Id × Ty)) :
    E.Comm E.renEnv (namedResults I c env rs) (namedResults I (E.renC c) (E.renEnv env) rs) := by
  induction rs generalizing env with
  | nil => exact Comm.pure _ _
  | cons d ds ih =>
    obtain ⟨x, t⟩ := d
    unfold namedResults
    split
    · exact Comm.pure _ _
    · exact Comm.bind (i.zero _ _) fun u => Comm.bind (comm_alloc _) fun l => ih ((x, .var l) :: env)

include v in
theorem comm_resultVars (env : Env) (rs : List (Id × Ty)) :
    E.Comm (ω := ω) E.renVs (resultVars env rs) (resultVars (E.renEnv env) rs) := by
  induction rs with
  | nil => exact Comm.pure _ []
  | cons d ds ih =>
    obtain ⟨x, t⟩ := d
    unfold resultVars
    split
    · exact Comm.pure _ []
    · rw [renEnv_lookup]
      cases env.lookup x with
      | none => exact Comm.stuck _ _
      | some b =>
        cases b with
        | val u => exact Comm.stuck _ _
        | hidden => exact Comm.stuck _ _
        | var l => exact Comm.bind (comm_load v _) fun u => Comm.bind ih fun us => Comm.pure' (by rw [renVs])

include v in
theorem comm_results (f : Func) (env : Env) (r : Ctl) :
    E.Comm (ω := ω) E.renVs (results f env r) (results f (E.renEnv env) (E.renCtl r)) := by
  cases r with
  | ret vs =>
    cases vs with
    | nil => exact comm_resultVars v _ _
    | cons u vs =>
      refine Comm.pure' ?_
      show List.zipWith pass _ (E.renVs _) = _
      rw [renVs_eq, renVs_eq, List.map_zipWith, List.zipWith_map_right]
      congr 1
      funext t u
      rw [renV_pass]
  | next => exact Comm.pure _ []
  | brk => exact Comm.stuck _ _
  | cont => exact Comm.stuck _ _

include v in
theorem comm_framed {x y : M ω (List Val)} (k : E.Comm E.renVs x y) : E.Comm E.renVs (framed x) (framed y) := by
  intro s s' hs
  have w : E.win.length ≤ s.mem.length := hs.wins
  have len : s'.mem.length = E.renN s.mem.length := hs.mem.length
  have := k { s with base := s.mem.length, defers := [] } { s' with base := s'.mem.length, defers := [] }
    ⟨w, Nat.le_refl _, fun l => by simp only [len]; exact ren_lt v w, rfl, hs.world, hs.mem⟩
  unfold framed
  generalize x { s with base := s.mem.length, defers := [] } = o at this
  cases o with
  | ok vs t =>
    obtain ⟨t', e, r, b⟩ := this
    rw [e]
    simp only at b
    have sz := r.size
    rw [b] at sz
    refine ⟨_, rfl, ⟨?_, ?_, hs.base, hs.defers, r.world, ?_⟩, rfl⟩
    · simp only
      split
      · exact r.wins
      · rw [List.length_take]; omega
    · have := hs.size
      simp only
      split
      · omega
      · rw [List.length_take]; omega
    · simp only
      rw [len, renVs_refers fun l => ren_lt v w]
      split
      · exact r.mem
      · exact r.mem.take w
  | panic t =>
    obtain ⟨t', e, r, b⟩ := this
    rw [e]
    simp only at b
    have sz := r.size
    rw [b] at sz
    exact ⟨_, rfl, ⟨r.wins, Nat.le_trans hs.size sz, hs.base, hs.defers, r.world, r.mem⟩, rfl⟩
  | crash t =>
    obtain ⟨t', e, r, b⟩ := this
    rw [e]
    simp only at b
    have sz := r.size
    rw [b] at sz
    exact ⟨_, rfl, ⟨r.wins, Nat.le_trans hs.size sz, hs.base, hs.defers, r.world, r.mem⟩, rfl⟩
  | stuck => trivial

include v h i in
theorem comm_unwind : E.Comm id (unwind P I) (unwind P I) := by
  unfold unwind
  exact Comm.bind comm_pending fun ds => comm_runDefers v h i ds

theorem comm_onPanic {α : Type} {r : α → α} {y : M ω Unit} {x x' : M ω α} (hy : E.Comm id y y) (hx : E.Comm r x x') :
    E.Comm r (onPanic y x) (onPanic y x') := by
  intro s s' hs
  have := hx s s' hs
  unfold onPanic
  cases e : x s with
  | ok a t => rw [e] at this; obtain ⟨t', e', k⟩ := this; rw [e']; exact ⟨t', rfl, k⟩
  | panic t =>
    rw [e] at this
    obtain ⟨t', e', k, b⟩ := this
    rw [e']
    have := (Comm.bind (q := r) (f := fun _ => panic) (g := fun _ => panic) hy fun _ => Comm.panic r) t t' k
    simp only
    generalize (y >>= fun _ => panic : M ω α) t = o at this
    cases o with
    | ok a u => obtain ⟨u', a1, a2, a3⟩ := this; exact ⟨u', a1, a2, a3.trans b⟩
    | panic u => obtain ⟨u', a1, a2, a3⟩ := this; exact ⟨u', a1, a2, a3.trans b⟩
    | crash u => obtain ⟨u', a1, a2, a3⟩ := this; exact ⟨u', a1, a2, a3.trans b⟩
    | stuck => trivial
  | crash t => rw [e] at this; obtain ⟨t', e', k⟩ := this; rw [e']; exact ⟨t', rfl, k⟩
  | stuck => trivial

include v h i in
theorem comm_body (p : Id) (f : Func) (vs : List Val) : E.Comm E.renVs (body P I p f vs) (body P I p f (E.renVs vs)) := by
  unfold body
  refine Comm.bind (comm_params [] _ _) fun env => Comm.bind (comm_namedResults i ⟨p, env⟩ _ _) fun env =>
    Comm.bind (comm_onPanic (comm_unwind v h i) (Comm.bind (comm_execs i ⟨p, env⟩ _) fun r => comm_results v _ _ _)) fun rs => ?_
  exact Comm.bind (comm_unwind v h i) fun _ => Comm.pure _ _

include v h i in
theorem comm_succ : E.IComm (I.succ P) where
  expr := comm_nextExpr v h i
  loc := comm_nextLoc v h i
  multi := comm_nextMulti v h i
  stmt := comm_nextStmt v i
  iter := comm_nextIter i
  call p f vs := comm_framed v (comm_body v h i p f vs)
  zero := comm_nextZero h i
  comp := comm_nextComp h i

end

/-- The interpreter is local. -/
theorem comm_interp (v : E.Valid) {P : Prog ω} (h : E.Closed P) (n : Nat) : E.IComm (interp P n) := by
  induction n with
  | zero =>
    exact ⟨fun _ _ => Comm.stuck _ _, fun _ _ => Comm.stuck _ _, fun _ _ => Comm.stuck _ _, fun _ _ => Comm.stuck _ _,
      fun _ _ _ _ => Comm.stuck _ _, fun _ _ _ => Comm.stuck _ _, fun _ _ => Comm.stuck _ _, fun _ _ _ => Comm.stuck _ _⟩
  | succ n ih => exact comm_succ v h ih

end Verif.Src.Emb
