/-
More fuel changes nothing: a computation that does not get stuck with some fuel ends in the same way with more.
-/
import Verif.Source.Semantics

namespace Verif.Src

variable {ω : Type} {α β : Type}

/-- `y` agrees with `x` wherever `x` does not get stuck. -/
def Le (x y : M ω α) : Prop := ∀ s, x s = .stuck ∨ y s = x s

theorem Le.refl (x : M ω α) : Le x x := fun _ => .inr rfl

theorem Le.trans {x y z : M ω α} (h : Le x y) (k : Le y z) : Le x z := fun s => by
  rcases h s with h | h
  · exact .inl h
  · rcases k s with k | k
    · exact .inl (by rw [← h, k])
    · exact .inr (by rw [k, h])

theorem Le.stuck (y : M ω α) : Le M.stuck y := fun _ => .inl rfl

theorem Le.bind {x y : M ω α} {f g : α → M ω β} (h : Le x y) (k : ∀ a, Le (f a) (g a)) : Le (x >>= f) (y >>= g) := fun s => by
  show M.bind x f s = .stuck ∨ M.bind y g s = M.bind x f s
  unfold M.bind
  rcases h s with h | h
  · left; rw [h]
  · rw [h]
    cases x s with
    | ok a s => exact k a s
    | panic s => right; rfl
    | crash s => right; rfl
    | stuck => left; rfl

theorem Le.framed {x y : M ω (List Val)} (h : Le x y) : Le (framed x) (framed y) := fun s => by
  unfold Src.framed
  rcases h { s with base := s.mem.length, defers := [] } with h | h <;> rw [h] <;> simp

/-- The same for interpreters. -/
structure Interp.Le (I J : Interp ω) : Prop where
  expr c e : Src.Le (I.expr c e) (J.expr c e)
  loc c e : Src.Le (I.loc c e) (J.loc c e)
  multi c e : Src.Le (I.multi c e) (J.multi c e)
  stmt c s : Src.Le (I.stmt c s) (J.stmt c s)
  iter c e p b : Src.Le (I.iter c e p b) (J.iter c e p b)
  call p f vs : Src.Le (I.call p f vs) (J.call p f vs)
  zero c t : Src.Le (I.zero c t) (J.zero c t)
  comp c t es : Src.Le (I.comp c t es) (J.comp c t es)

/-- `Q` is `P` with more names to be used, and more of the libraries. -/
structure Prog.Le (P Q : Prog ω) : Prop where
  pkgs : Q.pkgs = P.pkgs
  methods : Q.methods = P.methods
  globals p x : P.global p x = some .hidden ∨ Q.global p x = P.global p x
  value p x : P.ext.value p x = none ∨ Q.ext.value p x = P.ext.value p x
  func p x vs : Src.Le (P.ext.func p x vs) (Q.ext.func p x vs)
  method r m vs : Src.Le (P.ext.method r m vs) (Q.ext.method r m vs)
  zero p x : P.ext.zero p x = none ∨ Q.ext.zero p x = P.ext.zero p x

theorem Prog.Le.find {P Q : Prog ω} (l : P.Le Q) (c : Ctx) (x : Id) :
    P.find c x = some .hidden ∨ Q.find c x = P.find c x := by
  unfold Prog.find
  cases c.env.lookup x with
  | some b => exact .inr rfl
  | none => exact l.globals _ _

theorem Le.the {a b : Option α} (h : a = none ∨ b = a) : Le (M.the a : M ω α) (M.the b) := by
  rcases h with rfl | rfl
  · exact Le.stuck _
  · exact Le.refl _

section
variable {P Q : Prog ω} (l : P.Le Q) {I J : Interp ω} (h : I.Le J)
include h

/-- Go through the structure of a computation. -/
macro "mono1" h:ident : tactic => `(tactic| first
  | with_reducible exact Le.refl _
  | with_reducible exact Le.stuck _
  | with_reducible exact Interp.Le.expr $h _ _
  | with_reducible exact Interp.Le.loc $h _ _
  | with_reducible exact Interp.Le.multi $h _ _
  | with_reducible exact Interp.Le.stmt $h _ _
  | with_reducible exact Interp.Le.iter $h _ _ _ _
  | with_reducible exact Interp.Le.call $h _ _ _
  | with_reducible exact Interp.Le.zero $h _ _
  | with_reducible exact Interp.Le.comp $h _ _ _
  | with_reducible assumption
  | with_reducible refine Le.bind ?_ fun _ => ?_
  | split)

macro "mono" h:ident : tactic => `(tactic| repeat' mono1 $h)

theorem evals_mono (c : Ctx) (es : List Expr) : Le (evals I c es) (evals J c es) := by
  induction es with
  | nil => exact Le.refl _
  | cons e es ih => unfold evals; mono h

include l in
theorem nextLoc_mono (c : Ctx) (e : Expr) : Le (nextLoc P I c e) (nextLoc Q J c e) := by
  unfold nextLoc
  split
  · rcases l.find c _ with e | e <;> rw [e]
    · exact Le.stuck _
    · exact Le.refl _
  all_goals mono h

theorem bound_mono (c : Ctx) (e : Option Expr) : Le (bound I c e) (bound J c e) := by
  unfold bound; mono h

theorem sliceOf_mono (c : Ctx) (e : Expr) (v : Val) (lo hi : Option Int) :
    Le (sliceOf I c e v lo hi) (sliceOf J c e v lo hi) := by
  unfold sliceOf; mono h

theorem zeroFields_mono (c : Ctx) (fs : List (Id × Ty)) : Le (zeroFields I c fs) (zeroFields J c fs) := by
  induction fs with
  | nil => exact Le.refl _
  | cons f fs ih => unfold zeroFields; mono h

include l in
theorem nextZero_mono (c : Ctx) (t : Ty) : Le (nextZero P I c t) (nextZero Q J c t) := by
  unfold nextZero Prog.pkg
  rw [l.pkgs]
  repeat' first | with_reducible exact zeroFields_mono h _ _ | with_reducible exact Le.the (l.zero _ _) | mono1 h

theorem element_mono (c : Ctx) (t : Ty) (e : Expr) : Le (element I c t e) (element J c t e) := by
  unfold element; mono h

theorem elements_mono (c : Ctx) (t : Ty) (z : Val) (es : List (Option Expr × Expr)) :
    Le (elements I c t z es) (elements J c t z es) := by
  induction es with
  | nil => exact Le.refl _
  | cons e es ih =>
    unfold elements
    refine Le.bind (element_mono h _ _ _) fun _ => ?_
    mono h

theorem fields_mono (c : Ctx) (ts : List (Id × Ty)) (es : List (Option Expr × Expr)) (vs : List (Id × Val)) :
    Le (fields I c ts es vs) (fields J c ts es vs) := by
  induction es generalizing ts vs with
  | nil => unfold fields; exact Le.refl _
  | cons e es ih =>
    unfold fields
    split
    · exact Le.refl _
    · rename_i h'
      cases h'
      exact Le.bind (element_mono h _ _ _) fun _ => ih _ _
    · rename_i h'
      cases h'
      exact Le.bind (element_mono h _ _ _) fun _ => ih _ _
    · exact Le.refl _

include l in
theorem nextComp_mono (c : Ctx) (t : Ty) (es : List (Option Expr × Expr)) : Le (nextComp P I c t es) (nextComp Q J c t es) := by
  unfold nextComp Prog.pkg structOf
  rw [l.pkgs]
  repeat' first | with_reducible exact elements_mono h _ _ _ _ | with_reducible exact fields_mono h _ _ _ _ |
    with_reducible exact Le.the (l.zero _ _) | mono1 h

include l in
theorem nextExpr_mono (c : Ctx) (e : Expr) : Le (nextExpr P I c e) (nextExpr Q J c e) := by
  unfold nextExpr
  rw [l.pkgs]
  split
  case h_3 =>
    rcases l.find c _ with e | e <;> rw [e]
    · exact Le.stuck _
    · exact Le.refl _
  case h_4 p f =>
    rcases l.find c p with e | e <;> rw [e]
    · exact Le.stuck _
    · split
      · exact Le.stuck _
      · mono h
      · rcases l.globals p f with e | e <;> rw [e]
        · exact Le.stuck _
        · split <;> first | exact Le.refl _ | exact Le.the (l.value _ _)
  all_goals repeat' first | with_reducible exact bound_mono h _ _ | with_reducible exact sliceOf_mono h _ _ _ _ _ | mono1 h

theorem receiver_mono (c : Ctx) (e : Expr) : Le (receiver I c e) (receiver J c e) := by
  unfold receiver; mono h

include l in
theorem callMethod_mono (r : Val) (m : Id) (vs : List Val) : Le (callMethod P I r m vs) (callMethod Q J r m vs) := by
  unfold callMethod
  rw [l.methods]
  repeat' first | with_reducible exact l.method _ _ _ | mono1 h

theorem builtin_mono (c : Ctx) (x : Id) (as : List Expr) : Le (builtin I c x as) (builtin J c x as) := by
  unfold builtin
  repeat' first | with_reducible exact evals_mono h _ _ | mono1 h

include l in
theorem nextMulti_mono (c : Ctx) (e : Expr) : Le (nextMulti P I c e) (nextMulti Q J c e) := by
  unfold nextMulti Prog.pkg
  rw [l.pkgs]
  split
  case h_1 x args =>
    rcases l.find c x with e | e <;> rw [e]
    · exact Le.stuck _
    · repeat' first | with_reducible exact evals_mono h _ _ | with_reducible exact builtin_mono h _ _ _ | mono1 h
  case h_2 p m args =>
    rcases l.find c p with e | e <;> rw [e]
    · exact Le.stuck _
    · split
      · exact Le.stuck _
      · repeat' first | with_reducible exact evals_mono h _ _ | with_reducible exact receiver_mono h _ _ |
          with_reducible exact callMethod_mono l h _ _ _ | mono1 h
      · split
        · split
          · repeat' first | with_reducible exact evals_mono h _ _ | mono1 h
          · rcases l.globals p m with e | e <;> rw [e]
            · exact Le.stuck _
            · repeat' first | with_reducible exact evals_mono h _ _ | mono1 h
        · exact Le.bind (evals_mono h _ _) fun _ => l.func _ _ _
  all_goals repeat' first | with_reducible exact evals_mono h _ _ | with_reducible exact receiver_mono h _ _ |
    with_reducible exact callMethod_mono l h _ _ _ | mono1 h

theorem execs_mono (c : Ctx) (ss : List Stmt) : Le (execs I c ss) (execs J c ss) := by
  induction ss generalizing c with
  | nil => exact Le.refl _
  | cons s ss ih =>
    unfold execs
    refine Le.bind (h.stmt _ _) fun r => ?_
    split
    · exact ih _
    · exact Le.refl _

theorem rhs_mono (c : Ctx) (n : Nat) (es : List Expr) : Le (rhs I c n es) (rhs J c n es) := by
  unfold rhs
  repeat' first | with_reducible exact evals_mono h _ _ | mono1 h

theorem targets_mono (c : Ctx) (es : List Expr) : Le (targets I c es) (targets J c es) := by
  induction es with
  | nil => exact Le.refl _
  | cons e es ih =>
    have t : ∀ e es', e :: es' = e :: es → Le (targets I c es') (targets J c es') := by
      rintro e es' ⟨⟩; exact ih
    cases e <;> unfold targets <;> mono h

theorem block_mono (c : Ctx) (ss : List Stmt) : Le (block I c ss) (block J c ss) := execs_mono h _ _

theorem initial_mono (c : Ctx) (s : Option Stmt) : Le (initial I c s) (initial J c s) := by
  unfold initial; mono h

theorem cond_mono (c : Ctx) (e : Expr) : Le (cond I c e) (cond J c e) := by
  unfold cond; mono h

theorem condOpt_mono (c : Ctx) (e : Option Expr) : Le (condOpt I c e) (condOpt J c e) := by
  unfold condOpt
  repeat' first | with_reducible exact cond_mono h _ _ | mono1 h

theorem stmtOpt_mono (c : Ctx) (e : Option Stmt) : Le (stmtOpt I c e) (stmtOpt J c e) := by
  unfold stmtOpt; mono h

theorem nextIter_mono (c : Ctx) (e : Option Expr) (p : Option Stmt) (b : List Stmt) :
    Le (nextIter I c e p b) (nextIter J c e p b) := by
  unfold nextIter
  repeat' first | with_reducible exact condOpt_mono h _ _ | with_reducible exact block_mono h _ _ | with_reducible exact stmtOpt_mono h _ _ | mono1 h

theorem rangeOver_mono (c : Ctx) (e : Expr) : Le (rangeOver I c e) (rangeOver J c e) := by
  unfold rangeOver; mono h

theorem rangeLoop_mono (c : Ctx) (b : List Stmt) (r : RangeOver) (k v : Option Loc) (n i : Nat) :
    Le (rangeLoop I c b r k v n i) (rangeLoop J c b r k v n i) := by
  induction n generalizing i with
  | zero => exact Le.refl _
  | succ n ih =>
    unfold rangeLoop
    refine Le.bind (Le.refl _) fun _ => Le.bind (Le.refl _) fun _ => Le.bind (block_mono h _ _) fun r => ?_
    split
    · exact Le.refl _
    · exact Le.refl _
    · exact ih _

theorem matchesCase_mono (c : Ctx) (v : Val) (es : List Expr) : Le (matchesCase I c v es) (matchesCase J c v es) := by
  induction es with
  | nil => exact Le.refl _
  | cons e es ih => unfold matchesCase; mono h

theorem findCase_mono (c : Ctx) (v : Val) (cs : List (List Expr × List Stmt)) :
    Le (findCase I c v cs) (findCase J c v cs) := by
  induction cs with
  | nil => exact Le.refl _
  | cons e cs ih =>
    rcases e with ⟨_ | _, _⟩ <;> unfold findCase
    · exact Le.refl _
    repeat' first | with_reducible exact matchesCase_mono h _ _ _ | mono1 h

theorem zeros_mono (c : Ctx) (t : Ty) (xs : List Id) : Le (zeros I c t xs) (zeros J c t xs) := by
  induction xs with
  | nil => exact Le.refl _
  | cons e cs ih => unfold zeros; mono h

include l in
theorem nextStmt_mono (c : Ctx) (s : Stmt) : Le (nextStmt P I c s) (nextStmt Q J c s) := by
  unfold nextStmt Prog.pkg
  rw [l.pkgs]
  repeat' first | with_reducible exact evals_mono h _ _ | with_reducible exact rhs_mono h _ _ _ | with_reducible exact targets_mono h _ _ | with_reducible exact zeros_mono h _ _ _ |
    with_reducible exact initial_mono h _ _ | with_reducible exact cond_mono h _ _ | with_reducible exact block_mono h _ _ | with_reducible exact rangeOver_mono h _ _ |
    with_reducible exact rangeLoop_mono h _ _ _ _ _ _ _ | with_reducible exact findCase_mono h _ _ _ | with_reducible exact receiver_mono h _ _ | mono1 h

include l in
theorem runDefers_mono (ds : List Deferred) : Le (runDefers P I ds) (runDefers Q J ds) := by
  induction ds with
  | nil => exact Le.refl _
  | cons d ds ih =>
    cases d <;> unfold runDefers
    all_goals repeat' first | with_reducible exact callMethod_mono l h _ _ _ | mono1 h

theorem namedResults_mono (c : Ctx) (env : Env) (rs : List (Id × Ty)) :
    Le (namedResults I c env rs) (namedResults J c env rs) := by
  induction rs generalizing env with
  | nil => exact Le.refl _
  | cons d ds ih =>
    unfold namedResults
    repeat' first | with_reducible exact ih _ | mono1 h

omit h in
theorem Le.onPanic {α : Type} {y y' : M ω Unit} {x x' : M ω α} (hy : Le y y') (hx : Le x x') :
    Le (onPanic y x) (onPanic y' x') := by
  intro s
  unfold Src.onPanic
  rcases hx s with e | e
  · rw [e]; exact .inl rfl
  · rw [e]
    cases x s with
    | panic t => exact (Le.bind hy fun _ => .refl _) t
    | ok a t => exact .inr rfl
    | crash t => exact .inr rfl
    | stuck => exact .inr rfl

include l in
theorem unwind_mono : Le (unwind P I) (unwind Q J) := by
  unfold unwind
  exact Le.bind (.refl _) fun _ => runDefers_mono l h _

include l in
theorem body_mono (p : Id) (f : Func) (vs : List Val) : Le (body P I p f vs) (body Q J p f vs) := by
  unfold body
  refine Le.bind (.refl _) fun _ => Le.bind (namedResults_mono h _ _ _) fun _ => Le.bind (Le.onPanic (unwind_mono l h) ?_) fun _ =>
    Le.bind (unwind_mono l h) fun _ => .refl _
  exact Le.bind (execs_mono h _ _) fun _ => .refl _

include l in
theorem nextCall_mono (p : Id) (f : Func) (vs : List Val) : Le (nextCall P I p f vs) (nextCall Q J p f vs) :=
  (body_mono l h p f vs).framed

include l in
theorem succ_mono : (I.succ P).Le (J.succ Q) where
  expr := nextExpr_mono l h
  loc := nextLoc_mono l h
  multi := nextMulti_mono l h
  stmt := nextStmt_mono l h
  iter := nextIter_mono h
  call := nextCall_mono l h
  zero := nextZero_mono l h
  comp := nextComp_mono l h

end

theorem Interp.Le.refl (I : Interp ω) : I.Le I where
  expr _ _ := Src.Le.refl _
  loc _ _ := Src.Le.refl _
  multi _ _ := Src.Le.refl _
  stmt _ _ := Src.Le.refl _
  iter _ _ _ _ := Src.Le.refl _
  call _ _ _ := Src.Le.refl _
  zero _ _ := Src.Le.refl _
  comp _ _ _ := Src.Le.refl _

theorem Interp.Le.trans {I J K : Interp ω} (h : I.Le J) (k : J.Le K) : I.Le K where
  expr c e := (h.expr c e).trans (k.expr c e)
  loc c e := (h.loc c e).trans (k.loc c e)
  multi c e := (h.multi c e).trans (k.multi c e)
  stmt c e := (h.stmt c e).trans (k.stmt c e)
  iter c e p b := (h.iter c e p b).trans (k.iter c e p b)
  call c e p := (h.call c e p).trans (k.call c e p)
  zero c e := (h.zero c e).trans (k.zero c e)
  comp c e p := (h.comp c e p).trans (k.comp c e p)

theorem Interp.none_le (I : Interp ω) : Interp.none.Le I where
  expr _ _ := Src.Le.stuck _
  loc _ _ := Src.Le.stuck _
  multi _ _ := Src.Le.stuck _
  stmt _ _ := Src.Le.stuck _
  iter _ _ _ _ := Src.Le.stuck _
  call _ _ _ := Src.Le.stuck _
  zero _ _ := Src.Le.stuck _
  comp _ _ _ := Src.Le.stuck _

theorem Prog.Le.refl (P : Prog ω) : P.Le P where
  pkgs := rfl
  methods := rfl
  globals _ _ := .inr rfl
  value _ _ := .inr rfl
  func _ _ _ := Src.Le.refl _
  method _ _ _ := Src.Le.refl _
  zero _ _ := .inr rfl

theorem interp_succ (P : Prog ω) (n : Nat) : (interp P n).Le (interp P (n + 1)) := by
  induction n with
  | zero => exact Interp.none_le _
  | succ n ih => exact succ_mono (.refl P) ih

/-- More fuel, more names and more of the libraries change nothing. -/
theorem interp_mono {P Q : Prog ω} (l : P.Le Q) {n m : Nat} (h : n ≤ m) : (interp P n).Le (interp Q m) := by
  have : (interp P n).Le (interp Q n) := by
    clear h
    induction n with
    | zero => exact Interp.none_le _
    | succ n ih => exact succ_mono l ih
  refine this.trans ?_
  clear this
  induction h with
  | refl => exact .refl _
  | step _ ih => exact ih.trans (interp_succ Q _)

end Verif.Src
