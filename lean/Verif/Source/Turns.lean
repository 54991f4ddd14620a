/-
Loops with a condition and a statement after the body, one iteration at a time.
-/
import Verif.Source.Carry

namespace Verif.Src

variable {ω : Type}

/-- One iteration: `.brk` if the loop is over. -/
def turn (I : Interp ω) (c : Ctx) (e : Option Expr) (post : Option Stmt) (b : List Stmt) : M ω Ctl := do
  if ← condOpt I c e then
    match ← block I c b with
    | .brk => return .brk
    | .ret vs => return .ret vs
    | _ => do
      stmtOpt I c post
      return .next
  else return .brk

/-- How a loop ends, given how an iteration ends. -/
def afterTurn (I : Interp ω) (c : Ctx) (e : Option Expr) (post : Option Stmt) (b : List Stmt) : R ω Ctl → R ω Ctl
  | .ok .brk t => .ok .next t
  | .ok (.ret vs) t => .ok (.ret vs) t
  | .ok .next t => I.iter c e post b t
  | .ok .cont t => I.iter c e post b t
  | .panic t => .panic t
  | .crash t => .crash t
  | .stuck => .stuck

theorem iter_turn {P : Prog ω} {n : Nat} {c : Ctx} {e : Option Expr} {post : Option Stmt} {b : List Stmt} {s : St ω} :
    (interp P (n + 1)).iter c e post b s = afterTurn (interp P n) c e post b (turn (interp P n) c e post b s) := by
  show nextIter (interp P n) c e post b s = _
  unfold nextIter turn
  show M.bind _ _ s = afterTurn _ _ _ _ _ (M.bind _ _ s)
  unfold M.bind
  cases condOpt (interp P n) c e s with
  | ok t s1 =>
    cases t with
    | false => rfl
    | true =>
      simp only [if_true]
      show M.bind _ _ s1 = afterTurn _ _ _ _ _ (M.bind _ _ s1)
      unfold M.bind
      cases block (interp P n) c b s1 with
      | ok ctl s2 =>
        have next : (stmtOpt (interp P n) c post >>= fun _ => (interp P n).iter c e post b) s2 =
            afterTurn (interp P n) c e post b ((stmtOpt (interp P n) c post >>= fun _ => (pure Ctl.next : M ω Ctl)) s2) := by
          show M.bind _ _ s2 = afterTurn _ _ _ _ _ (M.bind _ _ s2)
          unfold M.bind
          cases stmtOpt (interp P n) c post s2 <;> rfl
        cases ctl with
        | next => exact next
        | cont => exact next
        | _ => rfl
      | _ => rfl
  | _ => rfl

theorem turn_mono {I J : Interp ω} (h : I.Le J) (c : Ctx) (e : Option Expr) (post : Option Stmt) (b : List Stmt) :
    Le (turn I c e post b) (turn J c e post b) := by
  unfold turn
  refine Le.bind (condOpt_mono h _ _) fun t => ?_
  cases t with
  | false => exact .refl _
  | true =>
    refine Le.bind (block_mono h _ _) fun r => ?_
    cases r with
    | next => exact Le.bind (stmtOpt_mono h _ _) fun _ => .refl _
    | cont => exact Le.bind (stmtOpt_mono h _ _) fun _ => .refl _
    | _ => exact .refl _

theorem turn_comm {I : Interp ω} {E : Emb} (i : E.IComm I) (c : Ctx) (e : Option Expr) (p : Option Stmt) (b : List Stmt) :
    E.Comm E.renCtl (turn I c e p b) (turn I (E.renC c) e p b) := by
  unfold turn
  refine Emb.Comm.bind (Emb.comm_condOpt i _ _) fun t => ?_
  simp only [id]
  split
  · refine Emb.Comm.bind (Emb.comm_block i _ _) fun r => ?_
    have next : E.Comm E.renCtl (stmtOpt I c p >>= fun _ => (pure Ctl.next : M ω Ctl))
        (stmtOpt I (E.renC c) p >>= fun _ => (pure Ctl.next : M ω Ctl)) :=
      Emb.Comm.bind (Emb.comm_stmtOpt i _ _) fun _ => Emb.Comm.pure' rfl
    cases r <;> simp only [Emb.renCtl] <;> first | exact next | exact Emb.Comm.pure' rfl
  · exact Emb.Comm.pure' rfl

theorem turn_grow (S : Sys ω) {n : Nat} {c : Ctx} {e : Option Expr} {p : Option Stmt} {b : List Stmt} {F g : List Val} {base : Nat} {w : ω}
    (len : 2 ≤ F.length) (hb : base < F.length) (pl : Val.anyRefers F.length F = false) (hc : (c.env.all fun b => b.2.below F.length) = true) :
    Grown (turn (interp (repo S) n) c e p b) (⟨F ++ g, firstBlocks F.length⟩ : Emb).renCtl F g base w
      (turn (interp (repo S) n) c e p b ⟨F, base, [], w⟩) := by
  refine grown ?_ pl hb
  have := turn_comm (repo_comm S (g := g) len n) c e p b
  rwa [Emb.renC_below rfl hc] at this

theorem Le.eq {α : Type} {x y : M ω α} (h : Le x y) {s : St ω} {r : R ω α} (e : x s = r) (hr : r ≠ .stuck) : y s = r := by
  rcases h s with h | h
  · rw [e] at h; exact absurd h hr
  · rw [h, e]

/-- A call with a loop after the first `k` statements, where something is known about some functions. -/
theorem call_loop {P : Prog ω} {K : Known ω} {n m d : Nat} (hK : K.Sound P d) (hm : m + d ≤ n) {p : Id} {f : Func} {vs : List Val}
    {s s1 s2 s3 : St ω} {env env2 : Env} {c : Ctx} {i : Option Stmt} {e : Option Expr} {post : Option Stmt} {b : List Stmt} {r : R ω Ctl} (k : Nat)
    (h1 : (params [] (f.recv.toList ++ f.params) vs >>= fun env => namedResults (interpK P K m) ⟨p, env⟩ env f.results)
      { s with base := s.mem.length, defers := [] } = .ok env s1)
    (h2 : execsEnv (interpK P K m) ⟨p, env⟩ (f.body.take k) s1 = .ok (env2, .next) s2)
    (h3 : f.body.drop k = .loop i e post b :: f.body.drop (k + 1))
    (h4 : initial (interpK P K m) ⟨p, env2⟩ i s2 = .ok c s3)
    (h5 : (interp P n).iter c e post b s3 = r) :
    (interp P (n + 2)).call p f vs s =
      finish P (interp P (n + 1)) f env s (after (interp P (n + 1)) ⟨p, env2⟩ (f.body.drop (k + 1)) (endLoop env2 r)) := by
  have le : (interpK P K m).Le (interp P (n + 1)) := (interpK_le hK m).trans (interp_mono (.refl P) (by omega))
  have le' : (interpK P K m).Le (interp P n) := (interpK_le hK m).trans (interp_mono (.refl P) hm)
  refine call_parts k ?_ ((execsEnv_mono le _ _).ok h2) h3 ?_
  · refine Le.ok ?_ h1
    exact Le.bind (.refl _) fun env => namedResults_mono le _ _ _
  · refine (M.bind_ok ((initial_mono le' _ _).ok h4)).trans ?_
    show M.bind _ _ _ = _
    unfold M.bind
    rw [h5]
    cases r <;> rfl

end Verif.Src
