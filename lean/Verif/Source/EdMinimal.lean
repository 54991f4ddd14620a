/-
`ScMinimal`, edwards25519.go:1780-1793: the source computes what the model says.
-/
import Verif.Source.EdBase
import Verif.Source.Rules

namespace Verif.Src.EdSrc

open Verif.Ed

variable {ω : Type}

/-- All variables of the package; only the last one matters here. -/
structure G8 where
  (v0 v1 v2 v3 v4 v5 v6 : Val)
  order : Nat → Int
  plain : Val.anyRefers 0 [v0, v1, v2, v3, v4, v5, v6] = false

instance : EncL G8 8 where
  encL c := [c.v0, c.v1, c.v2, c.v3, c.v4, c.v5, c.v6, encInts .uint64 4 c.order]
  decL vs := match vs with
    | [a, b, c, d, e, f, g, o] =>
      if h : Val.anyRefers 0 [a, b, c, d, e, f, g] = false then
        match decInts .uint64 4 o with
        | some o => some ⟨a, b, c, d, e, f, g, o, h⟩
        | none => none
      else none
    | _ => none
  decL_some {vs c} h := by
    split at h
    · split at h
      · split at h
        · next e => cases h; rw [decInts_some e]
        · cases h
      · cases h
    · cases h
  lengthL _ := rfl
  plainL c := by
    have := c.plain
    simp only [Val.anyRefers, Bool.or_false, Bool.or_eq_false_iff] at this ⊢
    obtain ⟨h0, h1, h2, h3, h4, h5, h6⟩ := this
    exact ⟨h0, h1, h2, h3, h4, h5, h6, encInts_plain _ _ _⟩

/-- edwards25519.go:1782 -/
def rawWord (a : Nat → Int) (i : Nat) : Int := leValue ((List.range 8).map fun k => a (8 * i + k))

/-- edwards25519.go:1781-1790 -/
def rawMinimalFrom (o a : Nat → Int) : Nat → Bool
  | 0 => if rawWord a 0 > o 0 then false else if rawWord a 0 < o 0 then true else false
  | i + 1 =>
    if rawWord a (i + 1) > o (i + 1) then false else if rawWord a (i + 1) < o (i + 1) then true else rawMinimalFrom o a i

/-- The memory during the call. -/
def minMem (c : G8) (a : Nat → Int) (i : Int) (rest : List Val) : List Val :=
  encL c ++ (encInts .uint8 32 a :: P 8 :: .int .int i :: rest)

def minEnv : Env := [(id!"scalar", .var ⟨9, []⟩)]
def minLoop : Env := (id!"i", .var ⟨10, []⟩) :: minEnv.enter
def minV (k : Nat) : Env := (id!"v", .var ⟨11 + k, []⟩) :: minLoop.enter

def xOrder : Expr := .idx (.id id!"order") (.id id!"i")
def xV : Expr := .id id!"v"
def stV : Stmt := .define [id!"v"] [.call (.sel (.sel (.id id!"binary") id!"LittleEndian") id!"Uint64")
  [.slice (.id id!"scalar") (some (.bin .mul (.id id!"i") (.num 8))) none]]
def stZero : Stmt := .ite none (.bin .eq (.id id!"i") (.num 0)) [.ret [.id id!"false"]] []
def stLess : Stmt := .ite none (.bin .lt xV xOrder) [.brk] [stZero]
def stMore : Stmt := .ite none (.bin .gt xV xOrder) [.ret [.id id!"false"]] [stLess]
def stNext : Stmt := .opAssign .sub (.id id!"i") (.num 1)

theorem minimal_text : edwards.ScMinimal.body =
    [.loop (some (.define [id!"i"] [.num 3])) none (some stNext) [stV, stMore], .ret [.id id!"true"]] := by
  krfl

set_option maxRecDepth 100000 in
/-- The parts of an iteration. -/
theorem min_parts (c : G8) (a : Nat → Int) (w : ω) (i : Nat) (hi : i < 4) (rest : List Val) (hr : rest.length = 3 - i) :
    execsEnv (interp (progs 8) 20) ⟨pkg, minLoop.enter⟩ [stV] ⟨minMem c a i rest, 9, [], w⟩ =
        .ok (minV (3 - i), .next) ⟨minMem c a i (rest ++ [.int .uint64 (rawWord a i)]), 9, [], w⟩ ∧
      (interp (progs 8) 19).expr ⟨pkg, (minV (3 - i)).enter⟩ (.bin .gt xV xOrder)
          ⟨minMem c a i (rest ++ [.int .uint64 (rawWord a i)]), 9, [], w⟩ =
        .ok (.bool (decide (rawWord a i > c.order i))) ⟨minMem c a i (rest ++ [.int .uint64 (rawWord a i)]), 9, [], w⟩ ∧
      (interp (progs 8) 18).expr ⟨pkg, (minV (3 - i)).enter.enter.enter⟩ (.bin .lt xV xOrder)
          ⟨minMem c a i (rest ++ [.int .uint64 (rawWord a i)]), 9, [], w⟩ =
        .ok (.bool (decide (rawWord a i < c.order i))) ⟨minMem c a i (rest ++ [.int .uint64 (rawWord a i)]), 9, [], w⟩ ∧
      (interp (progs 8) 17).expr ⟨pkg, (minV (3 - i)).enter.enter.enter.enter.enter⟩ (.bin .eq (.id id!"i") (.num 0))
          ⟨minMem c a i (rest ++ [.int .uint64 (rawWord a i)]), 9, [], w⟩ =
        .ok (.bool (decide (i = 0))) ⟨minMem c a i (rest ++ [.int .uint64 (rawWord a i)]), 9, [], w⟩ := by
  match i, hi, rest, hr with
  | 3, _, [], _ => exact ⟨by krfl, by krfl, by krfl, by krfl⟩
  | 2, _, [x], _ => exact ⟨by krfl, by krfl, by krfl, by krfl⟩
  | 1, _, [x, y], _ => exact ⟨by krfl, by krfl, by krfl, by krfl⟩
  | 0, _, [x, y, z], _ => exact ⟨by krfl, by krfl, by krfl, by krfl⟩
  | k + 4, h, _, _ => exact absurd h (by omega)

/-- How the loop ends. -/
def minCtl : Bool → Ctl
  | true => .next
  | false => .ret [.bool false]

theorem iter_ret {P : Prog ω} {n : Nat} {c : Ctx} {e : Option Expr} {post : Option Stmt} {b : List Stmt} {s s1 : St ω}
    {vs : List Val} (h1 : condOpt (interp P n) c e s = .ok true s) (h2 : block (interp P n) c b s = .ok (.ret vs) s1) :
    (interp P (n + 1)).iter c e post b s = .ok (.ret vs) s1 := by
  show nextIter (interp P n) c e post b s = _
  unfold nextIter
  rw [M.bind_ok h1]
  simp only [if_true]
  rw [M.bind_ok h2]
  rfl

/-- The body of the loop. -/
theorem min_block (c : G8) (a : Nat → Int) (w : ω) (i : Nat) (hi : i < 4) (rest : List Val) (hr : rest.length = 3 - i) {r : Ctl}
    (hret : rawWord a i > c.order i → r = .ret [.bool false]) (hbrk : ¬ rawWord a i > c.order i → rawWord a i < c.order i → r = .brk)
    (hz : ¬ rawWord a i > c.order i → ¬ rawWord a i < c.order i → r = if i = 0 then .ret [.bool false] else .next) :
    block (interp (progs 8) 20) ⟨pkg, minLoop⟩ [stV, stMore] ⟨minMem c a i rest, 9, [], w⟩ =
      .ok r ⟨minMem c a i (rest ++ [.int .uint64 (rawWord a i)]), 9, [], w⟩ := by
  obtain ⟨e1, e2, e3, e4⟩ := min_parts c a w i hi rest hr
  refine execs_append (ss := [stV]) e1 ?_
  refine execs_last (env := minV (3 - i)) ?_
  refine stmt_if (c := ⟨pkg, minV (3 - i)⟩) (I := interp (progs 8) 19) e2 ?_
  by_cases h1 : rawWord a i > c.order i
  · rw [decide_eq_true h1, hret h1]
    rfl
  · rw [decide_eq_false h1]
    refine execs_last (env := (minV (3 - i)).enter.enter) ?_
    refine stmt_if (c := ⟨pkg, (minV (3 - i)).enter.enter⟩) (I := interp (progs 8) 18) e3 ?_
    by_cases h2 : rawWord a i < c.order i
    · rw [decide_eq_true h2, hbrk h1 h2]
      rfl
    · rw [decide_eq_false h2, hz h1 h2]
      refine execs_last (env := (minV (3 - i)).enter.enter.enter.enter) ?_
      refine stmt_if (c := ⟨pkg, (minV (3 - i)).enter.enter.enter.enter⟩) (I := interp (progs 8) 17) e4 ?_
      by_cases h3 : i = 0
      · rw [decide_eq_true h3, if_pos h3]
        rfl
      · rw [decide_eq_false h3, if_neg h3]
        rfl

theorem min_next (c : G8) (a : Nat → Int) (w : ω) (i : Nat) (hi : i + 1 < 4) (rest : List Val) :
    stmtOpt (interp (progs 8) 20) ⟨pkg, minLoop⟩ (some stNext) ⟨minMem c a ((i + 1 : Nat) : Int) rest, 9, [], w⟩ =
      .ok () ⟨minMem c a i rest, 9, [], w⟩ := by
  match i, hi with
  | 0, _ => krfl
  | 1, _ => krfl
  | 2, _ => krfl
  | k + 3, h => exact absurd h (by omega)

theorem min_iter (c : G8) (a : Nat → Int) (w : ω) (i : Nat) (hi : i < 4) (rest : List Val) (hr : rest.length = 3 - i) : ∃ m,
    (interp (progs 8) (21 + i)).iter ⟨pkg, minLoop⟩ none (some stNext) [stV, stMore] ⟨minMem c a i rest, 9, [], w⟩ =
      .ok (minCtl (rawMinimalFrom c.order a i)) ⟨encL c ++ (encInts .uint8 32 a :: m), 9, [], w⟩ := by
  induction i generalizing rest with
  | zero =>
    refine ⟨P 8 :: .int .int 0 :: (rest ++ [.int .uint64 (rawWord a 0)]), ?_⟩
    by_cases h1 : rawWord a 0 > c.order 0
    · rw [rawMinimalFrom, if_pos h1]
      exact iter_ret rfl (min_block c a w 0 hi rest hr (fun _ => rfl) (fun h => absurd h1 h) (fun h => absurd h1 h))
    · by_cases h2 : rawWord a 0 < c.order 0
      · rw [rawMinimalFrom, if_neg h1, if_pos h2]
        exact iter_break rfl (min_block c a w 0 hi rest hr (fun h => absurd h h1) (fun _ _ => rfl) (fun _ h => absurd h2 h))
      · rw [rawMinimalFrom, if_neg h1, if_neg h2]
        exact iter_ret rfl (min_block c a w 0 hi rest hr (fun h => absurd h h1) (fun _ h => absurd h h2) (fun _ _ => rfl))
  | succ i ih =>
    have le : (interp (progs 8 : Prog ω) 20).Le (interp (progs 8) (21 + i)) := interp_mono (.refl _) (by omega)
    have up : ∀ {r : Ctl} {s t : St ω}, block (interp (progs 8) 20) ⟨pkg, minLoop⟩ [stV, stMore] s = .ok r t →
        block (interp (progs 8) (21 + i)) ⟨pkg, minLoop⟩ [stV, stMore] s = .ok r t :=
      fun h => (block_mono le _ _).ok h
    rw [show 21 + (i + 1) = (21 + i) + 1 by omega]
    by_cases h1 : rawWord a (i + 1) > c.order (i + 1)
    · refine ⟨P 8 :: .int .int (i + 1 : Nat) :: (rest ++ [.int .uint64 (rawWord a (i + 1))]), ?_⟩
      rw [rawMinimalFrom, if_pos h1]
      exact iter_ret rfl (up (min_block c a w (i + 1) hi rest hr (fun _ => rfl) (fun h => absurd h1 h) (fun h => absurd h1 h)))
    · by_cases h2 : rawWord a (i + 1) < c.order (i + 1)
      · refine ⟨P 8 :: .int .int (i + 1 : Nat) :: (rest ++ [.int .uint64 (rawWord a (i + 1))]), ?_⟩
        rw [rawMinimalFrom, if_neg h1, if_pos h2]
        exact iter_break rfl
          (up (min_block c a w (i + 1) hi rest hr (fun h => absurd h h1) (fun _ _ => rfl) (fun _ h => absurd h2 h)))
      · obtain ⟨m, e⟩ := ih (by omega) (rest ++ [.int .uint64 (rawWord a (i + 1))]) (by rw [List.length_append, hr]; simp; omega)
        refine ⟨m, ?_⟩
        rw [rawMinimalFrom, if_neg h1, if_neg h2]
        exact iter_step rfl
          (up (min_block c a w (i + 1) hi rest hr (r := .next) (fun h => absurd h h1) (fun _ h => absurd h h2)
            (fun _ _ => (if_neg (Nat.succ_ne_zero i)).symm)))
          ((stmtOpt_mono le _ _).ok (min_next c a w i hi _)) e

def sumMinimal : G8 → B32 → List Int → Option Effect := fun c a => plainly ([], [.bool (rawMinimalFrom c.order a 3)])

theorem minimal_run (c : G8) (a : Nat → Int) (w : ω) :
    (interp (progs 8) 26).call pkg edwards.ScMinimal [P 8] ⟨encL c ++ [encInts .uint8 32 a], 9, [], w⟩ =
      .ok [.bool (rawMinimalFrom c.order a 3)] ⟨encL c ++ [encInts .uint8 32 a], 9, [], w⟩ := by
  obtain ⟨m, e⟩ := min_iter c a w 3 (by decide) [] rfl
  have e1 : (interp (progs 8) 25).stmt ⟨pkg, minEnv⟩ (.loop (some (.define [id!"i"] [.num 3])) none (some stNext) [stV, stMore])
      ⟨encL c ++ [encInts .uint8 32 a, P 8], 9, [], w⟩ =
      .ok (minEnv, minCtl (rawMinimalFrom c.order a 3)) ⟨encL c ++ (encInts .uint8 32 a :: m), 9, [], w⟩ :=
    stmt_loop (c := ⟨pkg, minEnv⟩) (c' := ⟨pkg, minLoop⟩) (n := 24) (by krfl) e
  have e2 : execs (interp (progs 8) 25) ⟨pkg, minEnv⟩ edwards.ScMinimal.body ⟨encL c ++ [encInts .uint8 32 a, P 8], 9, [], w⟩ =
      .ok (.ret [.bool (rawMinimalFrom c.order a 3)]) ⟨encL c ++ (encInts .uint8 32 a :: m), 9, [], w⟩ := by
    rw [minimal_text]
    cases h : rawMinimalFrom c.order a 3 with
    | true =>
      rw [h] at e1
      exact execs_one e1 rfl
    | false =>
      rw [h] at e1
      exact execs_leave e1 nofun
  exact call_of_execs (P := progs 8) (n := 25) (p := pkg) (f := edwards.ScMinimal) (vs := [P 8])
    (s := ⟨encL c ++ [encInts .uint8 32 a], 9, [], w⟩) (s1 := ⟨encL c ++ [encInts .uint8 32 a, P 8], 9, [], w⟩) (env := minEnv)
    rfl e2 rfl rfl rfl

theorem Minimal_right : Right ω 8 (shape1 sumMinimal) edwards.ScMinimal 26 := by
  refine shape1_right ?_ ?_
  · intro c x l e h
    obtain ⟨rfl, rfl⟩ := plainly_some h
    exact ⟨by simp, by simp [Val.refers]⟩
  · intro c x l e w h
    obtain ⟨rfl, rfl⟩ := plainly_some h
    exact minimal_run c x w

end Verif.Src.EdSrc
