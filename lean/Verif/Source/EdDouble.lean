/-
`GeDoubleScalarMultVartime`, edwards25519.go:879-928: the source computes what the model says.
-/
import Verif.Source.EdSlide
import Verif.Lemmas.DoubleScalar

namespace Verif.Src.EdSrc

open Verif.Ed

variable {ω : Type}

/-- The first six variables of the package. -/
structure G6 where
  (zero d d2 sqrtM1 : Fe)
  base : Nat → Nat → Pre
  bi : Nat → Pre

theorem encRow_plain (b : Nat → Pre) : (encRow b).refers 0 = false := rfl

instance : EncL G6 6 where
  encL c := [encFe c.zero, encFe c.d, encFe c.d2, encFe c.sqrtM1, encTable c.base, encRow c.bi]
  decL vs := match vs with
    | [a, b, c, d, t, r] => match decFe a, decFe b, decFe c, decFe d, decTable t, decRow r with
      | some x, some y, some z, some u, some v, some w => some ⟨x, y, z, u, v, w⟩
      | _, _, _, _, _, _ => none
    | _ => none
  decL_some {vs c} h := by
    split at h
    · split at h
      · next e1 e2 e3 e4 e5 e6 =>
        cases h
        rw [decFe_some e1, decFe_some e2, decFe_some e3, decFe_some e4, decTable_some e5, decRow_some _ _ e6]
      · cases h
    · cases h
  lengthL _ := rfl
  plainL c := by simp [Val.anyRefers, encFe_plain, encTable_plain, encRow_plain]

/-- Operations on points, left open. -/
structure DOps where
  slide : (Nat → Int) → Digits
  double : Ext → Comp
  cached : Fe → Ext → Cached
  ext : Comp → Ext
  proj : Comp → Proj
  pdouble : Proj → Comp
  add : Ext → Cached → Comp
  sub : Ext → Cached → Comp
  madd : Ext → Pre → Comp
  msub : Ext → Pre → Comp

noncomputable def DOps.table (o : DOps) : Table where
  funcs := [(id!"slide", 0, shape2 fun (_ : G0) (_ : Ints .int8 256) (a : B32) => plainly ([(0, encInts .int8 256 (o.slide a))], [])),
    (id!"geAdd", 0, shape3 fun (_ : G0) (_ : Comp) p q => plainly ([(0, encComp (o.add p q))], [])),
    (id!"geSub", 0, shape3 fun (_ : G0) (_ : Comp) p q => plainly ([(0, encComp (o.sub p q))], [])),
    (id!"geMixedAdd", 0, shape3 fun (_ : G0) (_ : Comp) p q => plainly ([(0, encComp (o.madd p q))], [])),
    (id!"geMixedSub", 0, shape3 fun (_ : G0) (_ : Comp) p q => plainly ([(0, encComp (o.msub p q))], []))]
  methods := [((id!"ProjectiveGroupElement", id!"Zero"), 1, shape1 sumProjZero),
    ((id!"ProjectiveGroupElement", id!"Double"), 0, shape2 fun (_ : G0) p (_ : Comp) => plainly ([(1, encComp (o.pdouble p))], [])),
    ((id!"ExtendedGroupElement", id!"Double"), 0, shape2 fun (_ : G0) p (_ : Comp) => plainly ([(1, encComp (o.double p))], [])),
    ((id!"ExtendedGroupElement", id!"ToCached"), 3, shape2 fun (c : G3) p (_ : Cached) => plainly ([(4, encCached (o.cached c.d2 p))], [])),
    ((id!"CompletedGroupElement", id!"ToProjective"), 0, shape2 fun (_ : G0) p (_ : Proj) => plainly ([(1, encProj (o.proj p))], [])),
    ((id!"CompletedGroupElement", id!"ToExtended"), 0, shape2 fun (_ : G0) p (_ : Ext) => plainly ([(1, encExt (o.ext p))], []))]

/-- edwards25519.go:696-702 -/
def cachedOf (d2 : Fe) (p : Ext) : Cached := ⟨feAdd p.Y p.X, feSub p.Y p.X, p.Z, feMul p.T d2⟩

def theDOps : DOps := ⟨rawSlide, Ext.double, cachedOf, Comp.toExt, Comp.toProj, Proj.double, geAdd, geSub, geMixedAdd, geMixedSub⟩

attribute [local irreducible] rawSlide in
theorem theDOps_ok : theDOps.table.Ok ω 600 where
  funcs := by
    simp only [DOps.table, List.forall_mem_cons, List.not_mem_nil, false_imp_iff, implies_true, and_true]
    refine ⟨?_, ?_, ?_, ?_, ?_⟩
    · exact ⟨_, rfl, Slide_right⟩
    · exact ⟨_, rfl, GeAdd_right.more (by decide)⟩
    · exact ⟨_, rfl, GeSub_right.more (by decide)⟩
    · exact ⟨_, rfl, GeMixedAdd_right.more (by decide)⟩
    · exact ⟨_, rfl, GeMixedSub_right.more (by decide)⟩
  methods := by
    simp only [DOps.table, List.forall_mem_cons, List.not_mem_nil, false_imp_iff, implies_true, and_true]
    refine ⟨?_, ?_, ?_, ?_, ?_, ?_⟩
    · exact ⟨_, rfl, ProjZero_right.more (by decide)⟩
    · exact ⟨_, rfl, ProjDouble_right.more (by decide)⟩
    · exact ⟨_, rfl, ExtDouble_right.more (by decide)⟩
    · exact ⟨_, rfl, ExtToCached_right.more (by decide)⟩
    · exact ⟨_, rfl, CompToProj_right.more (by decide)⟩
    · exact ⟨_, rfl, CompToExt_right.more (by decide)⟩

/-- Eight points in memory. -/
def encOdd (f : Nat → Cached) : Val := .arr ((List.range 8).map fun j => encCached (f j))

/-- The memory during the call. -/
def dmMem (c : G6) (a b : Nat → Int) (A : Ext) (r : Proj) (as bs : Digits) (f : Nat → Cached) (t : Comp) (u A2 : Ext) (i : Int)
    (rest : List Val) : List Val :=
  encL c ++ (encProj r :: encInts .uint8 32 a :: encExt A :: encInts .uint8 32 b :: P 6 :: P 7 :: P 8 :: P 9 ::
    encInts .int8 256 as :: encInts .int8 256 bs :: encOdd f :: encComp t :: encExt u :: encExt A2 :: .int .int i :: rest)

def dmEnv0 : Env := [(id!"b", .var ⟨13, []⟩), (id!"A", .var ⟨12, []⟩), (id!"a", .var ⟨11, []⟩), (id!"r", .var ⟨10, []⟩)]

/-- The names in scope. -/
def dmEnv : Env :=
  [(id!"i", .var ⟨20, []⟩), (id!"A2", .var ⟨19, []⟩), (id!"u", .var ⟨18, []⟩), (id!"t", .var ⟨17, []⟩), (id!"Ai", .var ⟨16, []⟩),
    (id!"bSlide", .var ⟨15, []⟩), (id!"aSlide", .var ⟨14, []⟩)] ++ dmEnv0

/-- Bytes, stored and read again. -/
def again (a : Nat → Int) : Nat → Int := ((dec (encInts .uint8 32 a) : Option B32).getD fun _ => 0)

def ext0 : Ext := ⟨fe0, fe0, fe0, fe0⟩
def cached0 : Cached := ⟨fe0, fe0, fe0, fe0⟩

set_option maxRecDepth 100000 in
theorem dm_start (o : DOps) (c : G6) (r : Proj) (a : Nat → Int) (A : Ext) (b : Nat → Int) (w : ω) :
    execsEnv (interpK (progs 6) (o.table.known 6) 100) ⟨pkg, dmEnv0⟩ (edwards.GeDoubleScalarMultVartime.body.take 10)
      ⟨encL c ++ [encProj r, encInts .uint8 32 a, encExt A, encInts .uint8 32 b, P 6, P 7, P 8, P 9], 10, [], w⟩ =
      .ok (dmEnv, .next) ⟨dmMem c a b A r (o.slide (again a)) (o.slide (again b)) (fun j => if j = 0 then o.cached c.d2 A else cached0) (o.double A)
        ext0 (o.ext (o.double A)) 0 [], 10, [], w⟩ := by
  krfl

/-- The parts of the first loop. -/
noncomputable def dmOdd : Option Stmt × Option Expr × Option Stmt × List Stmt :=
  Stmt.loopParts edwards.GeDoubleScalarMultVartime.body[10]?

def dmOddEnv : Env := (id!"i", .var ⟨21, []⟩) :: Env.enter dmEnv

set_option maxRecDepth 100000 in
theorem dm_odd_step (o : DOps) (c : G6) (a b : Nat → Int) (A : Ext) (r : Proj) (as bs : Digits) (f : Nat → Cached) (t : Comp) (u A2 : Ext)
    (w : ω) (j : Nat) (hj : j < 7) :
    condOpt (interpK (progs 6) (o.table.known 6) 100) ⟨pkg, dmOddEnv⟩ dmOdd.2.1
        ⟨dmMem c a b A r as bs f t u A2 0 [.int .int (j : Int)], 10, [], w⟩ =
        .ok true ⟨dmMem c a b A r as bs f t u A2 0 [.int .int (j : Int)], 10, [], w⟩ ∧
      bodyPost (interpK (progs 6) (o.table.known 6) 100) ⟨pkg, dmOddEnv⟩ dmOdd.2.2.2 dmOdd.2.2.1
        ⟨dmMem c a b A r as bs f t u A2 0 [.int .int (j : Int)], 10, [], w⟩ =
        .ok .next ⟨dmMem c a b A r as bs (fun i => if i = j + 1 then o.cached c.d2 (o.ext (o.add A2 (f j))) else f i)
          (o.add A2 (f j)) (o.ext (o.add A2 (f j))) A2 0 [.int .int ((j + 1 : Nat) : Int)], 10, [], w⟩ := by
  match j, hj with
  | 0, _ => exact ⟨by krfl, by krfl⟩
  | 1, _ => exact ⟨by krfl, by krfl⟩
  | 2, _ => exact ⟨by krfl, by krfl⟩
  | 3, _ => exact ⟨by krfl, by krfl⟩
  | 4, _ => exact ⟨by krfl, by krfl⟩
  | 5, _ => exact ⟨by krfl, by krfl⟩
  | 6, _ => exact ⟨by krfl, by krfl⟩
  | n + 7, h => exact absurd h (by omega)

/-- The odd multiples. -/
def oddAt (d2 : Fe) (A2 : Ext) (p : Cached) : Nat → Cached
  | 0 => p
  | j + 1 => cachedOf d2 (geAdd A2 (oddAt d2 A2 p j)).toExt

/-- The first of them. -/
def oddUpTo (d2 : Fe) (A2 : Ext) (p : Cached) (j : Nat) : Nat → Cached := fun i => if i ≤ j then oddAt d2 A2 p i else cached0

theorem oddUpTo_succ (d2 : Fe) (A2 : Ext) (p : Cached) (j : Nat) :
    (fun i => if i = j + 1 then cachedOf d2 (geAdd A2 (oddUpTo d2 A2 p j j)).toExt else oddUpTo d2 A2 p j i) =
      oddUpTo d2 A2 p (j + 1) := by
  funext i
  unfold oddUpTo
  by_cases h : i = j + 1
  · subst h
    rw [if_pos rfl, if_pos (Nat.le_refl _), if_pos (Nat.le_refl _)]
    rfl
  · rw [if_neg h]
    by_cases h' : i ≤ j
    · rw [if_pos h', if_pos (by omega)]
    · rw [if_neg h', if_neg (by omega)]

set_option maxRecDepth 100000 in
theorem dm_odd_iter (c : G6) (a b : Nat → Int) (A : Ext) (r : Proj) (as bs : Digits) (A2 : Ext) (p : Cached) (w : ω) (k j : Nat)
    (hj : k + j = 7) (t : Comp) (u : Ext) :
    ∃ t' u', (interp (progs 6) (800 + k + 1)).iter ⟨pkg, dmOddEnv⟩ dmOdd.2.1 dmOdd.2.2.1 dmOdd.2.2.2
      ⟨dmMem c a b A r as bs (oddUpTo c.d2 A2 p j) t u A2 0 [.int .int (j : Int)], 10, [], w⟩ =
      .ok .next ⟨dmMem c a b A r as bs (oddUpTo c.d2 A2 p 7) t' u' A2 0 [.int .int 7], 10, [], w⟩ := by
  induction k generalizing j t u with
  | zero =>
    refine ⟨t, u, ?_⟩
    obtain rfl : j = 7 := by omega
    exact iter_done (theDOps_ok.condOpt (n := 100) (by decide) (by krfl))
  | succ k ih =>
    obtain ⟨h1, h2⟩ := dm_odd_step theDOps c a b A r as bs (oddUpTo c.d2 A2 p j) t u A2 w j (by omega)
    obtain ⟨t', u', e1⟩ := ih (j + 1) (by omega) (geAdd A2 (oddUpTo c.d2 A2 p j j)) (geAdd A2 (oddUpTo c.d2 A2 p j j)).toExt
    refine ⟨t', u', ?_⟩
    rw [show 800 + (k + 1) + 1 = (800 + k + 1) + 1 by omega]
    refine iter_step' (theDOps_ok.condOpt (by omega) h1) (theDOps_ok.bodyPost (by omega) h2) ?_
    rw [← e1, ← oddUpTo_succ]
    rfl

set_option maxRecDepth 100000 in
theorem dm_zero (c : G6) (a b : Nat → Int) (A : Ext) (r : Proj) (as bs : Digits) (f : Nat → Cached) (t : Comp) (u A2 : Ext) (w : ω) :
    execsEnv (interpK (progs 6) (theDOps.table.known 6) 100) ⟨pkg, dmEnv⟩ ((edwards.GeDoubleScalarMultVartime.body.drop 11).take 1)
      ⟨dmMem c a b A r as bs f t u A2 0 [.int .int 7], 10, [], w⟩ =
      .ok (dmEnv, .next) ⟨dmMem c a b A ⟨c.zero, oneOf c.zero, oneOf c.zero⟩ as bs f t u A2 0 [.int .int 7], 10, [], w⟩ := by
  krfl

/-! ### The loop that skips zeros, and the last loop -/

def xAt (x : Id) : Expr := .idx (.id x) (.id id!"i")
def xHalf (e : Expr) : Expr := .bin .div e (.num 2)
def stToExt : Stmt := .expr (.call (.sel (.id id!"t") id!"ToExtended") [.addr (.id id!"u")])
def stCall (f tab : Id) (e : Expr) : Stmt :=
  .expr (.call (.id f) [.addr (.id id!"t"), .addr (.id id!"u"), .addr (.idx (.id tab) (xHalf e))])

/-- edwards25519.go:910-916 and 918-924 -/
def stDigit (x tab add sub : Id) : Stmt :=
  .ite none (.bin .gt (xAt x) (.num 0)) [stToExt, stCall add tab (xAt x)]
    [.ite none (.bin .lt (xAt x) (.num 0)) [stToExt, stCall sub tab (.un .neg (xAt x))] []]

def stDouble : Stmt := .expr (.call (.sel (.id id!"r") id!"Double") [.addr (.id id!"t")])
def stToProj : Stmt := .expr (.call (.sel (.id id!"t") id!"ToProjective") [.id id!"r"])
def xGe : Expr := .bin .ge (.id id!"i") (.num 0)
def stDec : Stmt := .opAssign .sub (.id id!"i") (.num 1)

/-- edwards25519.go:902-904 -/
def stSkip : Stmt := .ite none (.bin .lor (.bin .ne (xAt id!"aSlide") (.num 0)) (.bin .ne (xAt id!"bSlide") (.num 0))) [.brk] []

/-- edwards25519.go:908-926 -/
def mainBody : List Stmt :=
  [stDouble, stDigit id!"aSlide" id!"Ai" id!"geAdd" id!"geSub", stDigit id!"bSlide" id!"bi" id!"geMixedAdd" id!"geMixedSub", stToProj]

theorem double_text : edwards.GeDoubleScalarMultVartime.body.drop 12 =
    [.loop (some (.assign [.id id!"i"] [.num 255])) (some xGe) (some stDec) [stSkip], .loop none (some xGe) (some stDec) mainBody] := by
  krfl

section

variable {c : Ctx} {s : St ω} {n : Nat} {Pr : Prog ω}

theorem ex_at {x : Id} {j ib : Nat} {as : Digits} {k : Nat} (hx : Pr.find c x = some (.var ⟨j, []⟩))
    (hi : Pr.find c id!"i" = some (.var ⟨ib, []⟩)) (ha : s.mem[j]? = some (encInts .int8 256 as)) (ni : Num s.mem ib k) (hk : k < 256) :
    (interp Pr (n + 3)).expr c (xAt x) s = .ok (.int .int8 (as k)) s := by
  refine expr_idx (l := ⟨j, [.idx k]⟩) ?_ ?_
  · exact loc_idx_arr (I := interp Pr (n + 1)) (l := ⟨j, []⟩) (vs := (List.range 256).map fun i => .int .int8 (as i)) (k := (k : Int))
      (expr_id hx (get_top ha)) (loc_id hx) (ex_int hi ni) (by omega) (by simp; omega)
  · unfold Loc.get
    simp only [ha]
    exact encInts_get hk

theorem ex_ge {ib : Nat} {k : Int} (hi : Pr.find c id!"i" = some (.var ⟨ib, []⟩)) (ni : Num s.mem ib k) :
    (interp Pr (n + 2)).expr c xGe s = .ok (.bool (decide (k ≥ 0))) s :=
  expr_bin nofun nofun (ex_int hi ni) (y := .int .untyped 0) rfl rfl

theorem st_dec {ib : Nat} {k : Int} (hi : Pr.find c id!"i" = some (.var ⟨ib, []⟩)) (ni : Num s.mem ib k) (h0 : 0 ≤ k) (h1 : k < 256) :
    (interp Pr (n + 2)).stmt c stDec s = .ok (c.env, .next) { s with mem := s.mem.set ib (.int .int (k - 1)) } := by
  refine stmt_opAssign (loc_id hi) (get_top ni) (y := .int .untyped 1) rfl (z := .int .int (ITy.int.wrap (k - 1))) rfl ?_
  rw [wrap_int (by omega) (by omega)]
  exact store_int ni

end

def dmLoop : Ctx := ⟨pkg, dmEnv.enter⟩

/-- edwards25519.go:901-905, without the first statement. -/
theorem skip_iter (c : G6) (a b : Nat → Int) (A : Ext) (r : Proj) (as bs : Digits) (f : Nat → Cached) (t : Comp) (u A2 : Ext)
    (rest : List Val) (w : ω) (k : Nat) (hk : k ≤ 256) {N : Nat} (hN : k + 20 ≤ N) :
    (interp (progs 6) N).iter dmLoop (some xGe) (some stDec) [stSkip]
      ⟨dmMem c a b A r as bs f t u A2 ((k : Int) - 1) rest, 10, [], w⟩ =
      .ok .next ⟨dmMem c a b A r as bs f t u A2 ((topDigit as bs k : Int) - 1) rest, 10, [], w⟩ := by
  induction k generalizing N with
  | zero =>
    obtain ⟨N, rfl⟩ : ∃ N', N = N' + 20 := ⟨N - 20, by omega⟩
    have hc : condOpt (interp (progs 6) (N + 19)) dmLoop (some xGe)
        ⟨dmMem c a b A r as bs f t u A2 (((0 : Nat) : Int) - 1) rest, 10, [], w⟩ =
        .ok (decide ((((0 : Nat) : Int) - 1) ≥ 0)) ⟨dmMem c a b A r as bs f t u A2 (((0 : Nat) : Int) - 1) rest, 10, [], w⟩ :=
      cond_ok (ex_ge (n := N + 17) (ib := 20) rfl (show Num _ 20 _ from rfl))
    exact iter_done hc
  | succ k ih =>
    obtain ⟨N, rfl⟩ : ∃ N', N = N' + 20 + 1 := ⟨N - 21, by omega⟩
    have e : ((k + 1 : Nat) : Int) - 1 = k := by omega
    rw [e]
    have hc : condOpt (interp (progs 6) (N + 20)) dmLoop (some xGe) ⟨dmMem c a b A r as bs f t u A2 k rest, 10, [], w⟩ =
        .ok true ⟨dmMem c a b A r as bs f t u A2 k rest, 10, [], w⟩ := by
      rw [show true = decide ((k : Int) ≥ 0) by simp]
      exact cond_ok (ex_ge (ib := 20) rfl rfl)
    have hx : (interp (progs 6) (N + 19)).expr ⟨pkg, dmEnv.enter.enter.enter⟩
        (.bin .lor (.bin .ne (xAt id!"aSlide") (.num 0)) (.bin .ne (xAt id!"bSlide") (.num 0)))
        ⟨dmMem c a b A r as bs f t u A2 k rest, 10, [], w⟩ =
        .ok (.bool (decide (as k ≠ 0) || decide (bs k ≠ 0))) ⟨dmMem c a b A r as bs f t u A2 k rest, 10, [], w⟩ := by
      refine expr_lor ?_ fun _ => ?_
      · exact expr_bin nofun nofun (ex_at (n := N + 14) (j := 14) (ib := 20) rfl rfl rfl rfl (by omega)) (y := .int .untyped 0) rfl rfl
      · exact expr_bin nofun nofun (ex_at (n := N + 14) (j := 15) (ib := 20) rfl rfl rfl rfl (by omega)) (y := .int .untyped 0) rfl rfl
    by_cases h : as k ≠ 0 ∨ bs k ≠ 0
    · have : (decide (as k ≠ 0) || decide (bs k ≠ 0)) = true := by simpa using h
      rw [this] at hx
      rw [topDigit, if_pos h, e]
      refine iter_break hc ?_
      exact execs_last (env := dmEnv.enter.enter) (stmt_if hx (execs_last rfl))
    · have h' : (decide (as k ≠ 0) || decide (bs k ≠ 0)) = false := by
        simp only [not_or] at h
        simp [not_not.1 h.1, not_not.1 h.2]
      rw [h'] at hx
      rw [topDigit, if_neg h, ← ih (by omega) (N := N + 20) (by omega)]
      refine iter_step hc (s1 := ⟨dmMem c a b A r as bs f t u A2 k rest, 10, [], w⟩) ?_
        (stmtOpt_some (st_dec (ib := 20) rfl rfl (by omega) (by omega))) rfl
      exact execs_last (env := dmEnv.enter.enter) (stmt_if hx rfl)

/-! #### One digit -/

/-- A digit in range. -/
def Small (x : Int) : Prop := -15 ≤ x ∧ x ≤ 15

theorem half_pos {x : Int} (h : 0 < x) (h' : Small x) : ITy.int8.wrap (x.tdiv 2) = ((x / 2).toNat : Nat) ∧ (x / 2).toNat < 8 := by
  obtain ⟨h1, h2⟩ := h'
  have : x.tdiv 2 = x / 2 := Int.tdiv_eq_ediv_of_nonneg (by omega)
  rw [this]
  constructor
  · show Int.bmod (x / 2) (2 ^ 8) = _
    rw [Int.bmod_def]
    omega
  · omega

theorem neg_small {x : Int} (h' : Small x) : ITy.int8.wrap (-x) = -x := by
  obtain ⟨h1, h2⟩ := h'
  show Int.bmod (-x) (2 ^ 8) = _
  rw [Int.bmod_def]
  omega

/-- What a function with a pointer to a point in `Ai` does. -/
def effOwn (op : Ext → Cached → Comp) : G0 → Comp → Ext → Cached → List Int → Option Effect :=
  fun _ _ p q => plainly ([(0, encComp (op p q))], [])

/-- What a function with a pointer to a point in `bi` does. -/
def effBase (op : Ext → Pre → Comp) : G0 → Comp → Ext → Pre → List Int → Option Effect :=
  fun _ _ p q => plainly ([(0, encComp (op p q))], [])

set_option maxRecDepth 100000 in
theorem own_summary (op : Ext → Cached → Comp) (c : G6) (a b : Nat → Int) (A : Ext) (r : Proj) (as bs : Digits) (f : Nat → Cached)
    (t : Comp) (u A2 : Ext) (i : Int) (rest : List Val) (w : ω) (d : Nat) (hd : d < 8) :
    (summary 0 (shape3 (effOwn op)) [.ptr ⟨17, []⟩, .ptr ⟨18, []⟩, .ptr ⟨16, [.idx d]⟩] : M ω (List Val))
      ⟨dmMem c a b A r as bs f t u A2 i rest, 10, [], w⟩ = .ok [] ⟨dmMem c a b A r as bs f (op u (f d)) u A2 i rest, 10, [], w⟩ := by
  match d, hd with
  | 0, _ => krfl
  | 1, _ => krfl
  | 2, _ => krfl
  | 3, _ => krfl
  | 4, _ => krfl
  | 5, _ => krfl
  | 6, _ => krfl
  | 7, _ => krfl
  | k + 8, h => omega

set_option maxRecDepth 100000 in
theorem base_summary (op : Ext → Pre → Comp) (c : G6) (a b : Nat → Int) (A : Ext) (r : Proj) (as bs : Digits) (f : Nat → Cached)
    (t : Comp) (u A2 : Ext) (i : Int) (rest : List Val) (w : ω) (d : Nat) (hd : d < 8) :
    (summary 0 (shape3 (effBase op)) [.ptr ⟨17, []⟩, .ptr ⟨18, []⟩, .ptr ⟨5, [.idx d]⟩] : M ω (List Val))
      ⟨dmMem c a b A r as bs f t u A2 i rest, 10, [], w⟩ = .ok [] ⟨dmMem c a b A r as bs f (op u (c.bi d)) u A2 i rest, 10, [], w⟩ := by
  match d, hd with
  | 0, _ => krfl
  | 1, _ => krfl
  | 2, _ => krfl
  | 3, _ => krfl
  | 4, _ => krfl
  | 5, _ => krfl
  | 6, _ => krfl
  | 7, _ => krfl
  | k + 8, h => omega

/-- `f(&t, &u, &tab[e/2])` -/
theorem st_call {cx : Ctx} {f tab : Id} {e : Expr} {jt d : Nat} {fn : Func} {v : Int} {vs : List Val} {s s' : St ω} {n : Nat}
    (hp : cx.pkg = pkg)
    (ht : (progs 6 : Prog ω).find cx id!"t" = some (.var ⟨17, []⟩)) (hu : (progs 6 : Prog ω).find cx id!"u" = some (.var ⟨18, []⟩))
    (htab : (progs 6 : Prog ω).find cx tab = some (.var ⟨jt, []⟩)) (hf : (progs 6 : Prog ω).find cx f = none)
    (hb : isBuiltin f = false) (hn : namesType f = false) {k : Pkg} (hk : (progs 6 : Prog ω).pkgs.lookup pkg = some k)
    (hfn : k.funcs.lookup f = some fn) (hv : s.mem[jt]? = some (.arr vs)) (hl : vs.length = 8)
    (he : (interp (progs 6) (n + 3)).expr cx e s = .ok (.int .int8 v) s) (hd : ITy.int8.wrap (v.tdiv 2) = (d : Nat)) (hd8 : d < 8)
    (hc : (interp (progs 6) (n + 6)).call pkg fn [.ptr ⟨17, []⟩, .ptr ⟨18, []⟩, .ptr ⟨jt, [.idx d]⟩] s = .ok [] s') :
    (interp (progs 6) (n + 8)).stmt cx (stCall f tab e) s = .ok (cx.env, .next) s' := by
  refine stmt_expr (vs := []) ?_
  refine multi_call (I := interp (progs 6) (n + 6)) (t := s) hf hb hn (by rw [hp]; exact hk) hfn ?_ (by rw [hp]; exact hc)
  refine evals_cons (expr_addr_id (I := interp (progs 6) (n + 5)) (loc_id ht)) ?_
  refine evals_cons (expr_addr_id (I := interp (progs 6) (n + 5)) (loc_id hu)) ?_
  refine evals_cons ?_ evals_nil
  refine expr_addr_idx (I := interp (progs 6) (n + 5)) ?_
  have e1 : (interp (progs 6) (n + 4)).expr cx (xHalf e) s = .ok (.int .int8 (d : Int)) s := by
    refine expr_bin (I := interp (progs 6) (n + 3)) nofun nofun he (y := .int .untyped 2) rfl ?_
    rw [← hd]
    rfl
  exact loc_idx_arr (I := interp (progs 6) (n + 4)) (l := ⟨jt, []⟩) (expr_id htab (get_top hv)) (loc_id htab) e1 (by omega)
    (by rw [hl]; omega)

/-- edwards25519.go:910-916 -/
def rawOwn (f : Nat → Cached) (x : Int) (t : Comp) : Comp :=
  if 0 < x then geAdd t.toExt (f (x / 2).toNat) else if x < 0 then geSub t.toExt (f (-x / 2).toNat) else t

/-- edwards25519.go:918-924 -/
def rawBase (f : Nat → Pre) (x : Int) (t : Comp) : Comp :=
  if 0 < x then geMixedAdd t.toExt (f (x / 2).toNat) else if x < 0 then geMixedSub t.toExt (f (-x / 2).toNat) else t

def dm2 : Env := dmEnv.enter.enter
def dm4 : Env := dm2.enter.enter
def dm6 : Env := dm4.enter.enter

set_option maxRecDepth 100000 in
theorem toExt_4 (o : DOps) (c : G6) (a b : Nat → Int) (A : Ext) (r : Proj) (as bs : Digits) (f : Nat → Cached) (t : Comp) (u A2 : Ext)
    (i : Int) (rest : List Val) (w : ω) :
    execsEnv (interpK (progs 6) (o.table.known 6) 100) ⟨pkg, dm4⟩ [stToExt] ⟨dmMem c a b A r as bs f t u A2 i rest, 10, [], w⟩ =
      .ok (dm4, .next) ⟨dmMem c a b A r as bs f t (o.ext t) A2 i rest, 10, [], w⟩ := by
  krfl

set_option maxRecDepth 100000 in
theorem toExt_6 (o : DOps) (c : G6) (a b : Nat → Int) (A : Ext) (r : Proj) (as bs : Digits) (f : Nat → Cached) (t : Comp) (u A2 : Ext)
    (i : Int) (rest : List Val) (w : ω) :
    execsEnv (interpK (progs 6) (o.table.known 6) 100) ⟨pkg, dm6⟩ [stToExt] ⟨dmMem c a b A r as bs f t u A2 i rest, 10, [], w⟩ =
      .ok (dm6, .next) ⟨dmMem c a b A r as bs f t (o.ext t) A2 i rest, 10, [], w⟩ := by
  krfl

set_option maxRecDepth 100000 in
theorem double_2 (o : DOps) (c : G6) (a b : Nat → Int) (A : Ext) (r : Proj) (as bs : Digits) (f : Nat → Cached) (t : Comp) (u A2 : Ext)
    (i : Int) (rest : List Val) (w : ω) :
    execsEnv (interpK (progs 6) (o.table.known 6) 100) ⟨pkg, dm2⟩ [stDouble] ⟨dmMem c a b A r as bs f t u A2 i rest, 10, [], w⟩ =
      .ok (dm2, .next) ⟨dmMem c a b A r as bs f (o.pdouble r) u A2 i rest, 10, [], w⟩ := by
  krfl

set_option maxRecDepth 100000 in
theorem toProj_2 (o : DOps) (c : G6) (a b : Nat → Int) (A : Ext) (r : Proj) (as bs : Digits) (f : Nat → Cached) (t : Comp) (u A2 : Ext)
    (i : Int) (rest : List Val) (w : ω) :
    execs (interpK (progs 6) (o.table.known 6) 100) ⟨pkg, dm2⟩ [stToProj] ⟨dmMem c a b A r as bs f t u A2 i rest, 10, [], w⟩ =
      .ok .next ⟨dmMem c a b A (o.proj t) as bs f t u A2 i rest, 10, [], w⟩ := by
  krfl

/-- A test of a digit. -/
theorem ex_test {op : BinOp} {x : Id} {j k : Nat} {as : Digits} {env : Env} {s : St ω} {n : Nat} {v : Bool}
    (hx : (progs 6 : Prog ω).find ⟨pkg, env⟩ x = some (.var ⟨j, []⟩)) (hi : (progs 6 : Prog ω).find ⟨pkg, env⟩ id!"i" = some (.var ⟨20, []⟩))
    (ha : s.mem[j]? = some (encInts .int8 256 as)) (ni : Num s.mem 20 k) (hk : k < 256) (ho : op ≠ .land) (ho' : op ≠ .lor)
    (h : (binOp op (.int .int8 (as k)) (.int .untyped 0) : M ω Val) s = .ok (.bool v) s) :
    (interp (progs 6) (n + 4)).expr ⟨pkg, env⟩ (.bin op (xAt x) (.num 0)) s = .ok (.bool v) s :=
  expr_bin ho ho' (ex_at hx hi ha ni hk) (y := .int .untyped 0) rfl h

/-- edwards25519.go:910-916 -/
theorem own_step (c : G6) (a b : Nat → Int) (A : Ext) (r : Proj) (as bs : Digits) (f : Nat → Cached) (t : Comp) (u A2 : Ext)
    (rest : List Val) (w : ω) (k : Nat) (hk : k < 256) (hs : Small (as k)) : ∃ u',
    (interp (progs 6) 900).stmt ⟨pkg, dm2⟩ (stDigit id!"aSlide" id!"Ai" id!"geAdd" id!"geSub")
      ⟨dmMem c a b A r as bs f t u A2 k rest, 10, [], w⟩ =
      .ok (dm2, .next) ⟨dmMem c a b A r as bs f (rawOwn f (as k) t) u' A2 k rest, 10, [], w⟩ := by
  unfold stDigit rawOwn
  by_cases h1 : 0 < as k
  · rw [if_pos h1]
    obtain ⟨e1, e2⟩ := half_pos h1 hs
    refine ⟨t.toExt, ?_⟩
    refine stmt_if (c := ⟨pkg, dm2⟩) (I := interp (progs 6) 899) (b := true)
      (ex_test (n := 895) (j := 14) (k := k) (as := as) rfl rfl rfl rfl hk nofun nofun (by rw [← decide_eq_true h1]; rfl)) ?_
    refine execs_append (theDOps_ok.execsEnv (by decide) (toExt_4 theDOps c a b A r as bs f t u A2 k rest w)) ?_
    refine execs_last (env := dm4) ?_
    refine st_call (cx := ⟨pkg, dm4⟩) (n := 891) (jt := 16) (fn := edwards.geAdd) rfl rfl rfl rfl rfl rfl rfl rfl rfl rfl rfl
      (ex_at (n := 891) (j := 14) (ib := 20) rfl rfl rfl rfl hk) e1 e2 ?_
    exact ((GeAdd_right.more (by decide)) 6 (by decide) _).ok (own_summary geAdd c a b A r as bs f t t.toExt A2 k rest w _ e2)
  · rw [if_neg h1]
    by_cases h2 : as k < 0
    · rw [if_pos h2]
      have hs' : Small (-as k) := ⟨by have := hs.2; omega, by have := hs.1; omega⟩
      obtain ⟨e1, e2⟩ := half_pos (by omega : 0 < -as k) hs'
      refine ⟨t.toExt, ?_⟩
      refine stmt_if (c := ⟨pkg, dm2⟩) (I := interp (progs 6) 899) (b := false)
        (ex_test (n := 895) (j := 14) (k := k) (as := as) rfl rfl rfl rfl hk nofun nofun (by rw [← decide_eq_false h1]; rfl)) ?_
      refine execs_last (env := dm4) ?_
      refine stmt_if (c := ⟨pkg, dm4⟩) (I := interp (progs 6) 898) (b := true)
        (ex_test (n := 894) (j := 14) (k := k) (as := as) rfl rfl rfl rfl hk nofun nofun (by rw [← decide_eq_true h2]; rfl)) ?_
      refine execs_append (theDOps_ok.execsEnv (by decide) (toExt_6 theDOps c a b A r as bs f t u A2 k rest w)) ?_
      refine execs_last (env := dm6) ?_
      refine st_call (cx := ⟨pkg, dm6⟩) (n := 890) (jt := 16) (fn := edwards.geSub) (v := -as k) rfl rfl rfl rfl rfl rfl rfl rfl rfl rfl rfl
        (expr_un (I := interp (progs 6) 892) (ex_at (n := 889) (j := 14) (ib := 20) (k := k) (as := as) rfl rfl rfl rfl hk)
          (by rw [← neg_small hs]; rfl)) e1 e2 ?_
      exact ((GeSub_right.more (by decide)) 6 (by decide) _).ok (own_summary geSub c a b A r as bs f t t.toExt A2 k rest w _ e2)
    · rw [if_neg h2]
      refine ⟨u, ?_⟩
      refine stmt_if (c := ⟨pkg, dm2⟩) (I := interp (progs 6) 899) (b := false)
        (ex_test (n := 895) (j := 14) (k := k) (as := as) rfl rfl rfl rfl hk nofun nofun (by rw [← decide_eq_false h1]; rfl)) ?_
      refine execs_last (env := dm4) ?_
      exact stmt_if (c := ⟨pkg, dm4⟩) (I := interp (progs 6) 898) (b := false)
        (ex_test (n := 894) (j := 14) (k := k) (as := as) rfl rfl rfl rfl hk nofun nofun (by rw [← decide_eq_false h2]; rfl)) rfl

/-- edwards25519.go:918-924 -/
theorem base_step (c : G6) (a b : Nat → Int) (A : Ext) (r : Proj) (as bs : Digits) (f : Nat → Cached) (t : Comp) (u A2 : Ext)
    (rest : List Val) (w : ω) (k : Nat) (hk : k < 256) (hs : Small (bs k)) : ∃ u',
    (interp (progs 6) 900).stmt ⟨pkg, dm2⟩ (stDigit id!"bSlide" id!"bi" id!"geMixedAdd" id!"geMixedSub")
      ⟨dmMem c a b A r as bs f t u A2 k rest, 10, [], w⟩ =
      .ok (dm2, .next) ⟨dmMem c a b A r as bs f (rawBase c.bi (bs k) t) u' A2 k rest, 10, [], w⟩ := by
  unfold stDigit rawBase
  by_cases h1 : 0 < bs k
  · rw [if_pos h1]
    obtain ⟨e1, e2⟩ := half_pos h1 hs
    refine ⟨t.toExt, ?_⟩
    refine stmt_if (c := ⟨pkg, dm2⟩) (I := interp (progs 6) 899) (b := true)
      (ex_test (n := 895) (j := 15) (k := k) (as := bs) rfl rfl rfl rfl hk nofun nofun (by rw [← decide_eq_true h1]; rfl)) ?_
    refine execs_append (theDOps_ok.execsEnv (by decide) (toExt_4 theDOps c a b A r as bs f t u A2 k rest w)) ?_
    refine execs_last (env := dm4) ?_
    refine st_call (cx := ⟨pkg, dm4⟩) (n := 891) (jt := 5) (fn := edwards.geMixedAdd) rfl rfl rfl rfl rfl rfl rfl rfl rfl rfl rfl
      (ex_at (n := 891) (j := 15) (ib := 20) rfl rfl rfl rfl hk) e1 e2 ?_
    exact ((GeMixedAdd_right.more (by decide)) 6 (by decide) _).ok (base_summary geMixedAdd c a b A r as bs f t t.toExt A2 k rest w _ e2)
  · rw [if_neg h1]
    by_cases h2 : bs k < 0
    · rw [if_pos h2]
      have hs' : Small (-bs k) := ⟨by have := hs.2; omega, by have := hs.1; omega⟩
      obtain ⟨e1, e2⟩ := half_pos (by omega : 0 < -bs k) hs'
      refine ⟨t.toExt, ?_⟩
      refine stmt_if (c := ⟨pkg, dm2⟩) (I := interp (progs 6) 899) (b := false)
        (ex_test (n := 895) (j := 15) (k := k) (as := bs) rfl rfl rfl rfl hk nofun nofun (by rw [← decide_eq_false h1]; rfl)) ?_
      refine execs_last (env := dm4) ?_
      refine stmt_if (c := ⟨pkg, dm4⟩) (I := interp (progs 6) 898) (b := true)
        (ex_test (n := 894) (j := 15) (k := k) (as := bs) rfl rfl rfl rfl hk nofun nofun (by rw [← decide_eq_true h2]; rfl)) ?_
      refine execs_append (theDOps_ok.execsEnv (by decide) (toExt_6 theDOps c a b A r as bs f t u A2 k rest w)) ?_
      refine execs_last (env := dm6) ?_
      refine st_call (cx := ⟨pkg, dm6⟩) (n := 890) (jt := 5) (fn := edwards.geMixedSub) (v := -bs k) rfl rfl rfl rfl rfl rfl rfl rfl rfl rfl rfl
        (expr_un (I := interp (progs 6) 892) (ex_at (n := 889) (j := 15) (ib := 20) (k := k) (as := bs) rfl rfl rfl rfl hk)
          (by rw [← neg_small hs]; rfl)) e1 e2 ?_
      exact ((GeMixedSub_right.more (by decide)) 6 (by decide) _).ok (base_summary geMixedSub c a b A r as bs f t t.toExt A2 k rest w _ e2)
    · rw [if_neg h2]
      refine ⟨u, ?_⟩
      refine stmt_if (c := ⟨pkg, dm2⟩) (I := interp (progs 6) 899) (b := false)
        (ex_test (n := 895) (j := 15) (k := k) (as := bs) rfl rfl rfl rfl hk nofun nofun (by rw [← decide_eq_false h1]; rfl)) ?_
      refine execs_last (env := dm4) ?_
      exact stmt_if (c := ⟨pkg, dm4⟩) (I := interp (progs 6) 898) (b := false)
        (ex_test (n := 894) (j := 15) (k := k) (as := bs) rfl rfl rfl rfl hk nofun nofun (by rw [← decide_eq_false h2]; rfl)) rfl

/-- edwards25519.go:907-927 -/
def rawLoop (f : Nat → Cached) (bi : Nat → Pre) (as bs : Digits) : Nat → Proj → Proj
  | 0, r => r
  | i + 1, r => rawLoop f bi as bs i (rawBase bi (bs i) (rawOwn f (as i) r.double)).toProj

theorem main_iter (c : G6) (a b : Nat → Int) (A : Ext) (as bs : Digits) (f : Nat → Cached) (A2 : Ext) (rest : List Val) (w : ω) (k : Nat)
    (hk : k ≤ 256) (hs : ∀ j, j < 256 → Small (as j) ∧ Small (bs j)) (r : Proj) (t : Comp) (u : Ext) : ∃ t' u',
    (interp (progs 6) (901 + k)).iter dmLoop (some xGe) (some stDec) mainBody
      ⟨dmMem c a b A r as bs f t u A2 ((k : Int) - 1) rest, 10, [], w⟩ =
      .ok .next ⟨dmMem c a b A (rawLoop f c.bi as bs k r) as bs f t' u' A2 (-1) rest, 10, [], w⟩ := by
  induction k generalizing r t u with
  | zero =>
    refine ⟨t, u, ?_⟩
    have hc : condOpt (interp (progs 6) 900) dmLoop (some xGe)
        ⟨dmMem c a b A r as bs f t u A2 (((0 : Nat) : Int) - 1) rest, 10, [], w⟩ =
        .ok (decide ((((0 : Nat) : Int) - 1) ≥ 0)) ⟨dmMem c a b A r as bs f t u A2 (((0 : Nat) : Int) - 1) rest, 10, [], w⟩ :=
      cond_ok (ex_ge (n := 898) (ib := 20) rfl (show Num _ 20 _ from rfl))
    exact iter_done hc
  | succ k ih =>
    have hk' : k < 256 := by omega
    obtain ⟨u1, e1⟩ := own_step c a b A r as bs f r.double u A2 rest w k hk' (hs k hk').1
    obtain ⟨u2, e2⟩ := base_step c a b A r as bs f (rawOwn f (as k) r.double) u1 A2 rest w k hk' (hs k hk').2
    obtain ⟨t', u', e3⟩ := ih (by omega) (rawBase c.bi (bs k) (rawOwn f (as k) r.double)).toProj
      (rawBase c.bi (bs k) (rawOwn f (as k) r.double)) u2
    refine ⟨t', u', ?_⟩
    rw [show ((k + 1 : Nat) : Int) - 1 = k by omega, show 901 + (k + 1) = (901 + k) + 1 by omega]
    have hc : condOpt (interp (progs 6) (901 + k)) dmLoop (some xGe) ⟨dmMem c a b A r as bs f t u A2 k rest, 10, [], w⟩ =
        .ok true ⟨dmMem c a b A r as bs f t u A2 k rest, 10, [], w⟩ := by
      rw [show true = decide ((k : Int) ≥ 0) by simp, show 901 + k = (899 + k) + 2 by omega]
      exact cond_ok (ex_ge (n := 899 + k) (ib := 20) rfl rfl)
    refine iter_step hc (s1 := ⟨dmMem c a b A (rawBase c.bi (bs k) (rawOwn f (as k) r.double)).toProj as bs f
      (rawBase c.bi (bs k) (rawOwn f (as k) r.double)) u2 A2 k rest, 10, [], w⟩)
      (s2 := ⟨dmMem c a b A (rawBase c.bi (bs k) (rawOwn f (as k) r.double)).toProj as bs f
      (rawBase c.bi (bs k) (rawOwn f (as k) r.double)) u2 A2 ((k : Int) - 1) rest, 10, [], w⟩) ?_ ?_ e3
    · refine (block_mono (interp_mono (.refl _) (show 900 ≤ 901 + k by omega)) _ _).ok ?_
      refine execs_append (theDOps_ok.execsEnv (by decide) (double_2 theDOps c a b A r as bs f t u A2 k rest w)) ?_
      refine execs_one (env := dm2) e1 ?_
      refine execs_one (env := dm2) e2 ?_
      exact theDOps_ok.execs (by decide) (toProj_2 theDOps c a b A r as bs f (rawBase c.bi (bs k) (rawOwn f (as k) r.double)) u2 A2 k rest w)
    · rw [show 901 + k = (899 + k) + 2 by omega]
      exact stmtOpt_some (st_dec (n := 899 + k) (ib := 20) rfl rfl (by omega) (by omega))

/-! ### The call -/

/-- edwards25519.go:879-928 -/
def rawDouble (c : G6) (a : Nat → Int) (A : Ext) (b : Nat → Int) : Proj :=
  rawLoop (oddUpTo c.d2 A.double.toExt (cachedOf c.d2 A) 7) c.bi (rawSlide a) (rawSlide b) (topDigit (rawSlide a) (rawSlide b) 256)
    ⟨c.zero, oneOf c.zero, oneOf c.zero⟩

theorem again_eq (a : Nat → Int) {j : Nat} (h : j < 32) : again a j = a j := by
  have hm : ∀ l : List Int, intsIn .uint8 (l.map (.int .uint8 ·)) = some l := by
    intro l
    induction l with
    | nil => rfl
    | cons a l ih => simp [intsIn, ih]
  have e : decInts .uint8 32 (encInts .uint8 32 a) = some fun i => ((List.range 32).map a).getD i 0 := by
    unfold decInts encInts
    simp only
    rw [show (List.range 32).map (fun i => Val.int .uint8 (a i)) = ((List.range 32).map a).map (.int .uint8 ·) by simp]
    rw [hm]
    simp
  show ((decInts .uint8 32 (encInts .uint8 32 a)).getD fun _ => 0) j = a j
  rw [e]
  simp [h]

theorem rawSlide_again (a : Nat → Int) : rawSlide (again a) = rawSlide a := by
  unfold rawSlide
  congr 1
  funext i
  by_cases h : i < 256
  · rw [if_pos h, if_pos h, again_eq a (by omega)]
  · rw [if_neg h, if_neg h]

attribute [local irreducible] rawSlide in
set_option maxRecDepth 100000 in
theorem double_run (c : G6) (x : Proj) (a : Nat → Int) (A : Ext) (b : Nat → Int) (w : ω)
    (hs : ∀ j, j < 256 → Small (rawSlide a j) ∧ Small (rawSlide b j)) :
    (interp (progs 6) 1301).call pkg edwards.GeDoubleScalarMultVartime [P 6, P 7, P 8, P 9]
      ⟨encL c ++ [encProj x, encInts .uint8 32 a, encExt A, encInts .uint8 32 b], 10, [], w⟩ =
      .ok [] ⟨encL c ++ [encProj (rawDouble c a A b), encInts .uint8 32 a, encExt A, encInts .uint8 32 b], 10, [], w⟩ := by
  have e0 := dm_start theDOps c x a A b w
  rw [show theDOps.slide = rawSlide from rfl, rawSlide_again, rawSlide_again] at e0
  have hf : (fun j => if j = 0 then theDOps.cached c.d2 A else cached0) = oddUpTo c.d2 A.double.toExt (cachedOf c.d2 A) 0 := by
    funext j
    unfold oddUpTo
    by_cases h : j = 0
    · subst h; rfl
    · rw [if_neg h, if_neg (by omega)]
  rw [hf] at e0
  generalize hr : rawDouble c a A b = res
  unfold rawDouble at hr
  generalize rawSlide a = as at *
  generalize rawSlide b = bs at *
  obtain ⟨t1, u1, e1⟩ := dm_odd_iter c a b A x as bs A.double.toExt (cachedOf c.d2 A) w 7 0 rfl A.double ext0
  generalize oddUpTo c.d2 A.double.toExt (cachedOf c.d2 A) 7 = f at *
  have e2 := dm_zero c a b A x as bs f t1 u1 A.double.toExt w
  have e3 := skip_iter c a b A ⟨c.zero, oneOf c.zero, oneOf c.zero⟩ as bs f t1 u1 A.double.toExt [.int .int 7] w 256 (by decide)
    (N := 1299) (by decide)
  have hk : topDigit as bs 256 ≤ 256 := (topDigit_spec as bs 256).1
  generalize topDigit as bs 256 = k at *
  obtain ⟨t2, u2, e4⟩ := main_iter c a b A as bs f A.double.toExt [.int .int 7] w k hk hs ⟨c.zero, oneOf c.zero, oneOf c.zero⟩ t1 u1
  rw [hr] at e4
  have x4 : execs (interp (progs 6) 1300) ⟨pkg, dmEnv⟩ (edwards.GeDoubleScalarMultVartime.body.drop 12)
      ⟨dmMem c a b A ⟨c.zero, oneOf c.zero, oneOf c.zero⟩ as bs f t1 u1 A.double.toExt 0 [.int .int 7], 10, [], w⟩ =
      .ok .next ⟨dmMem c a b A res as bs f t2 u2 A.double.toExt (-1) [.int .int 7], 10, [], w⟩ := by
    rw [double_text]
    exact execs_one (env := dmEnv) (stmt_loop (n := 1299) (c := ⟨pkg, dmEnv⟩) (c' := dmLoop) (theDOps_ok.initial (n := 100) (by decide) (by krfl)) e3)
      (execs_last (env := dmEnv) (stmt_loop (n := 1299) (c := ⟨pkg, dmEnv⟩) (c' := dmLoop) (theDOps_ok.initial (n := 100) (by decide) (by krfl))
        ((interp_mono (.refl _) (by omega)).iter _ _ _ _ |>.ok e4)))
  have x3 : execs (interp (progs 6) 1300) ⟨pkg, dmEnv⟩ (edwards.GeDoubleScalarMultVartime.body.drop 11)
      ⟨dmMem c a b A x as bs f t1 u1 A.double.toExt 0 [.int .int 7], 10, [], w⟩ =
      .ok .next ⟨dmMem c a b A res as bs f t2 u2 A.double.toExt (-1) [.int .int 7], 10, [], w⟩ := by
    refine execs_split 1 (theDOps_ok.execsEnv (by decide) e2) ?_
    rw [List.drop_drop]
    exact x4
  have x2 : execs (interp (progs 6) 1300) ⟨pkg, dmEnv⟩ (edwards.GeDoubleScalarMultVartime.body.drop 10)
      ⟨dmMem c a b A x as bs (oddUpTo c.d2 A.double.toExt (cachedOf c.d2 A) 0) A.double ext0 A.double.toExt 0 [], 10, [], w⟩ =
      .ok .next ⟨dmMem c a b A res as bs f t2 u2 A.double.toExt (-1) [.int .int 7], 10, [], w⟩ := by
    have : edwards.GeDoubleScalarMultVartime.body.drop 10 = .loop dmOdd.1 dmOdd.2.1 dmOdd.2.2.1 dmOdd.2.2.2 ::
      edwards.GeDoubleScalarMultVartime.body.drop 11 := by krfl
    rw [this]
    exact execs_one (env := dmEnv) (stmt_loop (n := 1299) (c := ⟨pkg, dmEnv⟩) (c' := ⟨pkg, dmOddEnv⟩)
      (theDOps_ok.initial (n := 100) (by decide) (by krfl)) ((interp_mono (.refl _) (by decide)).iter _ _ _ _ |>.ok e1)) x3
  have x1 := execs_split 10 (theDOps_ok.execsEnv (m := 1300) (by decide) e0) x2
  have key := call_of_execs (P := progs 6) (n := 1300) (p := pkg) (f := edwards.GeDoubleScalarMultVartime) (vs := [P 6, P 7, P 8, P 9])
    (rs := []) (s := ⟨encL c ++ [encProj x, encInts .uint8 32 a, encExt A, encInts .uint8 32 b], 10, [], w⟩)
    (s1 := ⟨encL c ++ [encProj x, encInts .uint8 32 a, encExt A, encInts .uint8 32 b, P 6, P 7, P 8, P 9], 10, [], w⟩)
    (env := dmEnv0) (ctl := .next) (by krfl) x1 rfl rfl rfl
  exact key.trans rfl

open Classical in
noncomputable def sumDouble : G6 → Proj → B32 → Ext → B32 → List Int → Option Effect := fun c _ a A b l =>
  if ∀ j, j < 256 → Small (rawSlide a j) ∧ Small (rawSlide b j) then plainly ([(6, encProj (rawDouble c a A b))], []) l else none

attribute [local irreducible] rawSlide rawDouble in
theorem Double_right : Right ω 6 (shape4 sumDouble) edwards.GeDoubleScalarMultVartime 1301 := by
  refine shape4_right ?_ ?_
  · intro c x a A b l e h
    unfold sumDouble at h
    split at h
    · obtain ⟨rfl, rfl⟩ := plainly_some h
      exact plain1 rfl
    · cases h
  · intro c x a A b l e w h
    unfold sumDouble at h
    split at h
    · next hs =>
      obtain ⟨rfl, rfl⟩ := plainly_some h
      exact double_run c x a A b w hs
    · cases h

end Verif.Src.EdSrc
