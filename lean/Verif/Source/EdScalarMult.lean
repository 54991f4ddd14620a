/-
`GeScalarMultBase`, edwards25519.go:970-1014: the loops, and the whole function.
-/
import Verif.Source.EdBase

namespace Verif.Src.EdSrc

open Verif.Ed

variable {ω : Type}

/-- Operations on points, left open: the loops do not depend on what they are. -/
structure Ops where
  sel : Fe → List Pre → Int → Pre
  add : Ext → Pre → Comp
  ext : Comp → Ext

def Ops.select (o : Ops) : G5 → Pre → List Int → Option Effect
  | c, _, [.ofNat pos, b] => if pos < 32 then some ([(5, encPre (o.sel c.zero (c.row pos) b))], []) else none
  | _, _, _ => none

/-- A table with these operations. -/
noncomputable def Ops.table (o : Ops) : Table where
  funcs := [(id!"selectPoint", 5, shape1 o.select),
    (id!"geMixedAdd", 0, shape3 fun (_ : G0) (_ : Comp) p q => plainly ([(0, encComp (o.add p q))], []))]
  methods := [((id!"CompletedGroupElement", id!"ToExtended"), 0,
    shape2 fun (_ : G0) p (_ : Ext) => plainly ([(1, encExt (o.ext p))], []))]

def theOps : Ops := ⟨rawSelect, geMixedAdd, Comp.toExt⟩

theorem theOps_ok : theOps.table.Ok ω 500 where
  funcs := by
    simp only [Ops.table, List.forall_mem_cons, List.not_mem_nil, false_imp_iff, implies_true, and_true]
    exact ⟨⟨_, rfl, SelectPoint_right⟩, ⟨_, rfl, GeMixedAdd_right.more (by decide)⟩⟩
  methods := by
    simp only [Ops.table, List.forall_mem_cons, List.not_mem_nil, false_imp_iff, implies_true, and_true]
    exact ⟨_, rfl, CompToExt_right.more (by decide)⟩


/-- One iteration. -/
def addOne (c : G5) (digit : Nat → Int) (h : Ext) (pos : Nat) : Ext :=
  (geMixedAdd h (rawSelect c.zero (c.row pos) (w32 (digit pos)))).toExt

/-- The state of loop one before iteration `j`. -/
def smbOne (c : G5) (a : Nat → Int) (e : Nat → Int) (carry : Int) (h : Ext) (t : Pre) (r : Comp) (j : Nat) (w : ω) : St ω :=
  ⟨smbMem c a h e carry t r ([.int .int32 ((2 * j + 1 : Nat) : Int)]), 7, [], w⟩

def smbOneEnv : Env := (id!"i", .var ⟨16, []⟩) :: Env.enter smbEnv

/-- The parts of the loop. -/
noncomputable def smbOneLoop : Option Stmt × Option Expr × Option Stmt × List Stmt :=
  Stmt.loopParts edwards.GeScalarMultBase.body[8]?

set_option maxRecDepth 100000 in
theorem smbOne_step (o : Ops) (c : G5) (a e : Nat → Int) (carry : Int) (h : Ext) (t : Pre) (r : Comp) (w : ω) (j : Nat) (hj : j < 32) :
    condOpt (interpK (progs 5) (o.table.known 5) 100) ⟨pkg, smbOneEnv⟩ smbOneLoop.2.1 (smbOne c a e carry h t r j w) =
        .ok true (smbOne c a e carry h t r j w) ∧
      bodyPost (interpK (progs 5) (o.table.known 5) 100) ⟨pkg, smbOneEnv⟩ smbOneLoop.2.2.2 smbOneLoop.2.2.1
        (smbOne c a e carry h t r j w) =
        .ok .next (smbOne c a e carry (o.ext (o.add h (o.sel c.zero (c.row j) (w32 (e (2 * j + 1))))))
          (o.sel c.zero (c.row j) (w32 (e (2 * j + 1))))
          (o.add h (o.sel c.zero (c.row j) (w32 (e (2 * j + 1))))) (j + 1) w) := by
  match j, hj with
  | 0, _ => exact ⟨by krfl, by krfl⟩
  | 1, _ => exact ⟨by krfl, by krfl⟩
  | 2, _ => exact ⟨by krfl, by krfl⟩
  | 3, _ => exact ⟨by krfl, by krfl⟩
  | 4, _ => exact ⟨by krfl, by krfl⟩
  | 5, _ => exact ⟨by krfl, by krfl⟩
  | 6, _ => exact ⟨by krfl, by krfl⟩
  | 7, _ => exact ⟨by krfl, by krfl⟩
  | 8, _ => exact ⟨by krfl, by krfl⟩
  | 9, _ => exact ⟨by krfl, by krfl⟩
  | 10, _ => exact ⟨by krfl, by krfl⟩
  | 11, _ => exact ⟨by krfl, by krfl⟩
  | 12, _ => exact ⟨by krfl, by krfl⟩
  | 13, _ => exact ⟨by krfl, by krfl⟩
  | 14, _ => exact ⟨by krfl, by krfl⟩
  | 15, _ => exact ⟨by krfl, by krfl⟩
  | 16, _ => exact ⟨by krfl, by krfl⟩
  | 17, _ => exact ⟨by krfl, by krfl⟩
  | 18, _ => exact ⟨by krfl, by krfl⟩
  | 19, _ => exact ⟨by krfl, by krfl⟩
  | 20, _ => exact ⟨by krfl, by krfl⟩
  | 21, _ => exact ⟨by krfl, by krfl⟩
  | 22, _ => exact ⟨by krfl, by krfl⟩
  | 23, _ => exact ⟨by krfl, by krfl⟩
  | 24, _ => exact ⟨by krfl, by krfl⟩
  | 25, _ => exact ⟨by krfl, by krfl⟩
  | 26, _ => exact ⟨by krfl, by krfl⟩
  | 27, _ => exact ⟨by krfl, by krfl⟩
  | 28, _ => exact ⟨by krfl, by krfl⟩
  | 29, _ => exact ⟨by krfl, by krfl⟩
  | 30, _ => exact ⟨by krfl, by krfl⟩
  | 31, _ => exact ⟨by krfl, by krfl⟩
  | n + 32, h => exact absurd h (by omega)

/-- The state of loop two before iteration `j`. -/
def smbTwo (c : G5) (a : Nat → Int) (e : Nat → Int) (carry : Int) (s : Proj) (h : Ext) (t : Pre) (r : Comp) (j : Nat) (w : ω) : St ω :=
  ⟨smbMem c a h e carry t r (.int .int32 65 :: encProj s :: [.int .int32 ((2 * j + 0 : Nat) : Int)]), 7, [], w⟩

def smbTwoEnv : Env := (id!"i", .var ⟨18, []⟩) :: Env.enter ((id!"s", .var ⟨17, []⟩) :: smbEnv)

/-- The parts of the loop. -/
noncomputable def smbTwoLoop : Option Stmt × Option Expr × Option Stmt × List Stmt :=
  Stmt.loopParts edwards.GeScalarMultBase.body[18]?

set_option maxRecDepth 100000 in
theorem smbTwo_step (o : Ops) (c : G5) (a e : Nat → Int) (carry : Int) (s : Proj) (h : Ext) (t : Pre) (r : Comp) (w : ω) (j : Nat) (hj : j < 32) :
    condOpt (interpK (progs 5) (o.table.known 5) 100) ⟨pkg, smbTwoEnv⟩ smbTwoLoop.2.1 (smbTwo c a e carry s h t r j w) =
        .ok true (smbTwo c a e carry s h t r j w) ∧
      bodyPost (interpK (progs 5) (o.table.known 5) 100) ⟨pkg, smbTwoEnv⟩ smbTwoLoop.2.2.2 smbTwoLoop.2.2.1
        (smbTwo c a e carry s h t r j w) =
        .ok .next (smbTwo c a e carry s (o.ext (o.add h (o.sel c.zero (c.row j) (w32 (e (2 * j + 0))))))
          (o.sel c.zero (c.row j) (w32 (e (2 * j + 0))))
          (o.add h (o.sel c.zero (c.row j) (w32 (e (2 * j + 0))))) (j + 1) w) := by
  match j, hj with
  | 0, _ => exact ⟨by krfl, by krfl⟩
  | 1, _ => exact ⟨by krfl, by krfl⟩
  | 2, _ => exact ⟨by krfl, by krfl⟩
  | 3, _ => exact ⟨by krfl, by krfl⟩
  | 4, _ => exact ⟨by krfl, by krfl⟩
  | 5, _ => exact ⟨by krfl, by krfl⟩
  | 6, _ => exact ⟨by krfl, by krfl⟩
  | 7, _ => exact ⟨by krfl, by krfl⟩
  | 8, _ => exact ⟨by krfl, by krfl⟩
  | 9, _ => exact ⟨by krfl, by krfl⟩
  | 10, _ => exact ⟨by krfl, by krfl⟩
  | 11, _ => exact ⟨by krfl, by krfl⟩
  | 12, _ => exact ⟨by krfl, by krfl⟩
  | 13, _ => exact ⟨by krfl, by krfl⟩
  | 14, _ => exact ⟨by krfl, by krfl⟩
  | 15, _ => exact ⟨by krfl, by krfl⟩
  | 16, _ => exact ⟨by krfl, by krfl⟩
  | 17, _ => exact ⟨by krfl, by krfl⟩
  | 18, _ => exact ⟨by krfl, by krfl⟩
  | 19, _ => exact ⟨by krfl, by krfl⟩
  | 20, _ => exact ⟨by krfl, by krfl⟩
  | 21, _ => exact ⟨by krfl, by krfl⟩
  | 22, _ => exact ⟨by krfl, by krfl⟩
  | 23, _ => exact ⟨by krfl, by krfl⟩
  | 24, _ => exact ⟨by krfl, by krfl⟩
  | 25, _ => exact ⟨by krfl, by krfl⟩
  | 26, _ => exact ⟨by krfl, by krfl⟩
  | 27, _ => exact ⟨by krfl, by krfl⟩
  | 28, _ => exact ⟨by krfl, by krfl⟩
  | 29, _ => exact ⟨by krfl, by krfl⟩
  | 30, _ => exact ⟨by krfl, by krfl⟩
  | 31, _ => exact ⟨by krfl, by krfl⟩
  | n + 32, h => exact absurd h (by omega)

theorem smbOne_iter (c : G5) (a e : Nat → Int) (carry : Int) (w : ω) (k j : Nat) (hj : k + j = 32) (h : Ext) (t : Pre) (r : Comp) :
    ∃ t' r', (interp (progs 5) (600 + k + 1)).iter ⟨pkg, smbOneEnv⟩ smbOneLoop.2.1 smbOneLoop.2.2.1 smbOneLoop.2.2.2
      (smbOne c a e carry h t r j w) =
      .ok .next (smbOne c a e carry ((List.range' j k).foldl (addOne c fun pos => e (2 * pos + 1)) h) t' r' 32 w) := by
  induction k generalizing j h t r with
  | zero =>
    refine ⟨t, r, ?_⟩
    obtain rfl : j = 32 := by omega
    exact iter_done (theOps_ok.condOpt (n := 100) (by decide) (by krfl))
  | succ k ih =>
    obtain ⟨t', r', e1⟩ := ih (j + 1) (by omega) (addOne c (fun pos => e (2 * pos + 1)) h j)
      (rawSelect c.zero (c.row j) (w32 (e (2 * j + 1))))
      (geMixedAdd h (rawSelect c.zero (c.row j) (w32 (e (2 * j + 1)))))
    refine ⟨t', r', ?_⟩
    rw [List.range'_succ, List.foldl_cons]
    obtain ⟨h1, h2⟩ := smbOne_step theOps c a e carry h t r w j (by omega)
    rw [show 600 + (k + 1) + 1 = (600 + k + 1) + 1 by omega]
    exact iter_step' (theOps_ok.condOpt (by omega) h1) (theOps_ok.bodyPost (by omega) h2) e1

theorem smbTwo_iter (c : G5) (a e : Nat → Int) (carry : Int) (s : Proj) (w : ω) (k j : Nat) (hj : k + j = 32) (h : Ext) (t : Pre) (r : Comp) :
    ∃ t' r', (interp (progs 5) (600 + k + 1)).iter ⟨pkg, smbTwoEnv⟩ smbTwoLoop.2.1 smbTwoLoop.2.2.1 smbTwoLoop.2.2.2
      (smbTwo c a e carry s h t r j w) =
      .ok .next (smbTwo c a e carry s ((List.range' j k).foldl (addOne c fun pos => e (2 * pos + 0)) h) t' r' 32 w) := by
  induction k generalizing j h t r with
  | zero =>
    refine ⟨t, r, ?_⟩
    obtain rfl : j = 32 := by omega
    exact iter_done (theOps_ok.condOpt (n := 100) (by decide) (by krfl))
  | succ k ih =>
    obtain ⟨t', r', e1⟩ := ih (j + 1) (by omega) (addOne c (fun pos => e (2 * pos + 0)) h j)
      (rawSelect c.zero (c.row j) (w32 (e (2 * j + 0))))
      (geMixedAdd h (rawSelect c.zero (c.row j) (w32 (e (2 * j + 0)))))
    refine ⟨t', r', ?_⟩
    rw [List.range'_succ, List.foldl_cons]
    obtain ⟨h1, h2⟩ := smbTwo_step theOps c a e carry s h t r w j (by omega)
    rw [show 600 + (k + 1) + 1 = (600 + k + 1) + 1 by omega]
    exact iter_step' (theOps_ok.condOpt (by omega) h1) (theOps_ok.bodyPost (by omega) h2) e1

/-- The doublings. -/
structure Doubles where
  double : Ext → Comp
  proj : Comp → Proj
  again : Proj → Comp
  ext : Comp → Ext

noncomputable def Doubles.table (o : Doubles) : Table where
  funcs := []
  methods := [((id!"ExtendedGroupElement", id!"Double"), 0, shape2 fun (_ : G0) p (_ : Comp) => plainly ([(1, encComp (o.double p))], [])),
    ((id!"CompletedGroupElement", id!"ToProjective"), 0, shape2 fun (_ : G0) p (_ : Proj) => plainly ([(1, encProj (o.proj p))], [])),
    ((id!"ProjectiveGroupElement", id!"Double"), 0, shape2 fun (_ : G0) p (_ : Comp) => plainly ([(1, encComp (o.again p))], [])),
    ((id!"CompletedGroupElement", id!"ToExtended"), 0, shape2 fun (_ : G0) p (_ : Ext) => plainly ([(1, encExt (o.ext p))], []))]

def theDoubles : Doubles := ⟨Ext.double, Comp.toProj, Proj.double, Comp.toExt⟩

theorem theDoubles_ok : theDoubles.table.Ok ω 500 where
  funcs := by simp [Doubles.table]
  methods := by
    simp only [Doubles.table, List.forall_mem_cons, List.not_mem_nil, false_imp_iff, implies_true, and_true]
    exact ⟨⟨_, rfl, ExtDouble_right⟩, ⟨_, rfl, CompToProj_right.more (by decide)⟩, ⟨_, rfl, ProjDouble_right.more (by decide)⟩,
      ⟨_, rfl, CompToExt_right.more (by decide)⟩⟩

set_option maxRecDepth 100000 in
theorem smb_middle (o : Doubles) (c : G5) (a e : Nat → Int) (carry : Int) (h : Ext) (t : Pre) (r : Comp) (w : ω) :
    execsEnv (interpK (progs 5) (o.table.known 5) 100) ⟨pkg, smbEnv⟩ ((edwards.GeScalarMultBase.body.drop 9).take 9)
      ⟨smbMem c a h e carry t r [.int .int32 65], 7, [], w⟩ =
      .ok ((id!"s", .var ⟨17, []⟩) :: smbEnv, .next)
        ⟨smbMem c a (o.ext (o.again (o.proj (o.again (o.proj (o.again (o.proj (o.double h)))))))) e carry t
          (o.again (o.proj (o.again (o.proj (o.again (o.proj (o.double h)))))))
          [.int .int32 65, encProj (o.proj (o.again (o.proj (o.again (o.proj (o.double h))))))], 7, [], w⟩ := by
  krfl

def sumScalarMultBase : G5 → Ext → B32 → List Int → Option Effect :=
  fun c _ a => plainly ([(5, encExt (rawScalarMultBase c a))], [])

theorem rawAddDigits_eq (c : G5) (d : Nat → Int) (h : Ext) :
    rawAddDigits c d h = (List.range' 0 32).foldl (addOne c d) h := rfl

set_option maxRecDepth 100000 in
theorem scalarMultBase_run (c : G5) (x : Ext) (a : Nat → Int) (w : ω) :
    (interp (progs 5) 1001).call pkg edwards.GeScalarMultBase [P 5, P 6] ⟨encL c ++ [encExt x, encInts .uint8 32 a], 7, [], w⟩ =
      .ok [] ⟨encL c ++ [encExt (rawScalarMultBase c a), encInts .uint8 32 a], 7, [], w⟩ := by
  obtain ⟨t1, r1, e1⟩ := smbOne_iter c a (fun i => (recode 0 (rawNibbles a)).getD i 0) (lastCarry 0 (rawNibbles a)) w 32 0 rfl
    ⟨c.zero, oneOf c.zero, oneOf c.zero, c.zero⟩ ⟨fe0, fe0, fe0⟩ ⟨fe0, fe0, fe0, fe0⟩
  rw [← rawAddDigits_eq] at e1
  generalize hh : rawAddDigits _ _ _ = h1 at e1
  have m := smb_middle theDoubles c a (fun i => (recode 0 (rawNibbles a)).getD i 0) (lastCarry 0 (rawNibbles a)) h1 t1 r1 w
  obtain ⟨t2, r2, e2⟩ := smbTwo_iter c a (fun i => (recode 0 (rawNibbles a)).getD i 0) (lastCarry 0 (rawNibbles a))
    (h1.double.toProj.double.toProj.double.toProj) w 32 0 rfl
    (h1.double.toProj.double.toProj.double.toProj.double.toExt) t1
    (h1.double.toProj.double.toProj.double.toProj.double)
  rw [← rawAddDigits_eq] at e2
  have key := call_of_execs (P := progs 5) (n := 1000) (p := pkg) (f := edwards.GeScalarMultBase) (vs := [P 5, P 6]) (rs := [])
    (s := ⟨encL c ++ [encExt x, encInts .uint8 32 a], 7, [], w⟩)
    (s1 := ⟨encL c ++ [encExt x, encInts .uint8 32 a, P 5, P 6], 7, [], w⟩)
    (env := [(id!"a", .var ⟨8, []⟩), (id!"h", .var ⟨7, []⟩)]) (ctl := .next) rfl
    (execs_split 8 (table4_ok.execsEnv (by decide) (smb_start c x a w))
      (execs_one (stmt_loop (c' := ⟨pkg, smbOneEnv⟩) (theOps_ok.initial (n := 100) (by decide) (by krfl))
        ((interp_mono (.refl _) (by decide)).iter _ _ _ _ |>.ok e1))
      (execs_split 9 (theDoubles_ok.execsEnv (by decide) m)
      (execs_one (stmt_loop (c' := ⟨pkg, smbTwoEnv⟩) (theOps_ok.initial (n := 100) (by decide) (by krfl))
        ((interp_mono (.refl _) (by decide)).iter _ _ _ _ |>.ok e2)) rfl))))
    rfl rfl rfl
  refine key.trans ?_
  subst hh
  krfl

theorem ScalarMultBase_right : Right ω 5 (shape2 sumScalarMultBase) edwards.GeScalarMultBase 1001 := by
  refine shape2_right ?_ ?_
  · intro c x y l e h
    obtain ⟨rfl, rfl⟩ := plainly_some h
    exact plain1 rfl
  · intro c x y l e w h
    obtain ⟨rfl, rfl⟩ := plainly_some h
    exact scalarMultBase_run c x y w

end Verif.Src.EdSrc
