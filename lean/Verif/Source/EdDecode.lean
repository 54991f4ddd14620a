/-
`ExtendedGroupElement.FromBytes`, edwards25519.go:718-762: the source computes what the model says.
-/
import Verif.Source.EdBase

namespace Verif.Src.EdSrc

open Verif.Ed

variable {ω : Type}

/-- The first four variables of the package. -/
structure G4 where
  (zero d d2 sqrtM1 : Fe)

instance : EncL G4 4 where
  encL c := [encFe c.zero, encFe c.d, encFe c.d2, encFe c.sqrtM1]
  decL vs := match vs with
    | [a, b, c, d] => match decFe a, decFe b, decFe c, decFe d with
      | some x, some y, some z, some u => some ⟨x, y, z, u⟩
      | _, _, _, _ => none
    | _ => none
  decL_some {vs c} h := by
    split at h
    · split at h
      · next e1 e2 e3 e4 => cases h; rw [decFe_some e1, decFe_some e2, decFe_some e3, decFe_some e4]
      · cases h
    · cases h
  lengthL _ := rfl
  plainL c := by simp [Val.anyRefers, encFe_plain]

/-- What has been computed before the first condition, edwards25519.go:721-741. -/
structure Root where
  (Y Z u v v3 X vxx : Fe)

def rawRoot (c : G4) (s : Nat → Int) : Root :=
  let Y := rawFromBytes s
  let Z := oneOf c.zero
  let u := feSquare Y
  let v := feMul u c.d
  let u := feSub u Z
  let v := feAdd v Z
  let v3 := feSquare v
  let v3 := feMul v3 v
  let X := feSquare v3
  let X := feMul X v
  let X := feMul X u
  let X := fePow22523 X
  let X := feMul X v3
  let X := feMul X u
  let vxx := feSquare X
  let vxx := feMul vxx v
  ⟨Y, Z, u, v, v3, X, vxx⟩

/-- edwards25519.go:756-761. -/
def rawFinish (top : Int) (X Y Z : Fe) : Ext :=
  let X' := if rawIsNegative X ≠ sar top 7 then feNeg (feReduce X) else feReduce X
  ⟨X', Y, Z, feMul X' Y⟩

/-- The point afterwards, and the result. -/
def rawDecode (c : G4) (p : Ext) (s : Nat → Int) : Ext × Bool :=
  let r := rawRoot c s
  if rawIsNonZero (feSub r.vxx r.u) = 1 then
    if rawIsNonZero (feAdd r.vxx r.u) = 1 then (⟨r.X, r.Y, r.Z, p.T⟩, false)
    else (rawFinish (s 31) (feReduce (feMul r.X c.sqrtM1)) r.Y r.Z, true)
  else (rawFinish (s 31) r.X r.Y r.Z, true)

/-- The memory during the call. -/
def fbMem (c : G4) (s : Nat → Int) (p : Ext) (u v v3 vxx check : Fe) (rest : List Val) : List Val :=
  encL c ++ (encExt p :: encInts .uint8 32 s :: P 4 :: P 5 :: encFe u :: encFe v :: encFe v3 :: encFe vxx :: encFe check :: rest)

/-- The names in scope. -/
def fbEnv : Env :=
  [(id!"tmp2", .var ⟨14, []⟩), (id!"tmpX", .var ⟨13, []⟩), (id!"check", .var ⟨12, []⟩), (id!"vxx", .var ⟨11, []⟩),
    (id!"v3", .var ⟨10, []⟩), (id!"v", .var ⟨9, []⟩), (id!"u", .var ⟨8, []⟩), (id!"s", .var ⟨7, []⟩), (id!"p", .var ⟨6, []⟩)]

def zeros32 : Val := encInts .uint8 32 fun _ => 0

/-- The body of the function. -/
noncomputable def fbBody : List Stmt := edwards.ExtendedGroupElement.FromBytes.body

/-- The parts of a conditional. -/
def Stmt.iteParts : Option Stmt → Expr × List Stmt × List Stmt
  | some (.ite none e t f) => (e, t, f)
  | _ => (.num 0, [], [])

noncomputable def fbIf1 : Expr × List Stmt × List Stmt := Stmt.iteParts fbBody[19]?
noncomputable def fbIf2 : Expr × List Stmt × List Stmt := Stmt.iteParts fbIf1.2.1[1]?
noncomputable def fbIf3 : Expr × List Stmt × List Stmt := Stmt.iteParts fbBody[20]?

set_option maxRecDepth 100000 in
theorem fb_start (c : G4) (p : Ext) (s : Nat → Int) (w : ω) :
    execsEnv (interpK (progs 4) (table2.known 4) 100) ⟨pkg, [(id!"s", .var ⟨7, []⟩), (id!"p", .var ⟨6, []⟩)]⟩
      (fbBody.take 19) ⟨encL c ++ [encExt p, encInts .uint8 32 s, P 4, P 5], 6, [], w⟩ =
      .ok (fbEnv, .next) ⟨fbMem c s ⟨(rawRoot c s).X, (rawRoot c s).Y, (rawRoot c s).Z, p.T⟩ (rawRoot c s).u (rawRoot c s).v
        (rawRoot c s).v3 (rawRoot c s).vxx (feSub (rawRoot c s).vxx (rawRoot c s).u) [zeros32, zeros32], 6, [], w⟩ := by
  krfl

theorem fb_cond1 (c : G4) (s : Nat → Int) (p : Ext) (u v v3 vxx check : Fe) (w : ω) :
    cond (interpK (progs 4) (table2.known 4) 100) ⟨pkg, Env.enter fbEnv⟩ fbIf1.1
      ⟨fbMem c s p u v v3 vxx check [zeros32, zeros32], 6, [], w⟩ =
      .ok (decide (rawIsNonZero check = 1)) ⟨fbMem c s p u v v3 vxx (feReduce check) [zeros32, zeros32], 6, [], w⟩ := by
  krfl

theorem fb_then (c : G4) (s : Nat → Int) (p : Ext) (u v v3 vxx check : Fe) (w : ω) :
    execsEnv (interpK (progs 4) (table2.known 4) 100) ⟨pkg, Env.enter (Env.enter fbEnv)⟩ (fbIf1.2.1.take 1)
      ⟨fbMem c s p u v v3 vxx check [zeros32, zeros32], 6, [], w⟩ =
      .ok (Env.enter (Env.enter fbEnv), .next) ⟨fbMem c s p u v v3 vxx (feAdd vxx u) [zeros32, zeros32], 6, [], w⟩ := by
  krfl

theorem fb_cond2 (c : G4) (s : Nat → Int) (p : Ext) (u v v3 vxx check : Fe) (w : ω) :
    cond (interpK (progs 4) (table2.known 4) 100) ⟨pkg, Env.enter (Env.enter (Env.enter fbEnv))⟩ fbIf2.1
      ⟨fbMem c s p u v v3 vxx check [zeros32, zeros32], 6, [], w⟩ =
      .ok (decide (rawIsNonZero check = 1)) ⟨fbMem c s p u v v3 vxx (feReduce check) [zeros32, zeros32], 6, [], w⟩ := by
  krfl

set_option maxRecDepth 100000 in
theorem fb_then2 (c : G4) (s : Nat → Int) (p : Ext) (u v v3 vxx check : Fe) (w : ω) :
    execs (interpK (progs 4) (table2.known 4) 100) ⟨pkg, Env.enter (Env.enter fbEnv)⟩ (fbIf1.2.1.drop 2)
      ⟨fbMem c s p u v v3 vxx check [zeros32, zeros32], 6, [], w⟩ =
      .ok .next ⟨fbMem c s ⟨feReduce (feMul p.X c.sqrtM1), p.Y, p.Z, p.T⟩ u v v3 vxx check
        [encInts .uint8 32 (rawBytes (feMul p.X c.sqrtM1)), encInts .uint8 32 fun i => rawBytes (feMul p.X c.sqrtM1) (31 - i),
          .int .int 31, .int .uint8 (rawBytes (feMul p.X c.sqrtM1) 31)], 6, [], w⟩ := by
  krfl

theorem fb_false (m : List Val) (w : ω) :
    block (interpK (progs 4) (table2.known 4) 100) ⟨pkg, Env.enter (Env.enter (Env.enter fbEnv))⟩ fbIf2.2.1 ⟨m, 6, [], w⟩ =
      .ok (.ret [.bool false]) ⟨m, 6, [], w⟩ := by
  krfl

theorem fb_cond3 (c : G4) (s : Nat → Int) (p : Ext) (u v v3 vxx check : Fe) (rest : List Val) (w : ω) :
    cond (interpK (progs 4) (table2.known 4) 100) ⟨pkg, Env.enter fbEnv⟩ fbIf3.1
      ⟨fbMem c s p u v v3 vxx check rest, 6, [], w⟩ =
      .ok (decide (rawIsNegative p.X ≠ sar (s 31) 7))
        ⟨fbMem c s ⟨feReduce p.X, p.Y, p.Z, p.T⟩ u v v3 vxx check rest, 6, [], w⟩ := by
  krfl

theorem fb_neg (c : G4) (s : Nat → Int) (p : Ext) (u v v3 vxx check : Fe) (rest : List Val) (w : ω) :
    block (interpK (progs 4) (table2.known 4) 100) ⟨pkg, Env.enter fbEnv⟩ fbIf3.2.1
      ⟨fbMem c s p u v v3 vxx check rest, 6, [], w⟩ =
      .ok .next ⟨fbMem c s ⟨feNeg p.X, p.Y, p.Z, p.T⟩ u v v3 vxx check rest, 6, [], w⟩ := by
  krfl

theorem fb_end (c : G4) (s : Nat → Int) (p : Ext) (u v v3 vxx check : Fe) (rest : List Val) (w : ω) :
    execs (interpK (progs 4) (table2.known 4) 100) ⟨pkg, fbEnv⟩ (fbBody.drop 21)
      ⟨fbMem c s p u v v3 vxx check rest, 6, [], w⟩ =
      .ok (.ret [.bool true]) ⟨fbMem c s ⟨p.X, p.Y, p.Z, feMul p.X p.Y⟩ u v v3 vxx check rest, 6, [], w⟩ := by
  krfl

theorem stmtIte {P : Prog ω} {n : Nat} {c : Ctx} {e : Expr} {bt bf : List Stmt} {s s2 s3 : St ω} {r : Ctl} {b : Bool}
    (h2 : cond (interp P n) ⟨c.pkg, c.env.enter⟩ e s = .ok b s2)
    (h3 : block (interp P n) ⟨c.pkg, c.env.enter⟩ (if b then bt else bf) s2 = .ok r s3) :
    (interp P (n + 1)).stmt c (.ite none e bt bf) s = .ok (c.env, r) s3 :=
  stmt_ite rfl h2 h3

theorem Table.Ok.cond {T : Table} {k : Nat} (h : T.Ok ω k) {g n m : Nat} (hm : n + k ≤ m) {c : Ctx} {x : Expr}
    {r : Bool} {s t : St ω} (e : Src.cond (interpK (progs g) (T.known g) n) c x s = .ok r t) :
    Src.cond (interp (progs g) m) c x s = .ok r t :=
  (cond_mono ((interpK_le (h.sound g) n).trans (interp_mono (.refl _) hm)) c x).ok e

/-- A statement that ends the call. -/
theorem execs_stop {I : Interp ω} {c : Ctx} {x : Stmt} {ss : List Stmt} {s t : St ω} {env : Env} {vs : List Val}
    (h : I.stmt c x s = .ok (env, .ret vs) t) : execs I c (x :: ss) s = .ok (.ret vs) t := by
  unfold execs
  rw [M.bind_ok h]
  rfl

theorem execs_nil {I : Interp ω} {c : Ctx} {s : St ω} : execs I c [] s = .ok .next s := rfl

set_option maxRecDepth 100000 in
/-- From line 756 on. -/
theorem fb_last (c : G4) (s : Nat → Int) (X Y Z T : Fe) (u v v3 vxx check : Fe) (rest : List Val) (w : ω) :
    execs (interp (progs 4) 600) ⟨pkg, fbEnv⟩ (fbBody.drop 20) ⟨fbMem c s ⟨X, Y, Z, T⟩ u v v3 vxx check rest, 6, [], w⟩ =
      .ok (.ret [.bool true]) ⟨fbMem c s (rawFinish (s 31) X Y Z) u v v3 vxx check rest, 6, [], w⟩ := by
  have h1 := table2_ok.cond (m := 599) (by decide) (fb_cond3 c s ⟨X, Y, Z, T⟩ u v v3 vxx check rest w)
  by_cases hn : rawIsNegative X ≠ sar (s 31) 7
  · rw [show decide (rawIsNegative (⟨X, Y, Z, T⟩ : Ext).X ≠ sar (s 31) 7) = true from decide_eq_true hn] at h1
    have e : rawFinish (s 31) X Y Z = ⟨feNeg (feReduce X), Y, Z, feMul (feNeg (feReduce X)) Y⟩ := by
      unfold rawFinish; rw [if_pos hn]
    rw [e]
    exact execs_one (stmtIte h1 (table2_ok.block (by decide) (fb_neg c s ⟨feReduce X, Y, Z, T⟩ u v v3 vxx check rest w)))
      (table2_ok.execs (by decide) (fb_end c s ⟨feNeg (feReduce X), Y, Z, T⟩ u v v3 vxx check rest w))
  · rw [show decide (rawIsNegative (⟨X, Y, Z, T⟩ : Ext).X ≠ sar (s 31) 7) = false from decide_eq_false hn] at h1
    have e : rawFinish (s 31) X Y Z = ⟨feReduce X, Y, Z, feMul (feReduce X) Y⟩ := by
      unfold rawFinish; rw [if_neg hn]
    rw [e]
    exact execs_one (stmtIte h1 execs_nil)
      (table2_ok.execs (by decide) (fb_end c s ⟨feReduce X, Y, Z, T⟩ u v v3 vxx check rest w))

set_option maxRecDepth 100000 in
/-- From line 743 on. -/
theorem fb_rest (c : G4) (s : Nat → Int) (p : Ext) (r : Root) (w : ω) :
    ∃ check rest, execs (interp (progs 4) 600) ⟨pkg, fbEnv⟩ (fbBody.drop 19)
      ⟨fbMem c s ⟨r.X, r.Y, r.Z, p.T⟩ r.u r.v r.v3 r.vxx (feSub r.vxx r.u) [zeros32, zeros32], 6, [], w⟩ =
      .ok (.ret [.bool (if rawIsNonZero (feSub r.vxx r.u) = 1 then
          if rawIsNonZero (feAdd r.vxx r.u) = 1 then ((⟨r.X, r.Y, r.Z, p.T⟩ : Ext), false)
          else (rawFinish (s 31) (feReduce (feMul r.X c.sqrtM1)) r.Y r.Z, true)
        else (rawFinish (s 31) r.X r.Y r.Z, true)).2])
        ⟨fbMem c s (if rawIsNonZero (feSub r.vxx r.u) = 1 then
          if rawIsNonZero (feAdd r.vxx r.u) = 1 then ((⟨r.X, r.Y, r.Z, p.T⟩ : Ext), false)
          else (rawFinish (s 31) (feReduce (feMul r.X c.sqrtM1)) r.Y r.Z, true)
        else (rawFinish (s 31) r.X r.Y r.Z, true)).1 r.u r.v r.v3 r.vxx check rest, 6, [], w⟩ := by
  have h1 := table2_ok.cond (m := 599) (by decide)
    (fb_cond1 c s ⟨r.X, r.Y, r.Z, p.T⟩ r.u r.v r.v3 r.vxx (feSub r.vxx r.u) w)
  by_cases n1 : rawIsNonZero (feSub r.vxx r.u) = 1
  · rw [decide_eq_true n1] at h1
    have h2 := table2_ok.execsEnv (m := 599) (by decide)
      (fb_then c s ⟨r.X, r.Y, r.Z, p.T⟩ r.u r.v r.v3 r.vxx (feReduce (feSub r.vxx r.u)) w)
    have h3 := table2_ok.cond (m := 598) (by decide)
      (fb_cond2 c s ⟨r.X, r.Y, r.Z, p.T⟩ r.u r.v r.v3 r.vxx (feAdd r.vxx r.u) w)
    simp only [if_pos n1]
    by_cases n2 : rawIsNonZero (feAdd r.vxx r.u) = 1
    · rw [decide_eq_true n2] at h3
      simp only [if_pos n2]
      exact ⟨feReduce (feAdd r.vxx r.u), [zeros32, zeros32], execs_stop (stmtIte h1 (execs_split (ss := fbIf1.2.1) 1 h2
        (execs_stop (stmtIte h3 (table2_ok.block (by decide) (fb_false _ w))))))⟩
    · rw [decide_eq_false n2] at h3
      simp only [if_neg n2]
      refine ⟨_, _, execs_one (stmtIte h1 (execs_split (ss := fbIf1.2.1) 1 h2 (execs_one (stmtIte h3 execs_nil)
        (table2_ok.execs (by decide) (fb_then2 c s ⟨r.X, r.Y, r.Z, p.T⟩ r.u r.v r.v3 r.vxx _ w))))) (fb_last c s _ _ _ _ _ _ _ _ _ _ w)⟩
  · rw [decide_eq_false n1] at h1
    simp only [if_neg n1]
    exact ⟨_, _, execs_one (stmtIte h1 execs_nil) (fb_last c s _ _ _ _ _ _ _ _ _ _ w)⟩

def sumFromBytes : G4 → Ext → B32 → List Int → Option Effect :=
  fun c p s => plainly ([(4, encExt (rawDecode c p s).1)], [.bool (rawDecode c p s).2])

set_option maxRecDepth 100000 in
theorem FromBytes_right : Right ω 4 (shape2 sumFromBytes) edwards.ExtendedGroupElement.FromBytes 601 := by
  refine shape2_right ?_ ?_
  · intro c x y l e h
    obtain ⟨rfl, rfl⟩ := plainly_some h
    exact ⟨by simp [show ∀ p, (encExt p).refers 0 = false from fun _ => rfl], by simp [Val.refers]⟩
  · intro c p s l e w h
    obtain ⟨rfl, rfl⟩ := plainly_some h
    obtain ⟨check, rest, e1⟩ := fb_rest c s p (rawRoot c s) w
    exact (call_of_execs (P := progs 4) (n := 600) (p := pkg) (f := edwards.ExtendedGroupElement.FromBytes) (vs := [P 4, P 5])
      (s := ⟨encL c ++ [encExt p, encInts .uint8 32 s], 6, [], w⟩)
      (s1 := ⟨encL c ++ [encExt p, encInts .uint8 32 s, P 4, P 5], 6, [], w⟩)
      (env := [(id!"s", .var ⟨7, []⟩), (id!"p", .var ⟨6, []⟩)]) rfl
      (execs_split 19 (table2_ok.execsEnv (by decide) (fb_start c p s w)) e1) rfl rfl rfl).trans rfl

end Verif.Src.EdSrc
