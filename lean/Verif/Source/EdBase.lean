/-
Multiples of the base point, edwards25519.go:949-1014: the source computes what the model says.
-/
import Verif.Source.EdGroup
import Verif.Source.Steps

namespace Verif.Src.EdSrc

open Verif.Ed

variable {ω : Type}

set_option maxRecDepth 10000 in
theorem selectPoint_run (c : G5) (t : Pre) (pos : Nat) (hpos : pos < 32) (b : Int) (w : ω) :
    (interpK (progs 5) (table3.known 5) 100).call pkg edwards.selectPoint [P 5, .int .int32 pos, .int .int32 b]
      ⟨encL c ++ [encPre t], 6, [], w⟩ = .ok [] ⟨encL c ++ [encPre (rawSelect c.zero (c.row pos) b)], 6, [], w⟩ := by
  match pos, hpos with
  | 0, _ => krfl
  | 1, _ => krfl
  | 2, _ => krfl
  | 3, _ => krfl
  | 4, _ => krfl
  | 5, _ => krfl
  | 6, _ => krfl
  | 7, _ => krfl
  | 8, _ => krfl
  | 9, _ => krfl
  | 10, _ => krfl
  | 11, _ => krfl
  | 12, _ => krfl
  | 13, _ => krfl
  | 14, _ => krfl
  | 15, _ => krfl
  | 16, _ => krfl
  | 17, _ => krfl
  | 18, _ => krfl
  | 19, _ => krfl
  | 20, _ => krfl
  | 21, _ => krfl
  | 22, _ => krfl
  | 23, _ => krfl
  | 24, _ => krfl
  | 25, _ => krfl
  | 26, _ => krfl
  | 27, _ => krfl
  | 28, _ => krfl
  | 29, _ => krfl
  | 30, _ => krfl
  | 31, _ => krfl
  | n + 32, h => exact absurd h (by omega)

theorem SelectPoint_right : Right ω 5 (shape1 sumSelect) edwards.selectPoint 500 := by
  refine shape1_right ?_ ?_
  · intro c x l e h
    unfold sumSelect at h
    split at h
    · split at h
      · cases h; exact plain1 rfl
      · cases h
    · cases h
  · intro c x l e w h
    unfold sumSelect at h
    split at h
    · split at h
      · next hp =>
        cases h
        exact table3_ok.run (n := 100) (selectPoint_run c x _ hp _ w)
      · cases h
    · cases h

/-- The table with `selectPoint` and the doubling of extended points. -/
noncomputable def table4 : Table where
  funcs := table3.funcs ++ [(id!"selectPoint", 5, shape1 sumSelect)]
  methods := table3.methods ++ [((id!"ExtendedGroupElement", id!"Double"), 0, shape2 sumExtDouble)]

theorem table4_ok : table4.Ok ω 500 where
  funcs e he := by
    rcases List.mem_append.1 he with he | he
    · exact (table3_ok.more (by decide)).funcs e he
    · simp only [List.mem_cons, List.not_mem_nil, or_false] at he
      subst he
      exact ⟨_, rfl, SelectPoint_right⟩
  methods e he := by
    rcases List.mem_append.1 he with he | he
    · exact (table3_ok.more (by decide)).methods e he
    · simp only [List.mem_cons, List.not_mem_nil, or_false] at he
      subst he
      exact ⟨_, rfl, ExtDouble_right⟩

/-- Pieces of a function, with summaries. -/
theorem Table.Ok.execsEnv {T : Table} {k : Nat} (h : T.Ok ω k) {g n m : Nat} (hm : n + k ≤ m) {c : Ctx} {ss : List Stmt}
    {r : Env × Ctl} {s t : St ω} (e : Src.execsEnv (interpK (progs g) (T.known g) n) c ss s = .ok r t) :
    Src.execsEnv (interp (progs g) m) c ss s = .ok r t :=
  (execsEnv_mono ((interpK_le (h.sound g) n).trans (interp_mono (.refl _) hm)) c ss).ok e

theorem Table.Ok.execs {T : Table} {k : Nat} (h : T.Ok ω k) {g n m : Nat} (hm : n + k ≤ m) {c : Ctx} {ss : List Stmt}
    {r : Ctl} {s t : St ω} (e : Src.execs (interpK (progs g) (T.known g) n) c ss s = .ok r t) :
    Src.execs (interp (progs g) m) c ss s = .ok r t :=
  (execs_mono ((interpK_le (h.sound g) n).trans (interp_mono (.refl _) hm)) c ss).ok e

theorem Table.Ok.block {T : Table} {k : Nat} (h : T.Ok ω k) {g n m : Nat} (hm : n + k ≤ m) {c : Ctx} {ss : List Stmt}
    {r : Ctl} {s t : St ω} (e : Src.block (interpK (progs g) (T.known g) n) c ss s = .ok r t) :
    Src.block (interp (progs g) m) c ss s = .ok r t :=
  (block_mono ((interpK_le (h.sound g) n).trans (interp_mono (.refl _) hm)) c ss).ok e

theorem Table.Ok.condOpt {T : Table} {k : Nat} (h : T.Ok ω k) {g n m : Nat} (hm : n + k ≤ m) {c : Ctx} {x : Option Expr}
    {r : Bool} {s t : St ω} (e : Src.condOpt (interpK (progs g) (T.known g) n) c x s = .ok r t) :
    Src.condOpt (interp (progs g) m) c x s = .ok r t :=
  (condOpt_mono ((interpK_le (h.sound g) n).trans (interp_mono (.refl _) hm)) c x).ok e

theorem Table.Ok.stmtOpt {T : Table} {k : Nat} (h : T.Ok ω k) {g n m : Nat} (hm : n + k ≤ m) {c : Ctx} {x : Option Stmt}
    {r : Unit} {s t : St ω} (e : Src.stmtOpt (interpK (progs g) (T.known g) n) c x s = .ok r t) :
    Src.stmtOpt (interp (progs g) m) c x s = .ok r t :=
  (stmtOpt_mono ((interpK_le (h.sound g) n).trans (interp_mono (.refl _) hm)) c x).ok e

theorem Table.Ok.initial {T : Table} {k : Nat} (h : T.Ok ω k) {g n m : Nat} (hm : n + k ≤ m) {c : Ctx} {x : Option Stmt}
    {r : Ctx} {s t : St ω} (e : Src.initial (interpK (progs g) (T.known g) n) c x s = .ok r t) :
    Src.initial (interp (progs g) m) c x s = .ok r t :=
  (initial_mono ((interpK_le (h.sound g) n).trans (interp_mono (.refl _) hm)) c x).ok e

theorem Table.Ok.bodyPost {T : Table} {k : Nat} (h : T.Ok ω k) {g n m : Nat} (hm : n + k ≤ m) {c : Ctx} {b : List Stmt}
    {x : Option Stmt} {r : Ctl} {s t : St ω} (e : Src.bodyPost (interpK (progs g) (T.known g) n) c b x s = .ok r t) :
    Src.bodyPost (interp (progs g) m) c b x s = .ok r t :=
  (bodyPost_mono ((interpK_le (h.sound g) n).trans (interp_mono (.refl _) hm)) c b x).ok e

/-- edwards25519.go:973-976. -/
def rawNibbles (a : Nat → Int) : List Int :=
  (List.range 32).flatMap fun i => [w8 (and8 (a i) 15), w8 (and8 (sar (a i) 4) 15)]

/-- edwards25519.go:980-985: `carry` at the end of the loop. -/
def lastCarry : Int → List Int → Int
  | c, [] => c
  | c, [_] => c
  | c, x :: y :: xs => lastCarry (sar (w8 (w8 (x + c) + 8)) 4) (y :: xs)

/-- edwards25519.go:992-996 and 1009-1013. -/
def rawAddDigits (c : G5) (digit : Nat → Int) (h : Ext) : Ext :=
  (List.range 32).foldl (fun h pos => (geMixedAdd h (rawSelect c.zero (c.row pos) (w32 (digit pos)))).toExt) h

/-- edwards25519.go:970-1014 `GeScalarMultBase`. -/
def rawScalarMultBase (c : G5) (a : Nat → Int) : Ext :=
  let e := recode 0 (rawNibbles a)
  let h := rawAddDigits c (fun pos => e.getD (2 * pos + 1) 0) ⟨c.zero, oneOf c.zero, oneOf c.zero, c.zero⟩
  let s := h.double.toProj
  let s := s.double.toProj
  let s := s.double.toProj
  let h := s.double.toExt
  rawAddDigits c (fun pos => e.getD (2 * pos) 0) h

/-- The memory during the call. -/
def smbMem (c : G5) (a : Nat → Int) (h : Ext) (e : Nat → Int) (carry : Int) (t : Pre) (r : Comp) (rest : List Val) : List Val :=
  encL c ++ (encExt h :: encInts .uint8 32 a :: P 5 :: P 6 :: encInts .int8 64 e :: .int .int 31 :: .int .uint8 (a 31) ::
    .int .int8 carry :: .int .int 63 :: encPre t :: encComp r :: rest)

/-- The names in scope. -/
def smbEnv : Env :=
  [(id!"r", .var ⟨15, []⟩), (id!"t", .var ⟨14, []⟩), (id!"carry", .var ⟨12, []⟩), (id!"e", .var ⟨9, []⟩),
    (id!"a", .var ⟨8, []⟩), (id!"h", .var ⟨7, []⟩)]

def fe0 : Fe := ⟨0, 0, 0, 0, 0, 0, 0, 0, 0, 0⟩

set_option maxRecDepth 100000 in
theorem smb_start (c : G5) (h : Ext) (a : Nat → Int) (w : ω) :
    execsEnv (interpK (progs 5) (table4.known 5) 200) ⟨pkg, [(id!"a", .var ⟨8, []⟩), (id!"h", .var ⟨7, []⟩)]⟩
      (edwards.GeScalarMultBase.body.take 8) ⟨encL c ++ [encExt h, encInts .uint8 32 a, P 5, P 6], 7, [], w⟩ =
      .ok (smbEnv, .next) ⟨smbMem c a ⟨c.zero, oneOf c.zero, oneOf c.zero, c.zero⟩
        (fun i => (recode 0 (rawNibbles a)).getD i 0) (lastCarry 0 (rawNibbles a)) ⟨fe0, fe0, fe0⟩ ⟨fe0, fe0, fe0, fe0⟩ [],
        7, [], w⟩ := by
  krfl

end Verif.Src.EdSrc
