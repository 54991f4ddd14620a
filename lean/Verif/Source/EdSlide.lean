/-
`slide`, edwards25519.go:845-873: the source computes what the model says.
-/
import Verif.Source.EdBase
import Verif.Source.Rules
import Verif.Model.ScalarMult

namespace Verif.Src.EdSrc

open Verif.Ed

variable {ω : Type}

/-! ### The expressions and statements -/

def xR (e : Expr) : Expr := .idx (.id id!"r") e
def xI : Expr := .id id!"i"
def xB : Expr := .id id!"b"
def xK : Expr := .id id!"k"
def xSum : Expr := .bin .add xI xB
def xUint (e : Expr) : Expr := .call (.id id!"uint") [e]
def xShift : Expr := .bin .shl (xR xSum) (xUint xB)

/-- edwards25519.go:847 -/
def slideBit : Stmt :=
  .assign [xR xI] [.call (.id id!"int8") [.bin .and (.num 1)
    (.bin .shr (.idx (.id id!"a") (.bin .shr xI (.num 3))) (xUint (.bin .and xI (.num 7))))]]

/-- edwards25519.go:860-864 -/
def carryBody : List Stmt :=
  [.ite none (.bin .eq (xR xK) (.num 0)) [.assign [xR xK] [.num 1], .brk] [], .assign [xR xK] [.num 0]]

/-- edwards25519.go:859-865 -/
def carryStmt : Stmt :=
  .loop (some (.define [id!"k"] [xSum])) (some (.bin .lt xK (.num 256))) (some (.opAssign .add xK (.num 1))) carryBody

/-- edwards25519.go:853-869 -/
def innerStmt : Stmt :=
  .ite none (.bin .ne (xR xSum) (.num 0))
    [.ite none (.bin .le (.bin .add (xR xI) xShift) (.num 15))
      [.opAssign .add (xR xI) xShift, .assign [xR xSum] [.num 0]]
      [.ite none (.bin .ge (.bin .sub (xR xI) xShift) (.un .neg (.num 15)))
        [.opAssign .sub (xR xI) xShift, carryStmt]
        [.brk]]]
    []

/-- edwards25519.go:852 -/
def innerCond : Expr := .bin .land (.bin .le xB (.num 6)) (.bin .lt xSum (.num 256))

/-- edwards25519.go:851-871 -/
def outerStmt : Stmt :=
  .ite none (.bin .ne (xR xI) (.num 0))
    [.loop (some (.define [id!"b"] [.num 1])) (some innerCond) (some (.opAssign .add xB (.num 1))) [innerStmt]] []

theorem slide_text : edwards.slide.body =
    [.range (some id!"i") none (.id id!"r") [slideBit], .range (some id!"i") none (.id id!"r") [outerStmt]] := by krfl

/-! ### Memory -/

theorem encInts_get {ty : ITy} {n : Nat} {f : Nat → Int} {i : Nat} (h : i < n) :
    (encInts ty n f).get [.idx i] = some (.int ty (f i)) := by
  unfold encInts Val.get
  rw [List.getElem?_map, List.getElem?_range h]
  rfl

theorem encInts_set {ty : ITy} {n : Nat} {f : Nat → Int} {i : Nat} {v : Int} (h : i < n) :
    (encInts ty n f).set [.idx i] (.int ty v) = some (encInts ty n (Digits.set f i v)) := by
  unfold encInts Val.set
  rw [List.getElem?_map, List.getElem?_range h]
  simp only [Option.map_some, Val.set]
  congr 2
  apply List.ext_getElem?
  intro j
  rw [List.getElem?_set]
  by_cases hj : j < n
  · simp only [List.length_map, List.length_range, h, if_true, List.getElem?_map, List.getElem?_range hj, Option.map_some,
      Digits.set]
    by_cases e : i = j
    · rw [if_pos e, if_pos e.symm]
    · rw [if_neg e, if_neg (Ne.symm e)]
  · simp only [List.getElem?_map, List.getElem?_eq_none (show (List.range n).length ≤ j by simp; omega), Option.map_none]
    rw [if_neg (by omega)]

/-- The digits are in block 0, and `r`, in block 2, points to them. -/
structure Digs (m : List Val) (r : Digits) : Prop where
  digits : m[0]? = some (encInts .int8 256 r)
  ptr : m[2]? = some (P 0)

/-- A block holds a number of type int. -/
def Num (m : List Val) (j : Nat) (v : Int) : Prop := m[j]? = some (.int .int v)

/-- Blocks that are not changed. -/
def Same (m m' : List Val) (S : Nat → Prop) : Prop := m.length ≤ m'.length ∧ ∀ j, j < m.length → ¬S j → m'[j]? = m[j]?

theorem Same.refl (m : List Val) (S : Nat → Prop) : Same m m S := ⟨Nat.le_refl _, fun _ _ _ => rfl⟩

theorem Same.weaken {m m' : List Val} {S S' : Nat → Prop} (h : Same m m' S) (hs : ∀ j, S j → S' j) : Same m m' S' :=
  ⟨h.1, fun j hj k => h.2 j hj fun a => k (hs j a)⟩

theorem Same.trans {m m' m'' : List Val} {S S' : Nat → Prop} (h : Same m m' S) (h' : Same m' m'' S')
    (hs : ∀ j, j < m.length → S' j → S j) : Same m m'' S :=
  ⟨Nat.le_trans h.1 h'.1, fun j hj k => (h'.2 j (by have := h.1; omega) fun a => k (hs j hj a)).trans (h.2 j hj k)⟩

theorem Same.set {m : List Val} {i : Nat} {v : Val} {S : Nat → Prop} (h : S i) : Same m (m.set i v) S :=
  ⟨by simp, fun j _ k => by rw [List.getElem?_set, if_neg (by rintro rfl; exact k h)]⟩

theorem Same.append {m : List Val} {v : Val} {S : Nat → Prop} : Same m (m ++ [v]) S :=
  ⟨by simp, fun j hj _ => List.getElem?_append_left hj⟩

theorem some_lt {m : List Val} {j : Nat} {v : Val} (h : m[j]? = some v) : j < m.length := by
  rcases Nat.lt_or_ge j m.length with h' | h'
  · exact h'
  · rw [List.getElem?_eq_none h'] at h; cases h

theorem Digs.same {m m' : List Val} {r : Digits} {S : Nat → Prop} (h : Digs m r) (k : Same m m' S) (h0 : ¬S 0) (h2 : ¬S 2) :
    Digs m' r :=
  ⟨(k.2 0 (some_lt h.digits) h0).trans h.digits, (k.2 2 (some_lt h.ptr) h2).trans h.ptr⟩

theorem Num.same {m m' : List Val} {j : Nat} {v : Int} {S : Nat → Prop} (h : Num m j v) (k : Same m m' S) (hj : ¬S j) :
    Num m' j v := (k.2 j (some_lt h) hj).trans h

/-- The memory after a digit has been stored. -/
def putDigit (m : List Val) (r : Digits) (i : Nat) (v : Int) : List Val := m.set 0 (encInts .int8 256 (r.set i v))

theorem putDigit_digs {m : List Val} {r : Digits} (h : Digs m r) (i : Nat) (v : Int) : Digs (putDigit m r i v) (r.set i v) := by
  constructor
  · unfold putDigit
    rw [List.getElem?_set, if_pos rfl, if_pos (some_lt h.digits)]
  · unfold putDigit
    rw [List.getElem?_set, if_neg (by decide)]
    exact h.ptr

theorem putDigit_same {m : List Val} {r : Digits} {i : Nat} {v : Int} : Same m (putDigit m r i v) (· = 0) := Same.set rfl

/-! ### Expressions -/

section

variable {Pr : Prog ω} {c : Ctx} {s : St ω} {r : Digits} {n : Nat}

/-- What names stand for. -/
structure Names (Pr : Prog ω) (c : Ctx) (ib : Nat) : Prop where
  r : Pr.find c id!"r" = some (.var ⟨2, []⟩)
  i : Pr.find c id!"i" = some (.var ⟨ib, []⟩)
  uint : Pr.find c id!"uint" = none

theorem get_top {m : List Val} {j : Nat} {v : Val} (h : m[j]? = some v) : (Loc.mk j []).get m = some v := by
  unfold Loc.get
  simp only [h]
  unfold Val.get
  rfl

theorem ex_int {x : Id} {j : Nat} {v : Int} (hx : Pr.find c x = some (.var ⟨j, []⟩)) (h : Num s.mem j v) :
    (interp Pr (n + 1)).expr c (.id x) s = .ok (.int .int v) s :=
  expr_id hx (get_top h)

theorem ex_r_loc {e : Expr} {k : Int} (hr : Pr.find c id!"r" = some (.var ⟨2, []⟩)) (h : Digs s.mem r)
    (he : (interp Pr (n + 1)).expr c e s = .ok (.int .int k) s) (h0 : 0 ≤ k) (h1 : k < 256) :
    (interp Pr (n + 2)).loc c (xR e) s = .ok ⟨0, [.idx k.toNat]⟩ s := by
  refine loc_idx_ptr (l := ⟨0, []⟩) (vs := (List.range 256).map fun i => .int .int8 (r i)) (expr_id hr (get_top h.ptr))
    (get_top h.digits) he h0 ?_
  simpa using h1

theorem get_digit {k : Nat} (h : Digs s.mem r) (h1 : k < 256) : (Loc.mk 0 [.idx k]).get s.mem = some (.int .int8 (r k)) := by
  unfold Loc.get
  simp only [h.digits]
  exact encInts_get h1

theorem ex_r {e : Expr} {k : Int} (hr : Pr.find c id!"r" = some (.var ⟨2, []⟩)) (h : Digs s.mem r)
    (he : (interp Pr (n + 1)).expr c e s = .ok (.int .int k) s) (h0 : 0 ≤ k) (h1 : k < 256) :
    (interp Pr (n + 3)).expr c (xR e) s = .ok (.int .int8 (r k.toNat)) s :=
  expr_idx (ex_r_loc hr h he h0 h1) (get_digit h (by omega))

theorem store_digit {k : Nat} {v : Int} (h : Digs s.mem r) (h1 : k < 256) :
    store ⟨0, [.idx k]⟩ (.int .int8 v) s = .ok () { s with mem := putDigit s.mem r k v } := by
  refine store_ok (get_digit h h1) ?_ rfl
  unfold Loc.set
  simp only [h.digits, Val.fit, encInts_set h1]
  rfl

theorem store_const {k : Nat} {v : Int} (h : Digs s.mem r) (h1 : k < 256) :
    store ⟨0, [.idx k]⟩ (.int .untyped v) s = .ok () { s with mem := putDigit s.mem r k (w8 v) } := by
  refine store_ok (get_digit h h1) ?_ rfl
  unfold Loc.set
  simp only [h.digits, Val.fit, ITy.wrap]
  rw [encInts_set h1]
  rfl

theorem store_int {j : Nat} {v v' : Int} (h : Num s.mem j v) :
    store ⟨j, []⟩ (.int .int v') s = .ok () { s with mem := s.mem.set j (.int .int v') } := by
  refine store_ok (get_top h) ?_ rfl
  unfold Loc.set
  rw [show s.mem[j]? = _ from h]
  rfl

theorem find_enter {x : Id} (hx : x ≠ 0) {b : Option Bind} (h : Pr.find c x = b) : Pr.find { c with env := c.env.enter } x = b := by
  unfold Prog.find Env.enter at *
  rw [List.lookup_cons]
  have : (x == 0) = false := by simpa using hx
  simp only [this]
  exact h

theorem find_push {x y : Id} {l : Bind} (hx : x ≠ y) {b : Option Bind} (h : Pr.find c x = b) :
    Pr.find { c with env := (y, l) :: c.env } x = b := by
  unfold Prog.find at *
  rw [List.lookup_cons]
  have : (x == y) = false := by simpa using hx
  simp only [this]
  exact h

theorem find_top {x : Id} {l : Bind} : Pr.find { c with env := (x, l) :: c.env } x = some l := by
  unfold Prog.find
  rw [List.lookup_cons]
  simp

theorem Names.enter {ib : Nat} (h : Names Pr c ib) : Names Pr { c with env := c.env.enter } ib :=
  ⟨find_enter (by decide) h.r, find_enter (by decide) h.i, find_enter (by decide) h.uint⟩

theorem wrap_int {k : Int} (h : -1000 ≤ k) (h' : k < 1000) : ITy.int.wrap k = k := by
  rw [ITy.wrap_int]
  rw [Int.bmod_def]
  omega

/-- One more. -/
theorem stmt_incr {x : Id} {j : Nat} {v : Int} (hx : Pr.find c x = some (.var ⟨j, []⟩)) (h : Num s.mem j v) (h0 : 0 ≤ v)
    (h1 : v < 256) : (interp Pr (n + 2)).stmt c (.opAssign .add (.id x) (.num 1)) s =
      .ok (c.env, .next) { s with mem := s.mem.set j (.int .int (v + 1)) } := by
  refine stmt_opAssign (loc_id hx) (get_top h) (y := .int .untyped 1) rfl (z := .int .int (ITy.int.wrap (v + 1))) rfl ?_
  rw [wrap_int (by omega) (by omega)]
  exact store_int h

theorem stmtOpt_some {x : Stmt} {I : Interp ω} {t : St ω} {env : Env} {ctl : Ctl} (h : I.stmt c x s = .ok (env, ctl) t) :
    stmtOpt I c (some x) s = .ok () t := (M.bind_ok h).trans rfl

theorem cond_ok {x : Expr} {I : Interp ω} {b : Bool} (h : I.expr c x s = .ok (.bool b) s) :
    condOpt I c (some x) s = .ok b s := (M.bind_ok h).trans rfl

theorem num_set {m : List Val} {j : Nat} {v : Int} (h : j < m.length) : Num (m.set j (.int .int v)) j v := by
  unfold Num
  rw [List.getElem?_set, if_pos rfl, if_pos h]

/-! ### The loops -/

theorem ex_less {x : Id} {j : Nat} {v : Nat} {b : Nat} (hx : Pr.find c x = some (.var ⟨j, []⟩)) (h : Num s.mem j v) :
    (interp Pr (n + 2)).expr c (.bin .lt (.id x) (.num b)) s = .ok (.bool (decide (v < b))) s := by
  refine expr_bin nofun nofun (ex_int hx h) (y := .int .untyped b) rfl ?_
  show R.ok (Val.bool (decide ((v : Int) < b))) _ = _
  simp

/-- edwards25519.go:860-864: one iteration. -/
theorem carry_body {kb k : Nat} (hr : Pr.find c id!"r" = some (.var ⟨2, []⟩)) (hk : Pr.find c id!"k" = some (.var ⟨kb, []⟩))
    (hd : Digs s.mem r) (hn : Num s.mem kb k) (h : k < 256) :
    block (interp Pr (n + 7)) c carryBody s =
      if r k = 0 then .ok .brk { s with mem := putDigit s.mem r k 1 } else .ok .next { s with mem := putDigit s.mem r k 0 } := by
  have hr1 := find_enter (by decide) hr
  have hk1 := find_enter (by decide) hk
  have hr2 := find_enter (by decide) hr1
  have hk2 := find_enter (by decide) hk1
  have hr3 := find_enter (by decide) hr2
  have hk3 := find_enter (by decide) hk2
  have e : (interp Pr (n + 6)).expr { c with env := c.env.enter.enter } (.bin .eq (xR xK) (.num 0)) s =
      .ok (.bool (decide (r k = 0))) s := by
    refine expr_bin nofun nofun (x := .int .int8 (r k)) (ex_r (n := n + 2) hr2 hd (ex_int hk2 (v := k) hn) (by omega) (by omega))
      (y := .int .untyped 0) rfl rfl
  split
  · next h0 =>
    rw [decide_eq_true h0] at e
    refine execs_leave (r := .brk) (env := c.env.enter) ?_ nofun
    refine stmt_if e ?_
    rw [if_pos rfl]
    refine execs_one (env := c.env.enter.enter.enter) (t := { s with mem := putDigit s.mem r k 1 }) ?_ ?_
    · exact stmt_assign_idx (ex_r_loc (n := n + 3) hr3 hd (ex_int hk3 (v := k) hn) (by omega) (by omega)) (v := .int .untyped 1) rfl
        (store_const hd (by omega))
    · exact execs_last rfl
  · next h0 =>
    rw [decide_eq_false h0] at e
    refine execs_one (env := c.env.enter) (t := s) ?_ ?_
    · refine stmt_if e ?_
      rw [if_neg nofun]
      rfl
    · refine execs_last (env := c.env.enter) ?_
      exact stmt_assign_idx (ex_r_loc (n := n + 4) hr1 hd (ex_int hk1 (v := k) hn) (by omega) (by omega)) (v := .int .untyped 0) rfl
        (store_const hd (by omega))

/-- edwards25519.go:859-865, without the first statement. -/
theorem carry_iter {kb : Nat} (hr : Pr.find c id!"r" = some (.var ⟨2, []⟩)) (hk : Pr.find c id!"k" = some (.var ⟨kb, []⟩))
    (hb : 2 < kb) (q : Nat) : ∀ {N : Nat} {m : List Val} {r : Digits} {k : Nat}, Digs m r → Num m kb k → k + q = 256 → q + 10 ≤ N →
    ∃ m', (interp Pr N).iter c (some (.bin .lt xK (.num 256))) (some (.opAssign .add xK (.num 1))) carryBody
      { s with mem := m } = .ok .next { s with mem := m' } ∧ Digs m' (slideCarry q k r) ∧ Same m m' (fun j => j = 0 ∨ j = kb) := by
  induction q with
  | zero =>
    intro N m r k hd hn hq hN
    obtain ⟨N, rfl⟩ : ∃ N', N = N' + 10 := ⟨N - 10, by omega⟩
    refine ⟨m, ?_, hd, .refl _ _⟩
    refine iter_done (cond_ok ?_)
    rw [show false = decide (k < 256) by simp; omega]
    exact ex_less hk (s := { s with mem := m }) hn
  | succ q ih =>
    intro N m r k hd hn hq hN
    obtain ⟨N, rfl⟩ : ∃ N', N = N' + 10 + 1 := ⟨N - 11, by omega⟩
    have hc : condOpt (interp Pr (N + 10)) c (some (.bin .lt xK (.num 256))) { s with mem := m } = .ok true { s with mem := m } := by
      refine cond_ok ?_
      rw [show true = decide (k < 256) by simp; omega]
      exact ex_less hk (s := { s with mem := m }) hn
    have hB := carry_body (n := N + 3) (s := { s with mem := m }) hr hk hd hn (by omega)
    by_cases h0 : r k = 0
    · rw [if_pos h0] at hB
      refine ⟨_, iter_break hc hB, ?_, putDigit_same.weaken (fun _ h => .inl h)⟩
      rw [slideCarry, if_pos h0]
      exact putDigit_digs hd _ _
    · rw [if_neg h0] at hB
      have hn1 : Num (putDigit m r k 0) kb k := hn.same putDigit_same (by omega)
      have hd1 := putDigit_digs hd k 0
      have hs : Same (putDigit m r k 0) ((putDigit m r k 0).set kb (.int .int (k + 1))) (· = kb) := Same.set rfl
      obtain ⟨m', hi, hd', hs'⟩ := ih (N := N + 10) (m := (putDigit m r k 0).set kb (.int .int (k + 1))) (k := k + 1)
        (hd1.same hs (by omega) (by omega)) (num_set (some_lt hn1)) (by omega) (by omega)
      refine ⟨m', iter_step hc hB (stmtOpt_some (stmt_incr (n := N + 8) hk hn1 (by omega) (by omega))) hi, ?_, ?_⟩
      · rw [slideCarry, if_neg h0]
        exact hd'
      · exact (putDigit_same.weaken fun _ h => .inl h).trans ((hs.weaken fun _ h => .inr h).trans hs' fun _ _ h => h) fun _ _ h => h

/-- edwards25519.go:854-855: the digits, the second one shifted. -/
def joined (r : Digits) (i b : Nat) : Int := w8 (r i + w8 (r (i + b) * 2 ^ b))

/-- edwards25519.go:857-858 -/
def parted (r : Digits) (i b : Nat) : Int := w8 (r i - w8 (r (i + b) * 2 ^ b))

theorem ex_sum {ib bb i b : Nat} (hi : Pr.find c id!"i" = some (.var ⟨ib, []⟩)) (hb : Pr.find c id!"b" = some (.var ⟨bb, []⟩))
    (ni : Num s.mem ib i) (nb : Num s.mem bb b) (h : i + b < 1000) :
    (interp Pr (n + 2)).expr c xSum s = .ok (.int .int (i + b : Nat)) s := by
  refine expr_bin nofun nofun (ex_int hi ni) (ex_int hb nb) ?_
  show R.ok (Val.int .int (ITy.int.wrap (i + b))) _ = _
  rw [wrap_int (by omega) (by omega)]
  rfl

theorem ex_shift {ib bb i b : Nat} (H : Names Pr c ib) (hb : Pr.find c id!"b" = some (.var ⟨bb, []⟩)) (hd : Digs s.mem r)
    (ni : Num s.mem ib i) (nb : Num s.mem bb b) (h : i + b < 256) :
    (interp Pr (n + 5)).expr c xShift s = .ok (.int .int8 (w8 (r (i + b) * 2 ^ b))) s := by
  refine expr_bin nofun nofun (ex_r (n := n + 1) H.r hd (ex_sum H.i hb ni nb (by omega)) (by omega) (by omega))
    (y := .int .uint b) ?_ ?_
  · refine expr_call (multi_conv H.uint rfl rfl (ex_int hb nb) ?_)
    show R.ok (Val.int .uint ((b : Int) % 2 ^ 64)) s = _
    rw [Int.emod_eq_of_lt (by omega) (by omega)]
  · have e : (M.check (decide (0 ≤ (b : Int))) : M ω Unit) s = .ok () s := by
      unfold M.check
      rw [if_pos (by simp)]
      rfl
    exact M.bind_ok e

theorem Names.enter2 {ib : Nat} (h : Names Pr c ib) : Names Pr { c with env := c.env.enter.enter } ib := h.enter.enter

/-- edwards25519.go:859-865 -/
theorem carry_run {ib bb i b N : Nat} (H : Names Pr c ib) (hb : Pr.find c id!"b" = some (.var ⟨bb, []⟩)) (hd : Digs s.mem r)
    (ni : Num s.mem ib i) (nb : Num s.mem bb b) (h : i + b < 256) (hN : 300 ≤ N) :
    ∃ m', (interp Pr N).stmt c carryStmt s = .ok (c.env, .next) { s with mem := m' } ∧
      Digs m' (slideCarry (256 - (i + b)) (i + b) r) ∧ Same s.mem m' (· = 0) := by
  obtain ⟨N, rfl⟩ : ∃ N', N = N' + 10 := ⟨N - 10, by omega⟩
  let c' : Ctx := { c with env := (id!"k", .var ⟨s.mem.length, []⟩) :: c.env.enter }
  let m1 := s.mem ++ [.int .int (i + b : Nat)]
  have H1 := H.enter
  have hd1 : initial (interp Pr (N + 9)) c (some (.define [id!"k"] [xSum])) s = .ok c' { s with mem := m1 } := by
    refine (M.bind_ok (a := (c'.env, .next)) (t := { s with mem := m1 }) ?_).trans rfl
    exact stmt_define (by decide) rfl (ex_sum (n := N + 6) H1.i (find_enter (by decide) hb) ni nb (by omega))
  have hlen := some_lt hd.ptr
  obtain ⟨m', hi, hd', hs⟩ := carry_iter (Pr := Pr) (c := c') (s := s) (kb := s.mem.length)
    (find_push (c := { c with env := c.env.enter }) (by decide) H1.r) (find_top (c := { c with env := c.env.enter }))
    hlen (256 - (i + b)) (N := N + 9) (m := m1) (r := r) (k := i + b) (hd.same (S := fun _ => False) Same.append id id)
    (by unfold Num; simp [m1]) (by omega) (by omega)
  refine ⟨m', stmt_loop hd1 hi, hd', ?_⟩
  refine (Same.append (S := (· = 0))).trans hs ?_
  intro j hj h
  omega

/-- edwards25519.go:853-869: does the loop end? -/
def innerStop (r : Digits) (i b : Nat) : Bool :=
  decide (r (i + b) ≠ 0) && !decide (joined r i b ≤ 15) && !decide (parted r i b ≥ -15)

/-- edwards25519.go:853-869: the digits after an iteration. -/
def innerNext (r : Digits) (i b : Nat) : Digits :=
  if r (i + b) ≠ 0 then
    if joined r i b ≤ 15 then (r.set i (joined r i b)).set (i + b) 0
    else if parted r i b ≥ -15 then slideCarry (256 - (i + b)) (i + b) (r.set i (parted r i b))
    else r
  else r

theorem inner_body {ib bb i b N : Nat} (H : Names Pr c ib) (hb : Pr.find c id!"b" = some (.var ⟨bb, []⟩)) (hd : Digs s.mem r)
    (ni : Num s.mem ib i) (nb : Num s.mem bb b) (h : i + b < 256) (hN : 400 ≤ N) (h2 : 2 < ib) (h2' : 2 < bb) :
    ∃ m', block (interp Pr N) c [innerStmt] s = .ok (if innerStop r i b then .brk else .next) { s with mem := m' } ∧
      Digs m' (innerNext r i b) ∧ Same s.mem m' (· = 0) := by
  obtain ⟨N, rfl⟩ : ∃ N', N = N' + 20 := ⟨N - 20, by omega⟩
  have H1 := H.enter
  have H2 := H1.enter
  have H3 := H2.enter
  have H4 := H3.enter
  have H5 := H4.enter
  have H6 := H5.enter
  have H7 := H6.enter
  have b1 := find_enter (by decide) hb
  have b2 := find_enter (by decide) b1
  have b3 := find_enter (by decide) b2
  have b4 := find_enter (by decide) b3
  have b5 := find_enter (by decide) b4
  have b6 := find_enter (by decide) b5
  have b7 := find_enter (by decide) b6
  have e1 : (interp Pr (N + 19)).expr { c with env := c.env.enter.enter } (.bin .ne (xR xSum) (.num 0)) s =
      .ok (.bool (decide (r (i + b) ≠ 0))) s :=
    expr_bin nofun nofun (ex_r (n := N + 15) H2.r hd (ex_sum H2.i b2 ni nb (by omega)) (by omega) (by omega))
      (y := .int .untyped 0) rfl rfl
  by_cases h0 : r (i + b) ≠ 0
  · rw [decide_eq_true h0] at e1
    have e2 : (interp Pr (N + 18)).expr { c with env := c.env.enter.enter.enter.enter } (.bin .le (.bin .add (xR xI) xShift) (.num 15)) s =
        .ok (.bool (decide (joined r i b ≤ 15))) s := by
      refine expr_bin nofun nofun (x := .int .int8 (joined r i b)) ?_ (y := .int .untyped 15) rfl rfl
      exact expr_bin nofun nofun (ex_r (n := N + 13) H4.r hd (ex_int H4.i ni) (by omega) (by omega)) (ex_shift (n := N + 11) H4 b4 hd ni nb h) rfl
    by_cases h15 : joined r i b ≤ 15
    · rw [decide_eq_true h15] at e2
      have hs1 : Same s.mem (putDigit s.mem r i (joined r i b)) (· = 0) := putDigit_same
      refine ⟨putDigit (putDigit s.mem r i (joined r i b)) (r.set i (joined r i b)) (i + b) 0, ?_, ?_, ?_⟩
      · have : innerStop r i b = false := by simp [innerStop, h15]
        rw [this]
        refine execs_last (env := c.env.enter) (stmt_if e1 ?_)
        rw [if_pos rfl]
        refine execs_last (env := c.env.enter.enter.enter) (stmt_if e2 ?_)
        rw [if_pos rfl]
        refine execs_one (env := c.env.enter.enter.enter.enter.enter)
          (t := { s with mem := putDigit s.mem r i (joined r i b) }) ?_ (execs_last (env := c.env.enter.enter.enter.enter.enter) ?_)
        · exact stmt_opAssign (ex_r_loc (n := N + 15) H5.r hd (ex_int H5.i ni) (by omega) (by omega)) (get_digit hd (by omega))
            (ex_shift (n := N + 12) H5 b5 hd ni nb h) rfl (store_digit hd (by omega))
        · exact stmt_assign_idx (ex_r_loc (s := { s with mem := putDigit s.mem r i (joined r i b) }) (n := N + 15) H5.r (putDigit_digs hd _ _)
              (ex_sum H5.i b5 (ni.same hs1 (by omega)) (nb.same hs1 (by omega)) (by omega)) (by omega) (by omega)) (v := .int .untyped 0) rfl
            (store_const (putDigit_digs hd _ _) (by omega))
      · rw [innerNext, if_pos h0, if_pos h15]
        exact putDigit_digs (putDigit_digs hd _ _) _ _
      · exact hs1.trans putDigit_same fun _ _ h => h
    · rw [decide_eq_false h15] at e2
      have e3 : (interp Pr (N + 17)).expr { c with env := c.env.enter.enter.enter.enter.enter.enter }
          (.bin .ge (.bin .sub (xR xI) xShift) (.un .neg (.num 15))) s = .ok (.bool (decide (parted r i b ≥ -15))) s := by
        refine expr_bin nofun nofun (x := .int .int8 (parted r i b)) ?_ (y := .int .untyped (-15)) rfl rfl
        exact expr_bin nofun nofun (ex_r (n := N + 12) H6.r hd (ex_int H6.i ni) (by omega) (by omega)) (ex_shift (n := N + 10) H6 b6 hd ni nb h) rfl
      by_cases hm : parted r i b ≥ -15
      · rw [decide_eq_true hm] at e3
        have hs1 : Same s.mem (putDigit s.mem r i (parted r i b)) (· = 0) := putDigit_same
        obtain ⟨m', hc, hd', hs'⟩ := carry_run (s := { s with mem := putDigit s.mem r i (parted r i b) }) (N := N + 17) H7 b7
          (putDigit_digs hd _ _) (ni.same hs1 (by omega)) (nb.same hs1 (by omega)) h (by omega)
        refine ⟨m', ?_, ?_, hs1.trans hs' fun _ _ h => h⟩
        · have : innerStop r i b = false := by simp [innerStop, hm]
          rw [this]
          refine execs_last (env := c.env.enter) (stmt_if e1 ?_)
          rw [if_pos rfl]
          refine execs_last (env := c.env.enter.enter.enter) (stmt_if e2 ?_)
          rw [if_neg nofun]
          refine execs_last (env := c.env.enter.enter.enter.enter.enter) (stmt_if e3 ?_)
          rw [if_pos rfl]
          refine execs_one (env := c.env.enter.enter.enter.enter.enter.enter.enter)
            (t := { s with mem := putDigit s.mem r i (parted r i b) }) ?_ (execs_last hc)
          exact stmt_opAssign (ex_r_loc (n := N + 14) H7.r hd (ex_int H7.i ni) (by omega) (by omega)) (get_digit hd (by omega))
            (ex_shift (n := N + 11) H7 b7 hd ni nb h) rfl (store_digit hd (by omega))
        · rw [innerNext, if_pos h0, if_neg h15, if_pos hm]
          exact hd'
      · rw [decide_eq_false hm] at e3
        refine ⟨s.mem, ?_, ?_, .refl _ _⟩
        · have : innerStop r i b = true := by simp [innerStop, hm, h0, h15]
          rw [this]
          refine execs_last (env := c.env.enter) (stmt_if e1 ?_)
          rw [if_pos rfl]
          refine execs_last (env := c.env.enter.enter.enter) (stmt_if e2 ?_)
          rw [if_neg nofun]
          refine execs_last (env := c.env.enter.enter.enter.enter.enter) (stmt_if e3 ?_)
          rw [if_neg nofun]
          exact execs_last rfl
        · rw [innerNext, if_pos h0, if_neg h15, if_neg hm]
          exact hd
  · rw [decide_eq_false h0] at e1
    refine ⟨s.mem, ?_, ?_, .refl _ _⟩
    · have : innerStop r i b = false := by simp [innerStop, not_not.1 h0]
      rw [this]
      exact execs_last (env := c.env.enter) (stmt_if e1 rfl)
    · rw [innerNext, if_neg h0]
      exact hd

theorem slideInner_succ (i q b : Nat) (r : Digits) : slideInner i (q + 1) b r =
    if i + b < 256 then if innerStop r i b then innerNext r i b else slideInner i q (b + 1) (innerNext r i b) else r := by
  rw [slideInner]
  by_cases h : i + b < 256
  · rw [if_pos h, if_pos h]
    unfold innerStop innerNext joined parted
    by_cases h0 : r (i + b) ≠ 0
    · rw [if_pos h0, if_pos h0]
      by_cases h1 : w8 (r i + w8 (r (i + b) * 2 ^ b)) ≤ 15
      · simp [h1]
      · by_cases h2 : w8 (r i - w8 (r (i + b) * 2 ^ b)) ≥ -15
        · simp [h1, h2]
        · simp [h0, h1, h2]
    · simp [not_not.1 h0]
  · rw [if_neg h, if_neg h]

/-- edwards25519.go:852-870, without the first statement. -/
theorem inner_iter {ib bb i : Nat} (H : Names Pr c ib) (hb : Pr.find c id!"b" = some (.var ⟨bb, []⟩)) (h2 : 2 < ib) (h2' : 2 < bb)
    (hne : ib ≠ bb) (hi : i < 256) (q : Nat) : ∀ {N : Nat} {m : List Val} {r : Digits} {b : Nat}, Digs m r → Num m ib i → Num m bb b → b + q = 7 →
    q + 400 ≤ N → ∃ m', (interp Pr N).iter c (some innerCond) (some (.opAssign .add xB (.num 1))) [innerStmt]
      { s with mem := m } = .ok .next { s with mem := m' } ∧ Digs m' (slideInner i q b r) ∧ Same m m' (fun j => j = 0 ∨ j = bb) := by
  have hcond : ∀ {N : Nat} {m : List Val} {b : Nat}, Num m ib i → Num m bb b → b < 256 → 10 ≤ N →
      condOpt (interp Pr N) c (some innerCond) { s with mem := m } = .ok (decide (b ≤ 6) && decide (i + b < 256)) { s with mem := m } := by
    intro N m b ni nb hb' hN
    obtain ⟨N, rfl⟩ : ∃ N', N = N' + 10 := ⟨N - 10, by omega⟩
    refine cond_ok (expr_land (x := decide (b ≤ 6)) ?_ fun _ => ?_)
    · refine expr_bin nofun nofun (ex_int hb nb) (y := .int .untyped 6) rfl ?_
      show R.ok (Val.bool (decide ((b : Int) ≤ (6 : Nat)))) _ = _
      simp only [Int.ofNat_le]
    · refine expr_bin nofun nofun (ex_sum H.i hb ni nb (by omega)) (y := .int .untyped 256) rfl ?_
      show R.ok (Val.bool (decide (((i + b : Nat) : Int) < (256 : Nat)))) _ = _
      simp only [Int.ofNat_lt]
  induction q with
  | zero =>
    intro N m r b hd ni nb hq hN
    obtain ⟨N, rfl⟩ : ∃ N', N = N' + 1 := ⟨N - 1, by omega⟩
    refine ⟨m, iter_done ?_, hd, .refl _ _⟩
    rw [hcond ni nb (by omega) (by omega), decide_eq_false (show ¬ b ≤ 6 by omega)]
    rfl
  | succ q ih =>
    intro N m r b hd ni nb hq hN
    obtain ⟨N, rfl⟩ : ∃ N', N = N' + 1 := ⟨N - 1, by omega⟩
    have hc := hcond (N := N) ni nb (by omega) (by omega)
    rw [decide_eq_true (show b ≤ 6 by omega), Bool.true_and] at hc
    by_cases h : i + b < 256
    · rw [decide_eq_true h] at hc
      obtain ⟨m1, hB, hd1, hs1⟩ := inner_body (s := { s with mem := m }) (N := N) H hb hd ni nb h (by omega) h2 h2'
      rw [slideInner_succ, if_pos h]
      by_cases hst : innerStop r i b = true
      · rw [if_pos hst] at hB
        rw [if_pos hst]
        exact ⟨m1, iter_break hc hB, hd1, hs1.weaken fun _ h => .inl h⟩
      · rw [if_neg hst] at hB
        rw [if_neg hst]
        have nb1 : Num m1 bb b := nb.same hs1 (by omega)
        have ni1 : Num m1 ib i := ni.same hs1 (by omega)
        have hs : Same m1 (m1.set bb (.int .int (b + 1))) (· = bb) := Same.set rfl
        obtain ⟨m', hi, hd', hs'⟩ := ih (N := N) (m := m1.set bb (.int .int (b + 1))) (b := b + 1)
          (hd1.same hs (by omega) (by omega)) (ni1.same hs (by omega)) (num_set (some_lt nb1)) (by omega) (by omega)
        obtain ⟨N, rfl⟩ : ∃ N', N = N' + 2 := ⟨N - 2, by omega⟩
        refine ⟨m', iter_step hc hB (stmtOpt_some (stmt_incr (s := { s with mem := m1 }) hb nb1 (by omega) (by omega))) hi, hd', ?_⟩
        exact (hs1.weaken fun _ h => .inl h).trans ((hs.weaken fun _ h => .inr h).trans hs' fun _ _ h => h) fun _ _ h => h
    · rw [decide_eq_false h] at hc
      refine ⟨m, iter_done hc, ?_, .refl _ _⟩
      rw [slideInner_succ, if_neg h]
      exact hd

/-- edwards25519.go:851-871 -/
theorem outer_body {ib i N : Nat} (H : Names Pr c ib) (hd : Digs s.mem r) (ni : Num s.mem ib i) (hi : i < 256) (hN : 500 ≤ N)
    (h2 : 2 < ib) : ∃ m', block (interp Pr N) c [outerStmt] s = .ok .next { s with mem := m' } ∧
      Digs m' (if r i ≠ 0 then slideInner i 6 1 r else r) ∧ Same s.mem m' (· = 0) := by
  obtain ⟨N, rfl⟩ : ∃ N', N = N' + 20 := ⟨N - 20, by omega⟩
  have H1 := H.enter
  have H2 := H1.enter
  have H3 := H2.enter
  have H4 := H3.enter
  have e1 : (interp Pr (N + 19)).expr { c with env := c.env.enter.enter } (.bin .ne (xR xI) (.num 0)) s =
      .ok (.bool (decide (r i ≠ 0))) s :=
    expr_bin nofun nofun (ex_r (n := N + 15) H2.r hd (ex_int H2.i ni) (by omega) (by omega)) (y := .int .untyped 0) rfl rfl
  by_cases h0 : r i ≠ 0
  · rw [decide_eq_true h0] at e1
    rw [if_pos h0]
    let c3 : Ctx := { c with env := c.env.enter.enter.enter.enter }
    let c' : Ctx := { c3 with env := (id!"b", .var ⟨s.mem.length, []⟩) :: c3.env }
    let m1 := s.mem ++ [.int .int 1]
    have hin : initial (interp Pr (N + 18)) { c with env := c.env.enter.enter.enter } (some (.define [id!"b"] [.num 1])) s =
        .ok c' { s with mem := m1 } := by
      refine (M.bind_ok (a := (c'.env, .next)) (t := { s with mem := m1 }) ?_).trans rfl
      exact stmt_define (v := .int .untyped 1) (by decide) rfl rfl
    have hlen := some_lt hd.ptr
    have hl' := some_lt ni
    have H' : Names Pr c' ib := ⟨find_push (c := c3) (by decide) H4.r, find_push (c := c3) (by decide) H4.i, find_push (c := c3) (by decide) H4.uint⟩
    obtain ⟨m', hi', hd', hs⟩ := inner_iter (Pr := Pr) (c := c') (s := s) (ib := ib) (bb := s.mem.length) H' (find_top (c := c3)) h2 hlen
      (by omega) hi 6 (N := N + 18) (m := m1) (r := r) (b := 1) (hd.same (S := fun _ => False) Same.append id id)
      (ni.same (S := fun _ => False) Same.append id) (by unfold Num; simp [m1]) rfl (by omega)
    refine ⟨m', ?_, hd', (Same.append (S := (· = 0))).trans hs fun j hj h => by omega⟩
    refine execs_last (env := c.env.enter) (stmt_if e1 ?_)
    rw [if_pos rfl]
    exact execs_last (env := c.env.enter.enter.enter) (stmt_loop hin hi')
  · rw [decide_eq_false h0] at e1
    rw [if_neg h0]
    exact ⟨s.mem, execs_last (env := c.env.enter) (stmt_if e1 rfl), hd, .refl _ _⟩

theorem store_var {j : Nat} {v : Int} (h : j < s.mem.length) :
    store ⟨j, []⟩ (.int .int v) s = .ok () { s with mem := s.mem.set j (.int .int v) } := by
  have e : s.mem[j]? = some s.mem[j] := List.getElem?_eq_getElem h
  refine store_ok (get_top e) ?_ rfl
  have : s.mem[j].fit (.int .int v) = .int .int v := by
    generalize s.mem[j] = x
    cases x <;> rfl
  unfold Loc.set
  simp only [e, this]
  unfold Val.set
  rfl

/-- edwards25519.go:850-872, without the start of the loop. -/
theorem outer_loop {ib N : Nat} {o : RangeOver} (H : Names Pr c ib) (h2 : 2 < ib) (hN : 500 ≤ N) (q : Nat) :
    ∀ {m : List Val} {r : Digits} {i : Nat}, Digs m r → ib < m.length → i + q = 256 →
    ∃ m', rangeLoop (interp Pr N) c [outerStmt] o (some ⟨ib, []⟩) none q i { s with mem := m } = .ok .next { s with mem := m' } ∧
      Digs m' (slideOuter q i r) ∧ Same m m' (fun j => j = 0 ∨ j = ib) := by
  induction q with
  | zero => intro m r i hd hm hq; exact ⟨m, rfl, hd, .refl _ _⟩
  | succ q ih =>
    intro m r i hd hm hq
    have hs : Same m (m.set ib (.int .int i)) (· = ib) := Same.set rfl
    obtain ⟨m1, hB, hd1, hs1⟩ := outer_body (s := { s with mem := m.set ib (.int .int i) }) (N := N) H
      (hd.same hs (by omega) (by omega)) (num_set (v := i) hm) (by omega) hN h2
    have hl : ib < m1.length := by
      have := hs1.1
      simp only [List.length_set] at this
      omega
    obtain ⟨m', hi, hd', hs'⟩ := ih (i := i + 1) hd1 hl (by omega)
    refine ⟨m', range_step (store_var (s := { s with mem := m }) hm) hB hi, hd', ?_⟩
    exact (hs.weaken fun _ h => .inr h).trans ((hs1.weaken fun _ h => .inl h).trans hs' fun _ _ h => h) fun _ _ h => h

/-- edwards25519.go:847, for a byte and a shift. -/
def rawBitOf (x : Int) (j : Nat) : Int := w8 (and8 1 (x / 2 ^ j))

theorem and7 : ∀ i : Fin 256, ITy.int.bitwise (· &&& ·) (i.val : Int) 7 = ((i.val % 8 : Nat) : Int) := by decide +kernel

theorem bit_run {ib i : Nat} {a : Nat → Int} (H : Names Pr c ib) (ha : Pr.find c id!"a" = some (.var ⟨3, []⟩))
    (h8 : Pr.find c id!"int8" = none) (hd : Digs s.mem r) (ni : Num s.mem ib i) (hi : i < 256)
    (pa : s.mem[3]? = some (P 1)) (va : s.mem[1]? = some (encInts .uint8 32 a)) :
    block (interp Pr (n + 20)) c [slideBit] s = .ok .next { s with mem := putDigit s.mem r i (rawBitOf (a (i / 8)) (i % 8)) } := by
  have H1 := H.enter
  have ha1 := find_enter (by decide) ha
  refine execs_last (env := c.env.enter) ?_
  have e0 := ex_r_loc (n := n + 17) H1.r hd (ex_int (n := n + 17) H1.i ni) (by omega) (by omega)
  refine stmt_assign_idx (I := interp Pr (n + 19)) (v := .int .int8 (rawBitOf (a (i / 8)) (i % 8))) e0 ?_ (store_digit hd (by omega))
  refine expr_call (multi_conv (find_enter (by decide) h8) rfl rfl (v := .int .uint8 (and8 1 (a (i / 8) / 2 ^ (i % 8)))) ?_ rfl)
  refine expr_bin nofun nofun (x := .int .untyped 1) rfl (y := .int .uint8 (a (i / 8) / 2 ^ (i % 8))) ?_ rfl
  refine expr_bin nofun nofun (x := .int .uint8 (a (i / 8))) (y := .int .uint (i % 8 : Nat)) ?_ ?_ ?_
  · refine expr_idx (l := ⟨1, [.idx (i / 8)]⟩) ?_ ?_
    · have := loc_idx_ptr (P := Pr) (I := interp Pr (n + 13)) (s := s) (c := { c with env := c.env.enter }) (e := .id id!"a")
        (i := .bin .shr xI (.num 3)) (l := ⟨1, []⟩) (vs := (List.range 32).map fun i => .int .uint8 (a i)) (ty := .int) (k := (i / 8 : Nat))
        (expr_id ha1 (get_top pa)) (get_top va) ?_ (by omega) (by simp; omega)
      · exact this
      · refine expr_bin nofun nofun (ex_int H1.i ni) (y := .int .untyped 3) rfl ?_
        show R.ok (Val.int .int ((i : Int) / 2 ^ 3)) s = _
        rw [Int.natCast_ediv]
        rfl
    · unfold Loc.get
      simp only [va]
      exact encInts_get (by omega)
  · refine expr_call (multi_conv H1.uint rfl rfl (v := .int .int (i % 8 : Nat)) ?_ ?_)
    · refine expr_bin nofun nofun (ex_int H1.i ni) (y := .int .untyped 7) rfl ?_
      show R.ok (Val.int .int (ITy.int.bitwise (· &&& ·) (i : Int) 7)) s = _
      rw [and7 ⟨i, hi⟩]
    · show R.ok (Val.int .uint (((i % 8 : Nat) : Int) % 2 ^ 64)) s = _
      rw [Int.emod_eq_of_lt (by omega) (by omega)]
  · have e : (M.check (decide (0 ≤ ((i % 8 : Nat) : Int))) : M ω Unit) s = .ok () s := by
      unfold M.check
      rw [if_pos (decide_eq_true (by omega))]
      rfl
    exact (M.bind_ok e).trans rfl

/-- edwards25519.go:846-848, without the start of the loop. -/
theorem bit_loop {ib N : Nat} {o : RangeOver} {a : Nat → Int} (H : Names Pr c ib) (ha : Pr.find c id!"a" = some (.var ⟨3, []⟩))
    (h8 : Pr.find c id!"int8" = none) (h2 : 3 < ib) (hN : 20 ≤ N) (q : Nat) :
    ∀ {m : List Val} {r : Digits} {i : Nat}, Digs m r → m[3]? = some (P 1) → m[1]? = some (encInts .uint8 32 a) → ib < m.length → i + q = 256 →
    ∃ m', rangeLoop (interp Pr N) c [slideBit] o (some ⟨ib, []⟩) none q i { s with mem := m } = .ok .next { s with mem := m' } ∧
      Digs m' (fun j => if i ≤ j ∧ j < 256 then rawBitOf (a (j / 8)) (j % 8) else r j) ∧ Same m m' (fun j => j = 0 ∨ j = ib) := by
  induction q with
  | zero =>
    intro m r i hd _ _ hm hq
    refine ⟨m, rfl, ?_, .refl _ _⟩
    have : (fun j => if i ≤ j ∧ j < 256 then rawBitOf (a (j / 8)) (j % 8) else r j) = r := by
      funext j
      rw [if_neg (by omega)]
    rw [this]
    exact hd
  | succ q ih =>
    intro m r i hd h3 h1 hm hq
    obtain ⟨N, rfl⟩ : ∃ N', N = N' + 20 := ⟨N - 20, by omega⟩
    have hs : Same m (m.set ib (.int .int i)) (· = ib) := Same.set rfl
    have hd0 := hd.same hs (by omega) (by omega)
    have hB := bit_run (s := { s with mem := m.set ib (.int .int i) }) (n := N) H ha h8 hd0 (num_set (v := i) hm) (by omega)
      ((hs.2 3 (some_lt h3) (by omega)).trans h3) ((hs.2 1 (some_lt h1) (by omega)).trans h1)
    have hs1 : Same (m.set ib (.int .int i)) (putDigit (m.set ib (.int .int i)) r i (rawBitOf (a (i / 8)) (i % 8))) (· = 0) := putDigit_same
    have hs01 : Same m (putDigit (m.set ib (.int .int i)) r i (rawBitOf (a (i / 8)) (i % 8))) (fun j => j = 0 ∨ j = ib) :=
      (hs.weaken fun _ h => .inr h).trans hs1 fun _ _ h => .inl h
    obtain ⟨m', hi, hd', hs'⟩ := ih (putDigit_digs hd0 _ _) ((hs01.2 3 (some_lt h3) (by omega)).trans h3)
      ((hs01.2 1 (some_lt h1) (by omega)).trans h1) (by have := hs01.1; omega) (show i + 1 + q = 256 by omega)
    refine ⟨m', range_step (store_var (s := { s with mem := m }) hm) hB hi, ?_, hs01.trans hs' fun _ _ h => h⟩
    have : (fun j => if i ≤ j ∧ j < 256 then rawBitOf (a (j / 8)) (j % 8) else r j) =
        (fun j => if i + 1 ≤ j ∧ j < 256 then rawBitOf (a (j / 8)) (j % 8) else (r.set i (rawBitOf (a (i / 8)) (i % 8))) j) := by
      funext j
      unfold Digits.set
      by_cases hj : j = i
      · subst hj
        rw [if_pos (by omega), if_neg (by omega), if_pos rfl]
      · rw [if_neg hj]
        by_cases hij : i ≤ j ∧ j < 256
        · rw [if_pos hij, if_pos (by omega)]
        · rw [if_neg hij, if_neg (by omega)]
    rw [this]
    exact hd'

end

/-- edwards25519.go:845-873 `slide`. -/
def rawSlide (a : Nat → Int) : Digits := slideOuter 256 0 fun i => if i < 256 then rawBitOf (a (i / 8)) (i % 8) else 0

def sumSlide : G0 → Ints .int8 256 → B32 → List Int → Option Effect := fun _ _ a => plainly ([(0, encInts .int8 256 (rawSlide a))], [])

theorem slide_run (r a : Nat → Int) (w : ω) :
    (interp (progs 0) 600).call pkg edwards.slide [P 0, P 1] ⟨[encInts .int8 256 r, encInts .uint8 32 a], 2, [], w⟩ =
      .ok [] ⟨[encInts .int8 256 (rawSlide a), encInts .uint8 32 a], 2, [], w⟩ := by
  let env : Env := [(id!"a", .var ⟨3, []⟩), (id!"r", .var ⟨2, []⟩)]
  let m0 : List Val := [encInts .int8 256 r, encInts .uint8 32 a, P 0, P 1]
  let s : St ω := ⟨m0, 2, [], w⟩
  have hd0 : Digs m0 r := ⟨rfl, rfl⟩
  -- the first loop
  let c1 : Ctx := ⟨pkg, (id!"i", .var ⟨4, []⟩) :: env.enter⟩
  obtain ⟨m1, hl1, hd1, hs1⟩ := bit_loop (Pr := progs 0) (c := c1) (s := s) (ib := 4) (N := 598) (a := a)
    (o := .place ⟨0, []⟩ 0 256) ⟨rfl, rfl, rfl⟩ rfl rfl (by decide) (by decide) 256 (m := m0 ++ [.nil]) (r := r) (i := 0)
    ⟨rfl, rfl⟩ rfl rfl (by simp [m0]) rfl
  have e1 : (interp (progs 0) 599).stmt ⟨pkg, env⟩ (.range (some id!"i") none (.id id!"r") [slideBit]) s =
      .ok (env, .next) { s with mem := m1 } :=
    stmt_range_ptr (l := ⟨0, []⟩) (vs := (List.range 256).map fun i => .int .int8 (r i)) (expr_id (l := ⟨2, []⟩) rfl rfl) (get_top hd0.digits) (by decide) (by simp) hl1
  have hd1' : Digs m1 (fun i => if i < 256 then rawBitOf (a (i / 8)) (i % 8) else 0) := by
    refine ⟨?_, hd1.ptr⟩
    rw [hd1.digits]
    refine congrArg some (congrArg Val.arr (List.map_congr_left fun j hj => ?_))
    have := List.mem_range.1 hj
    dsimp only
    rw [if_pos (by omega), if_pos this]
  -- the second loop
  have hlen : 2 < m1.length := some_lt hd1.ptr
  let c2 : Ctx := ⟨pkg, (id!"i", .var ⟨m1.length, []⟩) :: env.enter⟩
  obtain ⟨m2, hl2, hd2, hs2⟩ := outer_loop (Pr := progs 0) (c := c2) (s := s) (ib := m1.length) (N := 598)
    (o := .place ⟨0, []⟩ 0 256) ⟨rfl, rfl, rfl⟩ hlen (by decide) 256 (m := m1 ++ [.nil]) (i := 0)
    (hd1'.same (S := fun _ => False) Same.append id id) (by simp) rfl
  have e2 : (interp (progs 0) 599).stmt ⟨pkg, env⟩ (.range (some id!"i") none (.id id!"r") [outerStmt]) { s with mem := m1 } =
      .ok (env, .next) { s with mem := m2 } := by
    refine stmt_range_ptr (l := ⟨0, []⟩)
      (vs := (List.range 256).map fun i => .int .int8 (if i < 256 then rawBitOf (a (i / 8)) (i % 8) else 0)) ?_ ?_ (by decide) (n := 256) (by simp) ?_
    · exact expr_id (l := ⟨2, []⟩) rfl (get_top hd1.ptr)
    · exact get_top hd1'.digits
    · exact hl2
  have e3 : execs (interp (progs 0) 599) ⟨pkg, env⟩ edwards.slide.body s = .ok .next { s with mem := m2 } := by
    rw [slide_text]
    exact execs_one e1 (execs_last e2)
  have hm : m2.take 2 = [encInts .int8 256 (rawSlide a), encInts .uint8 32 a] := by
    have h0 : m2[0]? = _ := hd2.digits
    have h1 : m2[1]? = some (encInts .uint8 32 a) := by
      have ha : m1[1]? = some (encInts .uint8 32 a) := hs1.2 1 (by simp [m0]) (by omega)
      have ha' : (m1 ++ [Val.nil])[1]? = some (encInts .uint8 32 a) := (List.getElem?_append_left (by omega)).trans ha
      exact (hs2.2 1 (by simp; omega) (by omega)).trans ha'
    match m2, h0, h1 with
    | x :: y :: m, h0, h1 =>
      simp only [List.getElem?_cons_zero, List.getElem?_cons_succ, Option.some.injEq] at h0 h1
      subst h0 h1
      rfl
  refine (call_of_execs (P := progs 0) (n := 599) (p := pkg) (f := edwards.slide) (vs := [P 0, P 1]) (rs := [])
    (s := ⟨[encInts .int8 256 r, encInts .uint8 32 a], 2, [], w⟩) (s1 := s) (env := env) (ctl := .next) rfl e3 rfl rfl rfl).trans ?_
  show R.ok [] (St.mk (m2.take 2) 2 [] w) = _
  rw [hm]

theorem Slide_right : Right ω 0 (shape2 sumSlide) edwards.slide 600 := by
  refine shape2_right ?_ ?_
  · intro c x y l e h
    obtain ⟨rfl, rfl⟩ := plainly_some h
    exact plain1 (encInts_plain _ _ _)
  · intro _ o a l e w h
    obtain ⟨rfl, rfl⟩ := plainly_some h
    exact slide_run o a w

end Verif.Src.EdSrc
