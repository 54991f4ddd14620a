/-
Runs on a few blocks of memory, carried over to runs anywhere.
-/
import Verif.Source.Repo
import Verif.Source.Eval

namespace Verif.Src

variable {ω : Type}

/-! ### Bytes -/

/-- A byte in memory. -/
abbrev byteVal (b : UInt8) : Val := .int .uint8 (b.toNat : Int)

@[seval_simps] theorem valByte_byte (t : ITy) (b : UInt8) : valByte (.int t (b.toNat : Int)) = b := by simp [valByte]

@[seval_simps] theorem map_valByte_byteVals (bs : Bytes) : (byteVals bs).map valByte = bs := by
  unfold byteVals
  rw [List.map_map]
  conv => rhs; rw [← List.map_id bs]
  exact List.map_congr_left fun b _ => valByte_byte _ b

theorem byteVals_length (bs : Bytes) : (byteVals bs).length = bs.length := by simp [byteVals]

theorem byteVals_append (bs cs : Bytes) : byteVals (bs ++ cs) = byteVals bs ++ byteVals cs := by simp [byteVals]

theorem byteVals_plain (k : Nat) (bs : Bytes) : Val.anyRefers k (byteVals bs) = false := by
  rw [Val.anyRefers_false]
  intro v hv
  unfold byteVals at hv
  obtain ⟨b, _, rfl⟩ := List.mem_map.1 hv
  rfl

/-- The elements of an array one by one. -/
def listed {n : Nat} (a : Arr n) : Bytes := (List.range n).map fun i => a.toList.getD i 0

theorem listed_eq {n : Nat} (a : Arr n) : listed a = a.toList := by
  refine List.ext_getElem (by simp [listed]) fun i h1 h2 => ?_
  simp only [Vector.length_toList] at h2
  simp [listed, h2]

/-- `[a[0], a[1], …]`. -/
macro "elements%" a:ident n:num : term => do
  let mut ts : Array (Lean.TSyntax `term) := #[]
  for i in [0 : n.getNat] do ts := ts.push (← `(($a).toList.getD $(Lean.quote i) 0))
  `([$ts,*])

@[seval_simps] theorem elements_2 (a : Arr 2) : (elements% a 2 : Bytes) = a.toList := listed_eq a
@[seval_simps] theorem elements_8 (a : Arr 8) : (elements% a 8 : Bytes) = a.toList := listed_eq a
@[seval_simps] theorem elements_16 (a : Arr 16) : (elements% a 16 : Bytes) = a.toList := listed_eq a
@[seval_simps] theorem elements_24 (a : Arr 24) : (elements% a 24 : Bytes) = a.toList := listed_eq a
@[seval_simps] theorem elements_32 (a : Arr 32) : (elements% a 32 : Bytes) = a.toList := listed_eq a
@[seval_simps] theorem elements_64 (a : Arr 64) : (elements% a 64 : Bytes) = a.toList := listed_eq a

@[seval_simps] theorem mk_toList {n : Nat} (a : Arr n) (h : a.toList.toArray.size = n) : (Vector.mk a.toList.toArray h : Arr n) = a := rfl

@[seval_simps] theorem toArr_toList {n : Nat} (a : Arr n) : toArr n a.toList = some a := by
  rw [toArr, dif_pos (by simp)]
  rfl

theorem encArr_bytes {n : Nat} (a : Arr n) : encArr a = .arr (byteVals a.toList) := by
  rw [encArr, EdSrc.encInts]
  congr 1
  refine List.ext_getElem (by simp [byteVals]) fun i h1 h2 => ?_
  simp only [byteVals_length, Vector.length_toList] at h2
  simp [byteVals, EdSrc.intsOf, h2]

/-! ### Anywhere -/

mutual

/-- A value without references to `k` or later is kept by windows that are the first `k` blocks. -/
theorem Emb.renV_below {E : Emb} {k : Nat} (hE : E.win = firstBlocks k) : ∀ v : Val, v.refers k = false → E.renV v = v
  | .ptr l, h => by
    simp only [Val.refers, decide_eq_false_iff_not, Nat.not_le] at h
    rw [Emb.renV, Emb.ren_below hE h]
  | .slice l _ _ _, h => by
    simp only [Val.refers, decide_eq_false_iff_not, Nat.not_le] at h
    rw [Emb.renV, Emb.ren_below hE h]
  | .arr vs, h => by rw [Emb.renV, Emb.renVs_below hE vs (by simpa [Val.refers] using h)]
  | .struct t fs, h => by rw [Emb.renV, Emb.renFs_below hE fs (by simpa [Val.refers] using h)]
  | .int _ _, _ | .bool _, _ | .str _, _ | .nil, _ | .err _, _ | .obj _ _, _ | .func _ _, _ => by simp only [Emb.renV]

theorem Emb.renVs_below {E : Emb} {k : Nat} (hE : E.win = firstBlocks k) : ∀ vs : List Val, Val.anyRefers k vs = false → E.renVs vs = vs
  | [], _ => rfl
  | v :: vs, h => by
    simp only [Val.anyRefers, Bool.or_eq_false_iff] at h
    rw [Emb.renVs, Emb.renV_below hE v h.1, Emb.renVs_below hE vs h.2]

theorem Emb.renFs_below {E : Emb} {k : Nat} (hE : E.win = firstBlocks k) : ∀ fs : List (Id × Val), Val.fieldRefers k fs = false → E.renFs fs = fs
  | [], _ => rfl
  | (f, v) :: vs, h => by
    simp only [Val.fieldRefers, Bool.or_eq_false_iff] at h
    rw [Emb.renFs, Emb.renV_below hE v h.1, Emb.renFs_below hE vs h.2]

theorem Emb.ren_below {E : Emb} {k : Nat} (hE : E.win = firstBlocks k) {l : Loc} (h : l.blk < k) : E.ren l = l := by
  rw [Emb.ren_win (w := ⟨l.blk, []⟩) (by rw [hE]; simp [firstBlocks, h])]
  rfl

end

mutual

/-- Without references to `k` or later, there are none to anything later. -/
theorem Val.refers_mono {k k' : Nat} (hk : k ≤ k') : ∀ v : Val, v.refers k = false → v.refers k' = false
  | .ptr l, h => by
    simp only [Val.refers, decide_eq_false_iff_not, Nat.not_le] at h ⊢
    omega
  | .slice l _ _ _, h => by
    simp only [Val.refers, decide_eq_false_iff_not, Nat.not_le] at h ⊢
    omega
  | .arr vs, h => by
    simp only [Val.refers] at h ⊢
    exact Val.anyRefers_mono hk vs h
  | .struct t fs, h => by
    simp only [Val.refers] at h ⊢
    exact Val.fieldRefers_mono hk fs h
  | .int _ _, _ | .bool _, _ | .str _, _ | .nil, _ | .err _, _ | .obj _ _, _ | .func _ _, _ => by simp only [Val.refers]

theorem Val.anyRefers_mono {k k' : Nat} (hk : k ≤ k') : ∀ vs : List Val, Val.anyRefers k vs = false → Val.anyRefers k' vs = false
  | [], _ => rfl
  | v :: vs, h => by
    simp only [Val.anyRefers, Bool.or_eq_false_iff] at h ⊢
    exact ⟨Val.refers_mono hk v h.1, Val.anyRefers_mono hk vs h.2⟩

theorem Val.fieldRefers_mono {k k' : Nat} (hk : k ≤ k') : ∀ fs : List (Id × Val), Val.fieldRefers k fs = false → Val.fieldRefers k' fs = false
  | [], _ => rfl
  | (f, v) :: vs, h => by
    simp only [Val.fieldRefers, Bool.or_eq_false_iff] at h ⊢
    exact ⟨Val.refers_mono hk v h.1, Val.fieldRefers_mono hk vs h.2⟩

end

theorem writeAll_blocks (A B g X : List Val) (h : X.length = B.length) :
    writeAll (A ++ (B ++ g)) (((List.range' A.length B.length).map fun i => (⟨i, []⟩ : Loc)).zip X) = some (A ++ (X ++ g)) := by
  induction B generalizing A X with
  | nil => rw [List.length_nil, List.length_eq_zero_iff] at h; subst h; rfl
  | cons b B ih =>
    cases X with
    | nil => cases h
    | cons x X =>
      rw [List.length_cons, List.length_cons, Nat.add_right_cancel_iff] at h
      rw [List.length_cons, List.range'_succ, List.map_cons, List.zip_cons_cons, writeAll]
      have : (⟨A.length, []⟩ : Loc).set (A ++ (b :: B ++ g)) x = some ((A ++ [x]) ++ (B ++ g)) := by
        rw [Loc.set_eq]
        simp [Val.set_nil]
      rw [this]
      simp only
      have := ih (A ++ [x]) X h
      rw [List.length_append, List.length_singleton] at this
      rw [this]
      simp

theorem writeAll_firstBlocks {F g X : List Val} (h : X.length = F.length) :
    writeAll (F ++ g) ((firstBlocks F.length).zip X) = some (X ++ g) := by
  have := writeAll_blocks [] F g X h
  simpa [firstBlocks, List.range_eq_range'] using this

/-- The windows that are the first blocks. -/
theorem Emb.valid_first (F g : List Val) : (⟨F ++ g, firstBlocks F.length⟩ : Emb).Valid := by
  constructor
  · intro w hw
    obtain ⟨i, hi, rfl⟩ := List.mem_map.1 hw
    rw [List.mem_range] at hi
    refine ⟨F[i], ?_⟩
    rw [Loc.get_eq]
    simp [Val.get_nil, List.getElem?_append_left hi]
  · show (firstBlocks F.length).Pairwise _
    unfold firstBlocks
    rw [List.pairwise_map]
    refine List.Pairwise.imp ?_ List.pairwise_lt_range
    intro a b hab
    rw [Loc.disjoint_iff]
    exact .inl (Nat.ne_of_lt hab)

/-- A computation that depends on the first blocks only does the same when there are more. -/
theorem grow {α : Type} {x : M ω α} {r : α → α} {F g : List Val} {b : Nat} {w : ω}
    (hx : (⟨F ++ g, firstBlocks F.length⟩ : Emb).Comm r x x) (pl : Val.anyRefers F.length F = false) (hb : b < F.length) :
    match x ⟨F, b, [], w⟩ with
    | .ok a t => ∀ F' new, t.mem = F' ++ new → F'.length = F.length → Val.anyRefers F.length F' = false → t.defers = [] →
      ∃ g', x ⟨F ++ g, b, [], w⟩ = .ok (r a) ⟨F' ++ g', b, [], t.world⟩
    | .panic t => ∃ t', x ⟨F ++ g, b, [], w⟩ = .panic t' ∧ t'.world = t.world ∧ (t.defers = [] → t'.defers = [])
    | .crash t => ∃ t', x ⟨F ++ g, b, [], w⟩ = .crash t' ∧ t'.world = t.world
    | .stuck => True := by
  let E : Emb := ⟨F ++ g, firstBlocks F.length⟩
  have lw : E.win.length = F.length := by simp [E, firstBlocks]
  have bs : ∀ l, (E.ren l).blk < b ↔ l.blk < b := fun l => by
    by_cases h : l.blk < F.length
    · rw [Emb.ren_below (E := E) rfl h]
    · rw [Emb.ren_new (E := E) (by omega)]
      simp only [Emb.renN]
      have : E.mem.length = F.length + g.length := by simp [E]
      omega
  have rel : E.Rel ⟨F, b, [], w⟩ ⟨F ++ g, b, [], w⟩ := by
    refine ⟨by rw [lw], Nat.le_of_lt hb, bs, rfl, rfl, F ++ g, ?_, ?_⟩
    · show writeAll (F ++ g) ((firstBlocks F.length).zip (E.renVs (F.take E.win.length))) = _
      rw [lw, List.take_length, Emb.renVs_below (E := E) rfl F pl]
      exact writeAll_firstBlocks rfl
    · rw [lw, List.drop_length]
      simp [Emb.renVs]
  have := hx _ _ rel
  generalize x ⟨F, b, [], w⟩ = o at this
  cases o with
  | ok a t =>
    obtain ⟨t', e, rl, hb'⟩ := this
    intro F' new hm hl hp hd
    obtain ⟨m, hm1, hm2⟩ := rl.mem
    refine ⟨g ++ E.renVs new, ?_⟩
    rw [e]
    change writeAll (F ++ g) ((firstBlocks F.length).zip (E.renVs (t.mem.take E.win.length))) = _ at hm1
    change t'.mem = m ++ E.renVs (t.mem.drop E.win.length) at hm2
    rw [hm, lw, ← hl, List.take_left, Emb.renVs_below (E := E) rfl F' (hl ▸ hp), hl, writeAll_firstBlocks hl] at hm1
    cases hm1
    rw [hm, lw, ← hl, List.drop_left] at hm2
    have hw := rl.world
    have hds := rl.defers
    rw [hd] at hds
    obtain ⟨tm, tb, td, tw⟩ := t'
    simp only at hm2 hds hw
    subst hm2 hds hw
    have : tb = b := by
      have hbase := rl.base
      simp only at hb' hbase
      rw [hb'] at hbase
      have h1 := (hbase ⟨tb, []⟩)
      have h2 := (hbase ⟨b, []⟩)
      rw [Emb.ren_below (E := E) rfl (by simpa using hb)] at h2
      simp only at h2
      rcases Nat.lt_trichotomy tb b with h | h | h
      · rw [Emb.ren_below (E := E) rfl (by simp only; omega)] at h1
        simp only at h1
        omega
      · exact h
      · omega
    subst this
    simp [List.append_assoc]
  | panic t => obtain ⟨t', e, rl, _⟩ := this; exact ⟨t', e, rl.world, fun hd => by have := rl.defers; rw [hd] at this; exact this⟩
  | crash t => obtain ⟨t', e, rl, _⟩ := this; exact ⟨t', e, rl.world⟩
  | stuck => trivial

/-- What a call does to a few blocks it does to places of any memory that hold the same. -/
theorem call_in {P : Prog ω} (b : P.Bare) {n : Nat} {p : Id} {f : Func} {args vs : List Val} {s : St ω} {ρ : List Loc}
    (len : ρ.length = vs.length) (apart : ρ.Pairwise fun l m => l.disjoint m = true)
    (get : ∀ b ∈ ρ.zip ((⟨s.mem, ρ⟩ : Emb).renVs vs), b.1.get s.mem = some b.2)
    (glob : ∀ p x b, P.global p x = some b → (⟨s.mem, ρ⟩ : Emb).renB b = b) :
    match (interp P n).call p f args ⟨vs, vs.length, [], s.world⟩ with
    | .ok rs t => ∃ m, writeAll s.mem (ρ.zip ((⟨s.mem, ρ⟩ : Emb).renVs (t.mem.take vs.length))) = some m ∧
      (interp P n).call p f ((⟨s.mem, ρ⟩ : Emb).renVs args) s =
        .ok ((⟨s.mem, ρ⟩ : Emb).renVs rs) ⟨m ++ (⟨s.mem, ρ⟩ : Emb).renVs (t.mem.drop vs.length), s.base, s.defers, t.world⟩
    | .panic t => ∃ t', (interp P n).call p f ((⟨s.mem, ρ⟩ : Emb).renVs args) s = .panic t' ∧ t'.world = t.world ∧ t'.defers = s.defers
    | .crash t => ∃ t', (interp P n).call p f ((⟨s.mem, ρ⟩ : Emb).renVs args) s = .crash t' ∧ t'.world = t.world ∧ t'.defers = s.defers
    | .stuck => True := by
  let E : Emb := ⟨s.mem, ρ⟩
  have valid : E.Valid := by
    refine ⟨fun w hw => ?_, apart⟩
    obtain ⟨i, hi, e⟩ := List.getElem_of_mem hw
    have hi' : i < (E.renVs vs).length := by rw [E.renVs_length]; exact len ▸ hi
    have hi : i < ρ.length := hi
    refine ⟨(E.renVs vs)[i], get (w, (E.renVs vs)[i]) ?_⟩
    rw [List.mem_iff_getElem]
    refine ⟨i, by rw [List.length_zip]; exact Nat.lt_min.2 ⟨hi, hi'⟩, ?_⟩
    rw [List.getElem_zip]
    exact congrArg (·, (E.renVs vs)[i]) e
  cases n with
  | zero => exact trivial
  | succ n =>
    have rel : E.Rel ⟨vs, vs.length, [], s.world⟩ { s with base := s.mem.length, defers := [] } := by
      refine ⟨Nat.le_of_eq len, Nat.le_refl _, fun l => ?_, rfl, rfl, s.mem, ?_, ?_⟩
      · have : s.mem.length = E.renN vs.length := by
          show s.mem.length = s.mem.length + (vs.length - ρ.length)
          omega
        show (E.ren l).blk < s.mem.length ↔ l.blk < vs.length
        rw [this]
        exact Emb.ren_lt valid (Nat.le_of_eq len)
      · show writeAll s.mem (ρ.zip (E.renVs (vs.take ρ.length))) = _
        rw [List.take_of_length_le (by omega)]
        exact writeAll_self get
      · show s.mem = s.mem ++ E.renVs (vs.drop ρ.length)
        rw [List.drop_of_length_le (by omega)]
        exact (List.append_nil _).symm
    have := (Emb.comm_interp valid (b.closed valid glob) (n + 1)).call p f args _ _ rel
    have key : ∀ (y : M ω (List Val)) , framed y { s with base := s.mem.length, defers := [] } =
      match framed y s with
      | .ok vs t => .ok vs { t with base := s.mem.length, defers := [] }
      | .panic t => .panic { t with base := s.mem.length, defers := [] }
      | .crash t => .crash { t with base := s.mem.length, defers := [] }
      | .stuck => .stuck := by
      intro y
      unfold framed
      simp only
      generalize y { s with base := s.mem.length, defers := [] } = o
      cases o <;> rfl
    have fin : ∀ (y : M ω (List Val)), match framed y s with
      | .ok _ t | .panic t | .crash t => t.base = s.base ∧ t.defers = s.defers
      | .stuck => True := by
      intro y
      unfold framed
      generalize y { s with base := s.mem.length, defers := [] } = o
      cases o <;> simp
    replace key := key (body P (interp P n) p f (E.renVs args))
    replace fin := fin (body P (interp P n) p f (E.renVs args))
    generalize (interp P (n + 1)).call p f args ⟨vs, vs.length, [], s.world⟩ = o at this
    have ec : (interp P (n + 1)).call p f (E.renVs args) = framed (body P (interp P n) p f (E.renVs args)) := rfl
    show match (generalizing := false) o with
      | .ok rs t => ∃ m, writeAll s.mem (ρ.zip (E.renVs (t.mem.take vs.length))) = some m ∧
        (interp P (n + 1)).call p f (E.renVs args) s =
          .ok (E.renVs rs) ⟨m ++ E.renVs (t.mem.drop vs.length), s.base, s.defers, t.world⟩
      | .panic t => ∃ t', (interp P (n + 1)).call p f (E.renVs args) s = .panic t' ∧ t'.world = t.world ∧ t'.defers = s.defers
      | .crash t => ∃ t', (interp P (n + 1)).call p f (E.renVs args) s = .crash t' ∧ t'.world = t.world ∧ t'.defers = s.defers
      | .stuck => True
    rw [ec] at this ⊢
    rw [key] at this
    generalize framed (body P (interp P n) p f (E.renVs args)) s = q at this fin
    cases o with
    | ok rs t =>
      obtain ⟨t', e, r, _⟩ := this
      obtain ⟨m, hm, em⟩ := r.mem
      have wd := r.world
      change writeAll s.mem (ρ.zip (E.renVs (t.mem.take ρ.length))) = _ at hm
      change t'.mem = m ++ E.renVs (t.mem.drop ρ.length) at em
      refine ⟨m, len ▸ hm, ?_⟩
      cases q with
      | ok us u =>
        simp only [R.ok.injEq] at e ⊢
        obtain ⟨e1, e2⟩ := e
        refine ⟨e1, ?_⟩
        obtain ⟨um, ub, ud, uw⟩ := u
        simp only at fin e2
        obtain ⟨rfl, rfl⟩ := fin
        subst e2
        simp only at em wd
        rw [len] at em
        rw [em, wd]
      | panic u => cases e
      | crash u => cases e
      | stuck => cases e
    | panic t =>
      obtain ⟨t', e, r, _⟩ := this
      cases q with
      | panic u =>
        simp only [R.panic.injEq] at e
        refine ⟨u, rfl, ?_, fin.2⟩
        have := r.world
        rw [← e] at this
        exact this
      | ok us u => cases e
      | crash u => cases e
      | stuck => cases e
    | crash t =>
      obtain ⟨t', e, r, _⟩ := this
      cases q with
      | crash u =>
        simp only [R.crash.injEq] at e
        refine ⟨u, rfl, ?_, fin.2⟩
        have := r.world
        rw [← e] at this
        exact this
      | ok us u => cases e
      | panic u => cases e
      | stuck => cases e
    | stuck => trivial

/-- How a run ends, compared with the model: a value, an error, a panic or the end of the process. Nothing is said about
runs that do not end. -/
def Agrees {α σ β : Type} (o : Res α × σ) (world : σ → ω) (ok : α → σ → R ω β → Prop) (err : GoErr → σ → R ω β → Prop)
    (r : R ω β) : Prop :=
  match o with
  | (.ok a, s) => ok a s r
  | (.err e, s) => err e s r
  | (.panic, s) => ∃ t, r = .panic t ∧ t.world = world s ∧ t.defers = []
  | (.crash, s) => ∃ t, r = .crash t ∧ t.world = world s
  | (.hang, _) => True

theorem Agrees.of {α σ β : Type} {o o' : Res α × σ} {world : σ → ω} {ok : α → σ → R ω β → Prop} {err : GoErr → σ → R ω β → Prop}
    {r r' : R ω β} (h1 : o = o') (h2 : r = r') (h : Agrees o' world ok err r') : Agrees o world ok err r := h1 ▸ h2 ▸ h

end Verif.Src
