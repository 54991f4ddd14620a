/-
The text of `PassphrasePrompt(false)` and of `Private.ToBox` of signify/key.go compared with the model.
-/
import Verif.Source.Calls
import Verif.Source.Zero64
import Verif.Source.SignMain
import Verif.Source.SignCalls

namespace Verif.Src

variable {ω : Type} (S : Sys ω) (v0 v1 : Val)

/-- The function that `PassphrasePrompt` holds at the start. -/
noncomputable def promptF : Func := match promptFunc with
  | .func _ f => f
  | _ => key.Sign

theorem promptFunc_eq : promptFunc = .func id!"signify" promptF := rfl

/-- What `PassphrasePrompt(false)` does, on any system. -/
def askS : Act ω Bytes := do
  S.print b!"Password: "
  let pw ← S.readPassword
  S.print [10]
  pure pw

/-- What it adds to `k` blocks. -/
def askedMem (k : Nat) (pw : Bytes) : List Val :=
  [.bool false, .arr (byteVals pw), .slice ⟨k + 1, []⟩ 0 pw.length (byteVals pw).length, .nil]

/-- `PassphrasePrompt(false)`, key.go:33-61. -/
theorem prompt_run (T : S.Tame) (w : ω) :
    Agrees (askS S w) id
      (fun pw w' r => r = .ok [.slice ⟨3, []⟩ 0 pw.length (byteVals pw).length, .nil] ⟨[v0, v1] ++ askedMem 2 pw, 2, [], w'⟩)
      (fun e w' r => r = .ok [.nil, libErr e] ⟨[v0, v1], 2, [], w'⟩)
      ((interp (repo S) 20).call id!"signify" promptF [.bool false] ⟨[v0, v1], 2, [], w⟩) := by
  unfold askS
  rw [Act.bind_eq]
  have t1 := T.print b!"Password: " w
  rcases ha : S.print b!"Password: " w with ⟨_ | e | _ | _ | _, w1⟩ <;> rw [ha] at t1 <;> cases t1
  simp only
  rw [Act.bind_eq]
  have t2 := T.readPassword w1
  rcases hb : S.readPassword w1 with ⟨pw | e | _ | _ | _, w2⟩
  · simp only
    rw [Act.bind_eq]
    have t3 := T.print [10] w2
    rcases hc : S.print [10] w2 with ⟨_ | e | _ | _ | _, w3⟩ <;> rw [hc] at t3 <;> cases t3
    show _ = _
    unfold askedMem
    seval [ha, hb, hc]
  · show _ = _
    seval [ha, hb]
  · rw [hb] at t2
    exact absurd rfl t2
  · exact ⟨_, by seval [ha, hb], rfl⟩
  · trivial

/-- The same in any memory. -/
theorem prompt_in (T : S.Tame) {s : St ω} {v0 v1 : Val} (G : Globals s v0 v1) {n : Nat} (hn : 20 ≤ n) :
    Ends s.defers (askS S s.world) id
      (fun pw w' r => r = .ok [.slice ⟨s.mem.length + 1, []⟩ 0 pw.length (byteVals pw).length, .nil] ⟨s.mem ++ askedMem s.mem.length pw, s.base, s.defers, w'⟩)
      (fun e w' r => r = .ok [.nil, libErr e] ⟨s.mem, s.base, s.defers, w'⟩)
      ((interp (repo S) n).call id!"signify" promptF [.bool false] s) := by
  have c := carry_keep S hn (ρ := []) (us := []) (args := [.bool false]) (f := promptF) (p := id!"signify")
    (Q := fun pw rs new => rs = [.slice ⟨3, []⟩ 0 pw.length (byteVals pw).length, .nil] ∧ new = askedMem 2 pw)
    (Q' := fun e rs new => new = [] ∧ rs = [.nil, libErr e]) G (by simp) (by simp) rfl
    ((prompt_run S v0 v1 T s.world).mono (fun pw w' h => ⟨_, askedMem 2 pw, ⟨rfl, rfl⟩, h⟩)
      (fun e w' h => ⟨_, [], ⟨rfl, rfl⟩, h⟩))
  refine c.mono ?_ ?_
  · rintro pw t ⟨rs, new, ⟨rfl, rfl⟩, k⟩
    refine k.trans ?_
    have pl : Val.anyRefers 0 (byteVals pw) = false := byteVals_plain 0 _
    simp only [askedMem, Emb.renVs, Emb.renV, Emb.renVs_plain _ _ pl]
    rfl
  · rintro e t ⟨rs, new, ⟨rfl, rfl⟩, k⟩
    refine k.trans ?_
    simp only [Emb.renVs, Emb.renV, List.append_nil]
    cases e <;> rfl

/-- The first half of a key, entry by entry. -/
def halfL (k : Arr 64) : Bytes := (List.range 32).map fun i => k.toList.getD i 0

theorem halfL_eq (k : Arr 64) : halfL k = k.toList.take 32 := by
  refine List.ext_getElem (by simp [halfL]) fun i h1 h2 => ?_
  simp only [List.length_take, Vector.length_toList] at h2
  simp [halfL, show i < 64 by omega]

/-- An entry of the digest after the three assignments. -/
def clampAt (dg : Arr 64) (i : Nat) : Val :=
  if i = 0 then .int .uint8 (ITy.uint8.bitwise (· &&& ·) (dg.toList.getD 0 0).toNat 248)
  else if i = 31 then .int .uint8 (ITy.uint8.bitwise (· ||| ·) (ITy.uint8.bitwise (· &&& ·) (dg.toList.getD 31 0).toNat 127) 64)
  else .int .uint8 (dg.toList.getD i 0).toNat

/-- The first `n` entries. -/
def clampL (n : Nat) (dg : Arr 64) : Val := .arr ((List.range n).map (clampAt dg))

/-- The digest after the three assignments. -/
def clamped (dg : Arr 64) : Arr 64 :=
  let dg := dg.set 0 (dg[0] &&& 248)
  let dg := dg.set 31 (dg[31] &&& 127)
  dg.set 31 (dg[31] ||| 64)

theorem clampAt_eq (dg : Arr 64) {i : Nat} (h : i < 64) : clampAt dg i = byteVal ((clamped dg)[i]) := by
  unfold clampAt clamped byteVal
  simp only [Vector.getElem_set]
  have get : ∀ j (hj : j < 64), dg.toList.getD j 0 = dg[j] := fun j hj => by simp [List.getD, hj]
  have a : ∀ x y : UInt8, ITy.uint8.bitwise (· &&& ·) x.toNat y.toNat = ((x &&& y).toNat : Int) := EdSrc.and8_eq
  have o : ∀ x y : UInt8, ITy.uint8.bitwise (· ||| ·) x.toNat y.toNat = ((x ||| y).toNat : Int) := EdSrc.or8_eq
  by_cases h0 : i = 0
  · subst h0
    rw [if_pos rfl, get 0 (by decide)]
    simp only [show ¬(31 = 0) by decide, if_false, if_true]
    rw [← a dg[0] 248]
    rfl
  · rw [if_neg h0]
    by_cases h1 : i = 31
    · subst h1
      rw [if_pos rfl, get 31 (by decide)]
      simp only [show ¬(0 = 31) by decide, if_false, if_true]
      rw [← o _ 64, ← a dg[31] 127]
      rfl
    · rw [if_neg h1, get i h]
      simp only [Ne.symm h0, Ne.symm h1, if_false]

theorem clampL_64 (dg : Arr 64) : clampL 64 dg = .arr (byteVals (clamped dg).toList) := by
  unfold clampL
  congr 1
  refine List.ext_getElem (by simp [byteVals]) fun i h1 h2 => ?_
  simp only [List.length_map, List.length_range] at h1
  simp [byteVals, clampAt_eq dg h1]

theorem clampL_take (dg : Arr 64) : clampL 32 dg = .arr (byteVals ((clamped dg).toList.take 32)) := by
  unfold clampL
  congr 1
  refine List.ext_getElem (by simp [byteVals]) fun i h1 h2 => ?_
  simp only [List.length_map, List.length_range] at h1
  rw [List.getElem_map, List.getElem_range, clampAt_eq dg (show i < 64 by omega)]
  simp [byteVals]

theorem clampL_32 (P : Prims) (k : Arr 64) : clampL 32 (P.sha512 (halfL k)) = encArr (boxScalar P k).1 := by
  rw [halfL_eq, encArr_bytes, clampL_take]
  have e : (boxScalar P k).1 = copyZ 32 (clamped (P.sha512 (k.toList.take 32))).toList := rfl
  rw [e]
  generalize clamped (P.sha512 (k.toList.take 32)) = dg
  rw [copyZ_toList_of_le (by simp)]

/-- The deferred call. -/
noncomputable def wipe64 (k : Nat) : List Deferred := [.func id!"signify" common.zero64 [.ptr ⟨k, []⟩]]

section
variable (C : Id → Func → List Val → M ω (List Val)) (F : Func) {priv priv' : Private} {w w' : ω} {x : EVal} {pw : Bytes} {z : Val}

theorem box_good
    (hC : C id!"signify" key.Private.Check [.ptr ⟨2, []⟩] ⟨[v0, v1, privateVal priv, .ptr ⟨2, []⟩], 3, [], w⟩ =
      .ok [.nil] ⟨[v0, v1, privateVal priv, .ptr ⟨2, []⟩], 3, [], w⟩)
    (hZ : C id!"signify" common.zero64 [.ptr ⟨6, []⟩]
        ⟨[v0, v1, privateVal priv, .ptr ⟨2, []⟩, .nil, clampL 32 (S.prims.sha512 (halfL priv.key)), clampL 64 (S.prims.sha512 (halfL priv.key))], 3, wipe64 6, w⟩ =
      .ok [] ⟨[v0, v1, privateVal priv, .ptr ⟨2, []⟩, .nil, clampL 32 (S.prims.sha512 (halfL priv.key)), z], 3, wipe64 6, w⟩) :
    callC (repo S) C id!"signify" key.Private.ToBox [.ptr ⟨2, []⟩] ⟨[v0, v1, privateVal priv], 3, [], w⟩ =
      .ok [.ptr ⟨5, []⟩, .nil] ⟨[v0, v1, privateVal priv, .ptr ⟨2, []⟩, .nil, clampL 32 (S.prims.sha512 (halfL priv.key)), z], 3, [], w⟩ := by
  seval [hC, hZ]

/-- Memory before the prompt. -/
def boxMem0 (priv : Private) (x : EVal) : List Val := [.func id!"signify" F, v1, privateVal priv, .ptr ⟨2, []⟩, .err x, .nil]

/-- Memory after the prompt. -/
def boxMem (priv : Private) (pw : Bytes) : List Val :=
  [.func id!"signify" F, v1, privateVal priv, .ptr ⟨2, []⟩, .nil, .slice ⟨7, []⟩ 0 pw.length (byteVals pw).length] ++ askedMem 6 pw

theorem box_ask_err
    (hC : C id!"signify" key.Private.Check [.ptr ⟨2, []⟩] ⟨[.func id!"signify" F, v1, privateVal priv, .ptr ⟨2, []⟩], 3, [], w⟩ =
      .ok [.err x] ⟨[.func id!"signify" F, v1, privateVal priv, .ptr ⟨2, []⟩], 3, [], w⟩) {y : EVal}
    (hP : C id!"signify" F [.bool false] ⟨boxMem0 v1 F priv x, 3, [], w⟩ = .ok [.nil, .err y] ⟨boxMem0 v1 F priv x, 3, [], w'⟩) :
    callC (repo S) C id!"signify" key.Private.ToBox [.ptr ⟨2, []⟩] ⟨[.func id!"signify" F, v1, privateVal priv], 3, [], w⟩ =
      .ok [.nil, .err y] ⟨[.func id!"signify" F, v1, privateVal priv], 3, [], w'⟩ := by
  unfold boxMem0 at *
  seval [hC, hP]

theorem box_ask_crash
    (hC : C id!"signify" key.Private.Check [.ptr ⟨2, []⟩] ⟨[.func id!"signify" F, v1, privateVal priv, .ptr ⟨2, []⟩], 3, [], w⟩ =
      .ok [.err x] ⟨[.func id!"signify" F, v1, privateVal priv, .ptr ⟨2, []⟩], 3, [], w⟩) {l : List Val} {b : Nat} {df : List Deferred}
    (hP : C id!"signify" F [.bool false] ⟨boxMem0 v1 F priv x, 3, [], w⟩ = .crash ⟨l, b, df, w'⟩) :
    ∃ t, callC (repo S) C id!"signify" key.Private.ToBox [.ptr ⟨2, []⟩] ⟨[.func id!"signify" F, v1, privateVal priv], 3, [], w⟩ = .crash t ∧ t.world = w' := by
  unfold boxMem0 at *
  exact ⟨_, by seval [hC, hP], rfl⟩

theorem box_dec_err
    (hC : C id!"signify" key.Private.Check [.ptr ⟨2, []⟩] ⟨[.func id!"signify" F, v1, privateVal priv, .ptr ⟨2, []⟩], 3, [], w⟩ =
      .ok [.err x] ⟨[.func id!"signify" F, v1, privateVal priv, .ptr ⟨2, []⟩], 3, [], w⟩)
    (hP : C id!"signify" F [.bool false] ⟨boxMem0 v1 F priv x, 3, [], w⟩ =
      .ok [.slice ⟨7, []⟩ 0 pw.length (byteVals pw).length, .nil] ⟨boxMem0 v1 F priv x ++ askedMem 6 pw, 3, [], w'⟩) {y : EVal}
    (hD : C id!"signify" key.Private.decrypt [.ptr ⟨2, []⟩, .slice ⟨7, []⟩ 0 pw.length (byteVals pw).length] ⟨boxMem v1 F priv pw, 3, [], w'⟩ =
      .ok [.err y] ⟨boxMem v1 F priv' pw, 3, [], w'⟩) :
    callC (repo S) C id!"signify" key.Private.ToBox [.ptr ⟨2, []⟩] ⟨[.func id!"signify" F, v1, privateVal priv], 3, [], w⟩ =
      .ok [.nil, .err y] ⟨[.func id!"signify" F, v1, privateVal priv'], 3, [], w'⟩ := by
  unfold boxMem0 boxMem askedMem at *
  seval [hC, hP, hD]

theorem box_dec_ok
    (hC : C id!"signify" key.Private.Check [.ptr ⟨2, []⟩] ⟨[.func id!"signify" F, v1, privateVal priv, .ptr ⟨2, []⟩], 3, [], w⟩ =
      .ok [.err x] ⟨[.func id!"signify" F, v1, privateVal priv, .ptr ⟨2, []⟩], 3, [], w⟩)
    (hP : C id!"signify" F [.bool false] ⟨boxMem0 v1 F priv x, 3, [], w⟩ =
      .ok [.slice ⟨7, []⟩ 0 pw.length (byteVals pw).length, .nil] ⟨boxMem0 v1 F priv x ++ askedMem 6 pw, 3, [], w'⟩)
    (hD : C id!"signify" key.Private.decrypt [.ptr ⟨2, []⟩, .slice ⟨7, []⟩ 0 pw.length (byteVals pw).length] ⟨boxMem v1 F priv pw, 3, [], w'⟩ =
      .ok [.nil] ⟨boxMem v1 F priv' pw, 3, [], w'⟩)
    (hZ : C id!"signify" common.zero64 [.ptr ⟨11, []⟩]
        ⟨boxMem v1 F priv' pw ++ [clampL 32 (S.prims.sha512 (halfL priv'.key)), clampL 64 (S.prims.sha512 (halfL priv'.key))], 3, wipe64 11, w'⟩ =
      .ok [] ⟨boxMem v1 F priv' pw ++ [clampL 32 (S.prims.sha512 (halfL priv'.key)), z], 3, wipe64 11, w'⟩) :
    callC (repo S) C id!"signify" key.Private.ToBox [.ptr ⟨2, []⟩] ⟨[.func id!"signify" F, v1, privateVal priv], 3, [], w⟩ =
      .ok [.ptr ⟨10, []⟩, .nil] ⟨boxMem v1 F priv' pw ++ [clampL 32 (S.prims.sha512 (halfL priv'.key)), z], 3, [], w'⟩ := by
  unfold boxMem0 boxMem askedMem at *
  seval [hC, hP, hD, hZ]
end

/-- `Private.ToBox` as the model says, on any system. -/
def toBoxS : Act (Private × ω) (Arr 32) := do
  let priv ← Act.getFst
  match priv.check S.prims with
  | .ok _ => pure ()
  | _ => do
    let pw ← Act.onSnd (askS S)
    let priv ← Act.getFst
    let r := Private.decrypt S.prims pw priv
    Act.setFst r.2
    Act.ofRes r.1
  let priv ← Act.getFst
  pure (boxScalar S.prims priv.key).1

theorem toBoxS_good {priv : Private} (h : priv.check S.prims = .ok ()) (w : ω) : toBoxS S (priv, w) = (.ok (boxScalar S.prims priv.key).1, priv, w) := by
  unfold toBoxS
  simp only [Act.bind_eq, Act.getFst, h]
  rfl

theorem toBoxS_bad {priv : Private} {e : GoErr} (h : priv.check S.prims = .err e) (w : ω) : toBoxS S (priv, w) =
    match askS S w with
    | (.ok pw, w') =>
      match Private.decrypt S.prims pw priv with
      | (.ok _, priv') => (.ok (boxScalar S.prims priv'.key).1, priv', w')
      | (.err e, priv') => (.err e, priv', w')
      | (.panic, priv') => (.panic, priv', w')
      | (.crash, priv') => (.crash, priv', w')
      | (.hang, priv') => (.hang, priv', w')
    | (.err e, w') => (.err e, priv, w')
    | (.panic, w') => (.panic, priv, w')
    | (.crash, w') => (.crash, priv, w')
    | (.hang, w') => (.hang, priv, w') := by
  unfold toBoxS
  simp only [Act.bind_eq, Act.getFst, h, Act.onSnd, Act.setFst, Act.ofRes]
  rcases askS S w with ⟨pw | e | _ | _ | _, w'⟩
  · simp only
    rcases Private.decrypt S.prims pw priv with ⟨u | e | _ | _ | _, priv'⟩ <;> rfl
  all_goals rfl

/-- The variables that `ToBox` leaves after `k` blocks: with the passphrase, if it asked for one. -/
def boxPre (k : Nat) (l : Loc) : Option Bytes → List Val
  | none => [.ptr l, .nil]
  | some pw => [.ptr l, .nil, .slice ⟨k + 4, []⟩ 0 pw.length (byteVals pw).length, .bool false, .arr (byteVals pw),
      .slice ⟨k + 4, []⟩ 0 pw.length (byteVals pw).length, .nil]

/-- How many they are. -/
def preLen : Option Bytes → Nat
  | none => 2
  | some _ => 7

theorem boxPre_length (k : Nat) (l : Loc) (o : Option Bytes) : (boxPre k l o).length = preLen o := by
  cases o <;> rfl

theorem preLen_cases (o : Option Bytes) : preLen o = 2 ∨ preLen o = 7 := by
  cases o
  · exact .inl rfl
  · exact .inr rfl

theorem boxPre_plain {k n : Nat} {l : Loc} (hl : l.blk < n) {o : Option Bytes} (h : k + 4 < n) : Val.anyRefers n (boxPre k l o) = false := by
  cases o with
  | none => simp [boxPre, Val.anyRefers, Val.refers]; omega
  | some pw => simp [boxPre, Val.anyRefers, Val.refers, byteVals_plain]; omega

/-- What `ToBox` leaves: some variables, the scalar and the wiped digest. -/
def boxLeft (pre : List Val) (sc : Arr 32) : List Val := pre ++ [encArr sc, .arr (byteVals (List.replicate 64 0))]

theorem check_cases (P : Prims) (priv : Private) : priv.check P = .ok () ∨ priv.check P = .err .badChecksum := by
  unfold Private.check
  split <;> simp

theorem clamp_wiped {s : St ω} {v0 v1 : Val} (G : Globals s v0 v1) {l : Loc} (hl : 2 ≤ l.blk) {dg : Arr 64} (E : l.get s.mem = some (clampL 64 dg)) {n : Nat} (hn : 20 ≤ n) :
    ∃ m, l.set s.mem (.arr (byteVals (List.replicate 64 0))) = some m ∧
      (interp (repo S) n).call id!"signify" common.zero64 [.ptr l] s = .ok [] { s with mem := m } := by
  rw [clampL_64] at E
  obtain ⟨m, k1, k2⟩ := wipe_in S G hl E hn
  rw [Vector.length_toList] at k1
  exact ⟨m, k1, k2⟩

theorem privBox_run (T : S.Tame) (p1 : v1.refers 2 = false) (priv : Private) (w : ω) {n : Nat} (hn : 60 ≤ n) :
    Agrees (toBoxS S (priv, w)) Prod.snd
      (fun sc t r => ∃ o, r = .ok [.ptr ⟨preLen o + 3, []⟩, .nil] ⟨promptFunc :: v1 :: [privateVal t.1] ++ boxLeft (boxPre 3 ⟨2, []⟩ o) sc, 3, [], t.2⟩)
      (fun e t r => ∃ v, Says e v ∧ r = .ok [.nil, v] ⟨promptFunc :: v1 :: [privateVal t.1] ++ [], 3, [], t.2⟩)
      ((interp (repo S) n).call id!"signify" key.Private.ToBox [.ptr ⟨2, []⟩] ⟨promptFunc :: v1 :: [privateVal priv], 3, [], w⟩) := by
  have p0 := promptFunc_plain
  obtain ⟨k, rfl⟩ : ∃ j, n = j + 20 := ⟨n - 20, by omega⟩
  have le := callC_le (repo S) (Nat.le_refl (k + 20)) id!"signify" key.Private.ToBox [.ptr ⟨2, []⟩]
  have c := check_in S (s := ⟨[promptFunc, v1, privateVal priv, .ptr ⟨2, []⟩], 3, [], w⟩) (v0 := promptFunc) (v1 := v1)
    ⟨rfl, rfl, p0, p1⟩ (l := ⟨2, []⟩) (by simp) (priv := priv) rfl (n := k) (by omega)
  rcases check_cases S.prims priv with o | o
  · rw [o] at c
    rw [toBoxS_good S o]
    obtain ⟨m, k1, k2⟩ := clamp_wiped S (s := ⟨[promptFunc, v1, privateVal priv, .ptr ⟨2, []⟩, .nil, clampL 32 (S.prims.sha512 (halfL priv.key)),
      clampL 64 (S.prims.sha512 (halfL priv.key))], 3, wipe64 6, w⟩) (v0 := promptFunc) (v1 := v1) ⟨rfl, rfl, p0, p1⟩ (l := ⟨6, []⟩) (by simp) rfl (n := k) (by omega)
    cases k1
    refine ⟨none, (le_ok le (box_good S promptFunc v1 _ c k2)).trans ?_⟩
    rw [clampL_32]
    rfl
  · rw [o] at c
    rw [toBoxS_bad S o]
    obtain ⟨v, hv, c⟩ := c
    obtain ⟨x, rfl⟩ := hv.err
    have hP := prompt_in S T (s := ⟨boxMem0 v1 promptF priv x, 3, [], w⟩) (v0 := promptFunc) (v1 := v1) ⟨rfl, rfl, p0, p1⟩ (n := k) (by omega)
    simp only at hP
    rcases ha : askS S w with ⟨pw | e | _ | _ | _, w'⟩
    · rw [ha] at hP
      have hD := decrypt_in S (s := ⟨boxMem v1 promptF priv pw, 3, [], w'⟩) (v0 := promptFunc) (v1 := v1) ⟨rfl, rfl, p0, p1⟩ (lk := ⟨2, []⟩) (lp := ⟨7, []⟩)
        (by simp) (by simp) rfl (priv := priv) (pw := pw) rfl rfl (byteVals pw).length (n := k) (by omega)
      unfold Decrypts at hD
      simp only
      rcases hd : Private.decrypt S.prims pw priv with ⟨u | e | _ | _ | _, priv'⟩
      · rw [hd] at hD
        obtain ⟨m, k1, hD⟩ := hD
        cases k1
        obtain ⟨m, k1, k2⟩ := clamp_wiped S (s := ⟨boxMem v1 promptF priv' pw ++ [clampL 32 (S.prims.sha512 (halfL priv'.key)), clampL 64 (S.prims.sha512 (halfL priv'.key))],
          3, wipe64 11, w'⟩) (v0 := promptFunc) (v1 := v1) ⟨rfl, rfl, p0, p1⟩ (l := ⟨11, []⟩) (by simp) rfl (n := k) (by omega)
        cases k1
        refine ⟨some pw, (le_ok le (box_dec_ok S v1 _ promptF c hP hD k2)).trans ?_⟩
        rw [clampL_32]
        rfl
      · rw [hd] at hD
        obtain ⟨v, hv, m, k1, hD⟩ := hD
        cases k1
        obtain ⟨y, rfl⟩ := hv.err
        exact ⟨_, hv, le_ok le (box_dec_err S v1 _ promptF c hP hD)⟩
      all_goals rw [hd] at hD; exact hD.elim
    · rw [ha] at hP
      refine ⟨libErr e, .inl rfl, ?_⟩
      cases e <;> exact le_ok le (box_ask_err S v1 _ promptF c hP)
    · have : (askS S w).1 ≠ .panic := by
        unfold askS
        rw [Act.bind_eq]
        have t1 := T.print b!"Password: " w
        rcases ha : S.print b!"Password: " w with ⟨_ | e | _ | _ | _, w1⟩ <;> rw [ha] at t1 <;> cases t1
        simp only
        rw [Act.bind_eq]
        have t2 := T.readPassword w1
        rcases hb : S.readPassword w1 with ⟨pw | e | _ | _ | _, w2⟩
        · simp only
          rw [Act.bind_eq]
          have t3 := T.print [10] w2
          rcases hc : S.print [10] w2 with ⟨_ | e | _ | _ | _, w3⟩ <;> rw [hc] at t3 <;> cases t3
          exact fun h => by cases h
        all_goals simp_all
      rw [ha] at this
      exact absurd rfl this
    · rw [ha] at hP
      obtain ⟨⟨l, bs, df, w''⟩, k2, k3⟩ := hP
      cases k3
      obtain ⟨t, c1, c2⟩ := box_ask_crash S v1 _ promptF c k2
      exact ⟨t, le_crash le c1, c2⟩
    · trivial

/-- `(priv *Private) ToBox() (*[32]byte, error)`, key.go:246-270, in any memory. -/
theorem privBox_in (T : S.Tame) {s : St ω} {v1 : Val} (G : Globals s promptFunc v1) {lk : Loc} (hk : 2 ≤ lk.blk) {priv : Private}
    (ek : lk.get s.mem = some (privateVal priv)) {n : Nat} (hn : 60 ≤ n) :
    Ends s.defers (toBoxS S (priv, s.world)) Prod.snd
      (fun sc t r => ∃ o m, lk.set s.mem (privateVal t.1) = some m ∧
        r = .ok [.ptr ⟨s.mem.length + preLen o, []⟩, .nil] ⟨m ++ boxLeft (boxPre s.mem.length lk o) sc, s.base, s.defers, t.2⟩)
      (fun e t r => ∃ v m, Says e v ∧ lk.set s.mem (privateVal t.1) = some m ∧ r = .ok [.nil, v] ⟨m, s.base, s.defers, t.2⟩)
      ((interp (repo S) n).call id!"signify" key.Private.ToBox [.ptr lk] s) := by
  have c := carry S hn (ρ := [lk]) (us := [privateVal priv]) G (by simp [hk]) (by simp)
    (by simp only [getAll, ek, Emb.renVs, Emb.renV_plain _ _ (privateVal_plain priv 0)]) (privBox_run S v1 T G.plain1 priv s.world (Nat.le_refl 60))
  have ea : (beside s [lk]).renVs [.ptr ⟨2, []⟩] = [.ptr lk] := by
    simp only [Emb.renVs, Emb.renV]
    rw [ren_two 0 lk rfl]
  rw [ea] at c
  refine c.mono ?_ ?_
  · rintro sc t ⟨r0, ⟨o, rfl⟩, k⟩
    obtain ⟨M, k1, k2⟩ := k _ [privateVal t.1] (boxLeft (boxPre 3 ⟨2, []⟩ o) sc) _ _ _ rfl rfl
    simp only [Emb.renVs, Emb.renV_plain _ _ (privateVal_plain t.1 0), List.zip_cons_cons, List.zip_nil_right] at k1
    obtain ⟨m1, c1, k1⟩ := writeAll_cons k1
    cases k1
    have pl : Val.anyRefers 0 (byteVals (List.replicate 64 0)) = false := byteVals_plain 0 _
    refine ⟨o, _, c1, k2.trans ?_⟩
    have e0 : (beside s [lk]).renVs (boxPre 3 ⟨2, []⟩ o) = boxPre s.mem.length lk o := by
      cases o with
      | none =>
        simp only [boxPre, Emb.renVs, Emb.renV]
        rw [ren_two 0 lk rfl]
      | some pw =>
        have pl : Val.anyRefers 0 (byteVals pw) = false := byteVals_plain 0 _
        simp only [boxPre, Emb.renVs, Emb.renV, Emb.renVs_plain _ _ pl]
        rw [ren_two 0 lk rfl]
        rfl
    have e1 : (beside s [lk]).renVs (boxLeft (boxPre 3 ⟨2, []⟩ o) sc) = boxLeft (boxPre s.mem.length lk o) sc := by
      unfold boxLeft
      rw [Emb.renVs_append, e0]
      simp only [Emb.renVs, Emb.renV_plain _ _ (Emb.encArr_plain _), Emb.renV, Emb.renVs_plain _ _ pl]
    have e2 : (beside s [lk]).renVs [.ptr ⟨preLen o + 3, []⟩, .nil] = [.ptr ⟨s.mem.length + preLen o, []⟩, .nil] := by
      simp only [Emb.renVs, Emb.renV]
      cases o <;> rfl
    rw [e1, e2]
  · rintro e t ⟨r0, ⟨v, hv, rfl⟩, k⟩
    obtain ⟨M, k1, k2⟩ := k _ [privateVal t.1] [] _ _ _ rfl rfl
    simp only [Emb.renVs, Emb.renV_plain _ _ (privateVal_plain t.1 0), List.zip_cons_cons, List.zip_nil_right] at k1
    obtain ⟨m1, c1, k1⟩ := writeAll_cons k1
    cases k1
    refine ⟨v, _, hv, c1, k2.trans ?_⟩
    obtain ⟨y, rfl⟩ := hv.err
    simp only [Emb.renVs, Emb.renV, List.append_nil]

end Verif.Src
