/-
The text of `PassphrasePrompt(true)` of signify/key.go compared with the model.
-/
import Verif.Source.ToBoxText

namespace Verif.Src

variable {ω : Type} (S : Sys ω) (v0 v1 : Val)

/-- What `PassphrasePrompt(true)` does, on any system. -/
def confirmS : Act ω Bytes := do
  let pw ← askS S
  S.print b!"Confirm password: "
  let pw' ← S.readPassword
  S.print [10]
  if pw = pw' then pure pw else Act.fail .passphraseMismatch

/-- The error value for a confirmation that differs. -/
def mismatchVal : Val := .err (.text b!"passphrases don't match" none)

/-- The error value of `PassphrasePrompt` that stands for an error of the model: the text for a confirmation that differs, or the terminal's own. -/
def promptErrVal : GoErr → Val
  | .passphraseMismatch => mismatchVal
  | e => libErr e

theorem promptErrVal_lib {e : GoErr} (h : e ≠ .passphraseMismatch) : promptErrVal e = libErr e := by
  cases e <;> first | rfl | exact absurd rfl h

theorem promptErrVal_err (e : GoErr) : ∃ x, promptErrVal e = .err x := by
  cases e <;> exact ⟨_, rfl⟩

/-- What `PassphrasePrompt(true)` adds to `k` blocks, before the confirmation is wiped and after it, for a confirmation that holds `us`. -/
def confirmMem (k : Nat) (pw pw' : Bytes) (us : List Val) : List Val :=
  [.bool true, .arr (byteVals pw), .slice ⟨k + 1, []⟩ 0 pw.length (byteVals pw).length, .nil,
    .arr us, .slice ⟨k + 4, []⟩ 0 pw'.length (byteVals pw').length]

/-- The deferred wipe. -/
noncomputable def wipeAt (i : Nat) : List Deferred := [.func id!"signify" common.zero [.ptr ⟨i, []⟩]]

section
variable (C : Id → Func → List Val → M ω (List Val)) {w w1 w2 w3 w4 w5 w6 : ω} {pw pw' : Bytes}

theorem confirm_err1 {e : GoErr} (ha : S.print b!"Password: " w = (.ok (), w1)) (hb : S.readPassword w1 = (.err e, w2)) :
    callC (repo S) C id!"signify" promptF [.bool true] ⟨[v0, v1], 2, [], w⟩ = .ok [.nil, libErr e] ⟨[v0, v1], 2, [], w2⟩ := by
  seval [ha, hb]

theorem confirm_crash1 (ha : S.print b!"Password: " w = (.ok (), w1)) (hb : S.readPassword w1 = (.crash, w2)) :
    ∃ t, callC (repo S) C id!"signify" promptF [.bool true] ⟨[v0, v1], 2, [], w⟩ = .crash t ∧ t.world = w2 :=
  ⟨_, by seval [ha, hb], rfl⟩

theorem confirm_err2 {e : GoErr} (ha : S.print b!"Password: " w = (.ok (), w1)) (hb : S.readPassword w1 = (.ok pw, w2)) (hc : S.print [10] w2 = (.ok (), w3))
    (hd : S.print b!"Confirm password: " w3 = (.ok (), w4)) (he : S.readPassword w4 = (.err e, w5)) :
    callC (repo S) C id!"signify" promptF [.bool true] ⟨[v0, v1], 2, [], w⟩ = .ok [.nil, libErr e] ⟨[v0, v1], 2, [], w5⟩ := by
  seval [ha, hb, hc, hd, he]

theorem confirm_crash2 (ha : S.print b!"Password: " w = (.ok (), w1)) (hb : S.readPassword w1 = (.ok pw, w2)) (hc : S.print [10] w2 = (.ok (), w3))
    (hd : S.print b!"Confirm password: " w3 = (.ok (), w4)) (he : S.readPassword w4 = (.crash, w5)) :
    ∃ t, callC (repo S) C id!"signify" promptF [.bool true] ⟨[v0, v1], 2, [], w⟩ = .crash t ∧ t.world = w5 :=
  ⟨_, by seval [ha, hb, hc, hd, he], rfl⟩

theorem confirm_same {us : List Val} (ha : S.print b!"Password: " w = (.ok (), w1)) (hb : S.readPassword w1 = (.ok pw, w2)) (hc : S.print [10] w2 = (.ok (), w3))
    (hd : S.print b!"Confirm password: " w3 = (.ok (), w4)) (he : S.readPassword w4 = (.ok pw', w5)) (hf : S.print [10] w5 = (.ok (), w6))
    (hq : readOf (byteVals pw) pw.length = readOf (byteVals pw') pw'.length)
    (hz : C id!"signify" common.zero [.ptr ⟨7, []⟩] ⟨[v0, v1] ++ confirmMem 2 pw pw' (byteVals pw'), 2, wipeAt 7, w6⟩ =
      .ok [] ⟨[v0, v1] ++ confirmMem 2 pw pw' us, 2, wipeAt 7, w6⟩) :
    callC (repo S) C id!"signify" promptF [.bool true] ⟨[v0, v1], 2, [], w⟩ =
      .ok [.slice ⟨3, []⟩ 0 pw.length (byteVals pw).length, .nil] ⟨[v0, v1] ++ confirmMem 2 pw pw' us, 2, [], w6⟩ := by
  unfold confirmMem at *
  seval [ha, hb, hc, hd, he, hf, hq, hz]

theorem confirm_other {us : List Val} (ha : S.print b!"Password: " w = (.ok (), w1)) (hb : S.readPassword w1 = (.ok pw, w2)) (hc : S.print [10] w2 = (.ok (), w3))
    (hd : S.print b!"Confirm password: " w3 = (.ok (), w4)) (he : S.readPassword w4 = (.ok pw', w5)) (hf : S.print [10] w5 = (.ok (), w6))
    (hq : ¬readOf (byteVals pw) pw.length = readOf (byteVals pw') pw'.length)
    (hz : C id!"signify" common.zero [.ptr ⟨7, []⟩] ⟨[v0, v1] ++ confirmMem 2 pw pw' (byteVals pw'), 2, wipeAt 7, w6⟩ =
      .ok [] ⟨[v0, v1] ++ confirmMem 2 pw pw' us, 2, wipeAt 7, w6⟩) :
    callC (repo S) C id!"signify" promptF [.bool true] ⟨[v0, v1], 2, [], w⟩ =
      .ok [.nil, mismatchVal] ⟨[v0, v1], 2, [], w6⟩ := by
  unfold confirmMem at *
  seval [ha, hb, hc, hd, he, hf, hq, hz]
end

/-- `PassphrasePrompt(true)`, key.go:33-61. The block of the confirmation is zero at the end. -/
theorem confirm_run (T : S.Tame) (H : ∀ w, (S.readPassword w).1 ≠ .err .passphraseMismatch) (p0 : v0.refers 2 = false) (p1 : v1.refers 2 = false) (w : ω) {n : Nat} (hn : 40 ≤ n) :
    Agrees (confirmS S w) id
      (fun pw w' r => r = .ok [.slice ⟨3, []⟩ 0 pw.length (byteVals pw).length, .nil] ⟨[v0, v1] ++ confirmMem 2 pw pw (byteVals (List.replicate pw.length 0)), 2, [], w'⟩)
      (fun e w' r => r = .ok [.nil, promptErrVal e] ⟨[v0, v1], 2, [], w'⟩)
      ((interp (repo S) n).call id!"signify" promptF [.bool true] ⟨[v0, v1], 2, [], w⟩) := by
  obtain ⟨k, rfl⟩ : ∃ j, n = j + 20 := ⟨n - 20, by omega⟩
  have le := callC_le (repo S) (Nat.le_refl (k + 20)) id!"signify" promptF [.bool true]
  unfold confirmS askS
  rw [Act.bind_eq, Act.bind_eq]
  have t1 := T.print b!"Password: " w
  rcases ha : S.print b!"Password: " w with ⟨_ | e | _ | _ | _, w1⟩ <;> rw [ha] at t1 <;> cases t1
  simp only
  rw [Act.bind_eq]
  have t2 := T.readPassword w1
  rcases hb : S.readPassword w1 with ⟨pw | e | _ | _ | _, w2⟩
  · simp only
    rw [Act.bind_eq]
    have t3 := T.print [10] w2
    rcases hc : S.print [10] w2 with ⟨_ | e | _ | _ | _, w3⟩ <;> rw [hc] at t3 <;> cases t3
    show Agrees ((S.print b!"Confirm password: " >>= _) w3) _ _ _ _
    rw [Act.bind_eq]
    have t4 := T.print b!"Confirm password: " w3
    rcases hd : S.print b!"Confirm password: " w3 with ⟨_ | e | _ | _ | _, w4⟩ <;> rw [hd] at t4 <;> cases t4
    simp only
    rw [Act.bind_eq]
    have t5 := T.readPassword w4
    rcases he : S.readPassword w4 with ⟨pw' | e | _ | _ | _, w5⟩
    · simp only
      rw [Act.bind_eq]
      have t6 := T.print [10] w5
      rcases hf : S.print [10] w5 with ⟨_ | e | _ | _ | _, w6⟩ <;> rw [hf] at t6 <;> cases t6
      simp only
      obtain ⟨m, k1, k2⟩ := zero_in S (s := ⟨[v0, v1] ++ confirmMem 2 pw pw' (byteVals pw'), 2, wipeAt 7, w6⟩) (v0 := v0) (v1 := v1) ⟨rfl, rfl, p0, p1⟩
        (lb := ⟨7, []⟩) (lp := ⟨6, []⟩) (by simp) (by simp) rfl (pw := pw') (cap := (byteVals pw').length) rfl rfl (n := k) (by omega)
      cases k1
      by_cases hq : pw = pw'
      · rw [if_pos hq]
        subst hq
        exact le_ok le (confirm_same S v0 v1 _ ha hb hc hd he hf rfl k2)
      · rw [if_neg hq]
        exact (le_ok le (confirm_other S v0 v1 _ ha hb hc hd he hf (by rw [readOf_all, readOf_all]; exact hq) k2))
    · have hne : e ≠ .passphraseMismatch := fun h => H w4 (by rw [he, h])
      show _ = _
      rw [promptErrVal_lib hne]
      exact le_ok le (confirm_err2 S v0 v1 _ ha hb hc hd he)
    · rw [he] at t5
      exact absurd rfl t5
    · obtain ⟨t, c1, c2⟩ := confirm_crash2 S v0 v1 _ ha hb hc hd he
      exact ⟨t, le_crash le c1, c2⟩
    · trivial
  · have hne : e ≠ .passphraseMismatch := fun h => H w1 (by rw [hb, h])
    show _ = _
    rw [promptErrVal_lib hne]
    exact le_ok le (confirm_err1 S v0 v1 _ ha hb)
  · rw [hb] at t2
    exact absurd rfl t2
  · obtain ⟨t, c1, c2⟩ := confirm_crash1 S v0 v1 _ ha hb
    exact ⟨t, le_crash le c1, c2⟩
  · trivial

/-- The same in any memory. -/
theorem confirm_in (T : S.Tame) (H : ∀ w, (S.readPassword w).1 ≠ .err .passphraseMismatch) {s : St ω} {v0 v1 : Val} (G : Globals s v0 v1) {n : Nat} (hn : 40 ≤ n) :
    Ends s.defers (confirmS S s.world) id
      (fun pw w' r => r = .ok [.slice ⟨s.mem.length + 1, []⟩ 0 pw.length (byteVals pw).length, .nil]
        ⟨s.mem ++ confirmMem s.mem.length pw pw (byteVals (List.replicate pw.length 0)), s.base, s.defers, w'⟩)
      (fun e w' r => r = .ok [.nil, promptErrVal e] ⟨s.mem, s.base, s.defers, w'⟩)
      ((interp (repo S) n).call id!"signify" promptF [.bool true] s) := by
  have c := carry_keep S hn (ρ := []) (us := []) (args := [.bool true]) (f := promptF) (p := id!"signify")
    (Q := fun pw rs new => rs = [.slice ⟨3, []⟩ 0 pw.length (byteVals pw).length, .nil] ∧ new = confirmMem 2 pw pw (byteVals (List.replicate pw.length 0)))
    (Q' := fun e rs new => new = [] ∧ rs = [.nil, promptErrVal e]) G (by simp) (by simp) rfl
    ((confirm_run S v0 v1 T H G.plain0 G.plain1 s.world (Nat.le_refl 40)).mono (fun pw w' h => ⟨_, _, ⟨rfl, rfl⟩, h⟩)
      (fun e w' h => ⟨_, [], ⟨rfl, rfl⟩, h⟩))
  refine c.mono ?_ ?_
  · rintro pw t ⟨rs, new, ⟨rfl, rfl⟩, k⟩
    refine k.trans ?_
    have pl : ∀ b : Bytes, Val.anyRefers 0 (byteVals b) = false := fun b => byteVals_plain 0 _
    simp only [confirmMem, Emb.renVs, Emb.renV, Emb.renVs_plain _ _ (pl _)]
    rfl
  · rintro e t ⟨rs, new, ⟨rfl, rfl⟩, k⟩
    refine k.trans ?_
    obtain ⟨x, hx⟩ := promptErrVal_err e
    simp only [hx, Emb.renVs, Emb.renV, List.append_nil]
    rfl

end Verif.Src
