/-
The text of `Open` of crypto/crypto.go, with its deferred calls, compared with the model.
-/
import Verif.Source.OpenAll

namespace Verif.Src

variable {ω : Type} (S : Sys ω) (v1 : Val)

/-- The end of `Open`, on any system. -/
def openEnd (f he hw : Nat) (priv : Private) : Act ω Unit := fun w =>
  let r := openS S f he hw (priv, w)
  (r.1, r.2.2)

/-- `Open` as the model says, on any system. -/
def openAllS (f : Nat) (p e m : Bytes) : Act ω Unit := do
  let priv ← loadWith S readPrivateKeyData p
  let he ← S.openFile e
  skipComment f (S.read he)
  let hw ← S.create m
  openEnd S f he hw priv

/-- A system whose opening of files ends with a result, an error or the end of the process, and which reads no more than it is asked for. -/
structure Sys.Fair (S : Sys ω) : Prop where
  openFile : ∀ p w, (S.openFile p w).1 ≠ .panic
  create : ∀ p w, (S.create p w).1 ≠ .panic
  read : ∀ h w got w', S.read h 1 w = (.ok got, w') → got.length ≤ 1

/-- `Open(privatePath, encryptedPath, messagePath string) error`, crypto.go:210-236. -/
theorem open_text (T : S.Tame) (F : S.Fair) (p1 : v1.refers 2 = false) (p e m : Bytes) (f : Nat) (w : ω) {k : Nat}
    (hk : fuelFor (S.readFile p w) + (2 ^ 64 + f + 120) ≤ k) :
    Agrees (openAllS S f p e m w) id
      (fun _ w' r => r = .ok [.nil] ⟨[promptFunc, v1], 2, [], w'⟩)
      (fun er w' r => ∃ v, Heard er v ∧ r = .ok [v] ⟨[promptFunc, v1], 2, [], w'⟩)
      ((interp (repo S) k).call id!"crypto" crypt.Open [.str p, .str e, .str m] ⟨[promptFunc, v1], 2, [], w⟩) := by
  have p0 := promptFunc_plain
  unfold openAllS
  have fa := fuelFor_ge (S.readFile p w)
  obtain ⟨k, rfl⟩ : ∃ j, k = j + 20 := ⟨k - 20, by omega⟩
  have le := callC_le (repo S) (Nat.le_refl (k + 20)) id!"crypto" crypt.Open [.str p, .str e, .str m]
  rw [Act.bind_eq]
  have hL := load_in S (fun a => privateVal_plain a 0) (s := ⟨sealStart promptFunc v1 p e m, 2, [], w⟩) (v0 := promptFunc) (v1 := v1) ⟨rfl, rfl, p0, p1⟩
    (loadPrivate_run S promptFunc v1 p0 p1 p w (n := k) (by omega) (fuelFor_ok (by omega)))
  rcases hl : loadWith S readPrivateKeyData p w with ⟨priv | er | _ | _ | _, w1⟩
  · rw [hl] at hL
    obtain ⟨new, h1, h2, h3, hL⟩ := hL
    obtain ⟨a, b, rfl⟩ := pub_shape (k := 2) h1 h2
    simp only
    rw [Act.bind_eq]
    have t1 := F.openFile e w1
    rcases hO : S.openFile e w1 with ⟨he | er | _ | _ | _, w2⟩
    · simp only
      rw [Act.bind_eq]
      have hK := skip_in S (s := ⟨openAt promptFunc v1 p e m priv a b he, 2, closing1 he, w2⟩) (v0 := promptFunc) (v1 := v1) ⟨rfl, rfl, p0, p1⟩
        (F.read he) (f := f) (n := k) (by omega)
      simp only at hK
      rcases hs : skipComment f (S.read he) w2 with ⟨u | er | _ | _ | _, w3⟩ <;> rw [hs] at hK
      · simp only
        rw [Act.bind_eq]
        have hN := newDecoder_in S (s := ⟨openAt promptFunc v1 p e m priv a b he, 2, closing1 he, w3⟩) (v0 := promptFunc) (v1 := v1)
          ⟨rfl, rfl, p0, p1⟩ he (n := k) (by omega)
        have t3 := F.create m w3
        rcases hC : S.create m w3 with ⟨hw | er | _ | _ | _, w4⟩
        · simp only
          have hB := open_in S T (s := ⟨openBoth promptFunc v1 p e m priv a b he hw, 2, closing he hw, w4⟩) (v1 := v1) ⟨rfl, rfl, p0, p1⟩
            (lk := ⟨25, []⟩) (ld := ⟨32, []⟩) (hm := he) (hw := hw) (priv := priv) (f := f) (by simp) (by simp) rfl rfl rfl (F.read he) (n := k) (by omega)
          have put : ∀ t : Private, Loc.set (openBoth promptFunc v1 p e m priv a b he hw) ⟨25, []⟩ (privateVal t) =
            some (openBoth promptFunc v1 p e m t a b he hw) := fun _ => rfl
          simp only at hB
          unfold openEnd
          simp only
          rcases hb : openS S f he hw (priv, w4) with ⟨u | er | _ | _ | _, priv', w5⟩ <;> rw [hb] at hB
          · obtain ⟨mm, k1, hB⟩ := hB
            cases (put priv').symm.trans k1
            exact le_ok le (openAll5_ok S promptFunc v1 _ hL hO hK hN hC hB)
          · obtain ⟨v, mm, hv, k1, hB⟩ := hB
            cases (put priv').symm.trans k1
            obtain ⟨x, rfl⟩ := hv.err
            exact ⟨_, hv, le_ok le (openAll5_err S promptFunc v1 _ hL hO hK hN hC hB)⟩
          · obtain ⟨⟨l, bs, df, w'⟩, k1, k2, k3⟩ := hB
            cases k2
            cases k3
            obtain ⟨t, c1, c2, c3⟩ := openAll5_panic S promptFunc v1 _ hL hO hK hN hC k1
            exact ⟨t, le_panic le c1, c2, c3⟩
          · obtain ⟨⟨l, bs, df, w'⟩, k1, k2⟩ := hB
            cases k2
            obtain ⟨t, c1, c2⟩ := openAll5_crash S promptFunc v1 _ hL hO hK hN hC k1
            exact ⟨t, le_crash le c1, c2⟩
          · trivial
        · exact ⟨_, .inl (.inl (.inl rfl)), le_ok le (openAll4_err S promptFunc v1 _ hL hO hK hN hC)⟩
        · rw [hC] at t3
          exact absurd rfl t3
        · obtain ⟨t, c1, c2⟩ := openAll4_crash S promptFunc v1 _ hL hO hK hN hC
          exact ⟨t, le_crash le c1, c2⟩
        · trivial
      · exact ⟨_, .inl (.inl (.inl rfl)), le_ok le (openAll3_err S promptFunc v1 _ hL hO hK)⟩
      · obtain ⟨⟨l, bs, df, w'⟩, k1, k2, k3⟩ := hK
        cases k2
        cases k3
        obtain ⟨t, c1, c2, c3⟩ := openAll3_panic S promptFunc v1 _ hL hO k1
        exact ⟨t, le_panic le c1, c2, c3⟩
      · obtain ⟨⟨l, bs, df, w'⟩, k1, k2⟩ := hK
        cases k2
        obtain ⟨t, c1, c2⟩ := openAll3_crash S promptFunc v1 _ hL hO k1
        exact ⟨t, le_crash le c1, c2⟩
      · trivial
    · exact ⟨_, .inl (.inl (.inl rfl)), le_ok le (openAll2_err S promptFunc v1 _ hL hO)⟩
    · rw [hO] at t1
      exact absurd rfl t1
    · obtain ⟨t, c1, c2⟩ := openAll2_crash S promptFunc v1 _ hL hO
      exact ⟨t, le_crash le c1, c2⟩
    · trivial
  · rw [hl] at hL
    obtain ⟨v, m1, hL⟩ := hL
    obtain ⟨x, rfl⟩ := m1.err
    exact ⟨_, .inl (.inl m1), le_ok le (openAll1_err S promptFunc v1 _ hL)⟩
  · rw [hl] at hL
    obtain ⟨⟨l, bs, df, w'⟩, k1, k2, k3⟩ := hL
    cases k2
    cases k3
    obtain ⟨t, c1, c2, c3⟩ := openAll1_panic S promptFunc v1 _ k1
    exact ⟨t, le_panic le c1, c2, c3⟩
  · rw [hl] at hL
    obtain ⟨⟨l, bs, df, w'⟩, k1, k2⟩ := hL
    cases k2
    obtain ⟨t, c1, c2⟩ := openAll1_crash S promptFunc v1 _ k1
    exact ⟨t, le_crash le c1, c2⟩
  · trivial

/-- The same in any memory. -/
theorem openAll_in (T : S.Tame) (F : S.Fair) {st : St ω} {v1 : Val} (G : Globals st promptFunc v1) (p e m : Bytes) (f : Nat) {k : Nat}
    (hk : fuelFor (S.readFile p st.world) + (2 ^ 64 + f + 120) ≤ k) :
    Ends st.defers (openAllS S f p e m st.world) id
      (fun _ w' r => r = .ok [.nil] ⟨st.mem, st.base, st.defers, w'⟩)
      (fun er w' r => ∃ v, Heard er v ∧ r = .ok [v] ⟨st.mem, st.base, st.defers, w'⟩)
      ((interp (repo S) k).call id!"crypto" crypt.Open [.str p, .str e, .str m] st) := by
  have c := carry_keep S (Nat.le_refl k) (ρ := []) (us := []) (args := [.str p, .str e, .str m]) (f := crypt.Open) (p := id!"crypto")
    (Q := fun _ rs new => rs = [.nil] ∧ new = []) (Q' := fun er rs new => new = [] ∧ ∃ v, Heard er v ∧ rs = [v]) G (by simp) (by simp) rfl
    ((open_text S v1 T F G.plain1 p e m f st.world hk).mono (fun _ w' h => ⟨_, [], ⟨rfl, rfl⟩, h⟩)
      (fun er w' ⟨v, hv, h⟩ => ⟨_, [], ⟨rfl, v, hv, rfl⟩, h⟩))
  refine c.mono ?_ ?_
  · rintro a t ⟨rs, new, ⟨rfl, rfl⟩, k⟩
    refine k.trans ?_
    simp only [Emb.renVs, Emb.renV, List.append_nil]
    rfl
  · rintro er t ⟨rs, new, ⟨rfl, v, hv, rfl⟩, k⟩
    refine ⟨v, hv, k.trans ?_⟩
    simp only [Emb.renVs, hv.ren, List.append_nil]
    rfl

end Verif.Src
