/-
The text of `Seal` of crypto/crypto.go, with its deferred calls, compared with the model.
-/
import Verif.Lemmas.Box
import Verif.Source.SealText

namespace Verif.Src

variable {ω : Type} (S : Sys ω) (v0 v1 : Val)

/-- The error value of a function of crypto/crypto.go. -/
def Tells (e : GoErr) (v : Val) : Prop := Says e v ∨ IsErr e v

theorem Tells.err {e : GoErr} {v : Val} (h : Tells e v) : ∃ x, v = .err x := by
  rcases h with h | rfl | rfl
  · exact h.err
  · exact ⟨_, rfl⟩
  · cases e <;> exact ⟨_, rfl⟩

theorem Tells.ren {e : GoErr} {v : Val} (h : Tells e v) (E : Emb) : E.renV v = v := by
  obtain ⟨x, rfl⟩ := h.err
  rfl

/-- The end of `Seal`, on any system. -/
def sealEnd (pub : Public) (hm n hw : Nat) : Act ω Unit := fun w =>
  let r := sealBox S.prims pub (Act.onSnd (S.entropy 32)) (fun k => Act.onSnd (S.read hm k)) n (encWrite (S.write hw)) (EncState.new, w)
  match r.1 with
  | .crash => (.crash, r.2.2)
  | .hang => (.hang, r.2.2)
  | res =>
    let c := encClose (S.write hw) r.2
    match c.1 with
    | .panic => (.panic, c.2.2)
    | .crash => (.crash, c.2.2)
    | .hang => (.hang, c.2.2)
    | _ => (res, c.2.2)

/-- `Seal` as the model says, on any system. -/
def sealS (p m s : Bytes) : Act ω Unit := do
  let pub ← loadWith S readPublicKeyData p
  let hm ← S.openFile m
  let n ← S.size hm
  let hw ← S.create (if s = [] then m ++ b!".enc" else s)
  let _ ← S.write hw sealLine
  sealEnd S pub hm n hw

/-- A system whose operations on files end with a result, an error or the end of the process. -/
structure Sys.Calm (S : Sys ω) : Prop where
  openFile : ∀ p w, (S.openFile p w).1 ≠ .panic
  create : ∀ p w, (S.create p w).1 ≠ .panic
  size : ∀ h w, (S.size h w).1 ≠ .panic
  write : ∀ h bs w, (S.write h bs w).1 ≠ .panic
  box : ∀ pub hm n hw w, (sealBox S.prims pub (Act.onSnd (S.entropy 32)) (fun k => Act.onSnd (S.read hm k)) n (encWrite (S.write hw)) (EncState.new, w)).1 ≠ .panic
  close : ∀ hw t, (encClose (S.write hw) t).1 ≠ .panic
  read : ∀ hm w got w', S.read hm 16385 w = (.ok got, w') → got.length ≤ 16385

/-- The size of the file that `Seal` reads, wherever it gets to that. -/
def SizeIs (p m : Bytes) (w : ω) (Q : Nat → Prop) : Prop :=
  ∀ pub w1 hm w2 n w3, loadWith S readPublicKeyData p w = (.ok pub, w1) → S.openFile m w1 = (.ok hm, w2) → S.size hm w2 = (.ok n, w3) → Q n

theorem encNew_ok : EncOk EncState.new := by
  unfold EncOk EncState.new
  decide

theorem wrap_size {n : Nat} (h : n < 2 ^ 62) : ITy.int.wrap n = n := wrap_nat (by omega)

section
variable {p m s : Bytes} {pub : Public} {a b : List Val} {hm n hw : Nat}

/-- The encoder of `Seal`. -/
theorem seal_at {e : EncState} {st : Bytes} (h1 : e.pending.length + st.length = 3) (h2 : e.pending.length < 3) (w : ω) (d : List Deferred) :
    EncAt (⟨sealOpen v0 v1 p m s pub a b hm n hw ++ sealEnc hw e st ++ [.ptr ⟨35, []⟩], 2, d, w⟩ : St ω) ⟨35, []⟩ ⟨34, []⟩ hw e :=
  ⟨st, h1, h2, rfl, rfl⟩

theorem seal_moved {e e' : EncState} {st : Bytes} {w w' : ω} {d : List Deferred} {t : St ω}
    (h : EncMoved (⟨sealOpen v0 v1 p m s pub a b hm n hw ++ sealEnc hw e st ++ [.ptr ⟨35, []⟩], 2, d, w⟩ : St ω) ⟨35, []⟩ ⟨34, []⟩ hw e' w' t) :
    ∃ st' : Bytes, e'.pending.length + st'.length = 3 ∧ e'.pending.length < 3 ∧
      t = ⟨sealOpen v0 v1 p m s pub a b hm n hw ++ sealEnc hw e' st' ++ [.ptr ⟨35, []⟩], 2, d, w'⟩ := by
  obtain ⟨st', mm, h1, h2, h3, rfl⟩ := h
  cases (show writeAll _ _ = some (sealOpen v0 v1 p m s pub a b hm n hw ++ sealEnc hw e' st' ++ [.ptr ⟨35, []⟩]) from rfl).symm.trans h3
  exact ⟨st', h1, h2, rfl⟩
end

/-- `Seal(publicPath, messagePath, encryptedPath string) error`, crypto.go:120-157. -/
theorem seal_text (hS : S.ed = edFns) (T : S.Calm) (p0 : v0.refers 2 = false) (p1 : v1.refers 2 = false) (p m s : Bytes) (w : ω) {k : Nat}
    (hk : fuelFor (S.readFile p w) + 20 ≤ k) (hz : SizeIs S p m w fun n => n < 2 ^ 62 ∧ chunkCount n + 93 ≤ k) :
    Agrees (sealS S p m s w) id
      (fun _ w' r => r = .ok [.nil] ⟨[v0, v1], 2, [], w'⟩)
      (fun e w' r => ∃ v, Tells e v ∧ r = .ok [v] ⟨[v0, v1], 2, [], w'⟩)
      ((interp (repo S) k).call id!"crypto" crypt.Seal [.str p, .str m, .str s] ⟨[v0, v1], 2, [], w⟩) := by
  have hs : EncPath m s (if s = [] then m ++ b!".enc" else s) := by
    by_cases h : s = []
    · exact .inl ⟨h, if_pos h⟩
    · exact .inr ⟨h, if_neg h⟩
  unfold sealS
  generalize (if s = [] then m ++ b!".enc" else s) = s' at *
  have fa := fuelFor_ge (S.readFile p w)
  obtain ⟨k, rfl⟩ : ∃ j, k = j + 20 := ⟨k - 20, by omega⟩
  have le := callC_le (repo S) (Nat.le_refl (k + 20)) id!"crypto" crypt.Seal [.str p, .str m, .str s]
  rw [Act.bind_eq]
  have hL := load_in S (fun a => publicVal_plain a 0) (s := ⟨sealStart v0 v1 p m s, 2, [], w⟩) (v0 := v0) (v1 := v1) ⟨rfl, rfl, p0, p1⟩
    (loadPublic_run S v0 v1 p0 p1 p w (n := k) (by omega) (fuelFor_ok (by omega)))
  rcases hl : loadWith S readPublicKeyData p w with ⟨pub | e | _ | _ | _, w1⟩
  · rw [hl] at hL
    obtain ⟨new, h1, h2, h3, hL⟩ := hL
    obtain ⟨a, b, rfl⟩ := pub_shape (k := 2) h1 h2
    simp only
    rw [Act.bind_eq]
    have t1 := T.openFile m w1
    rcases hO : S.openFile m w1 with ⟨hm | e | _ | _ | _, w2⟩
    · simp only
      rw [Act.bind_eq]
      have t2 := T.size hm w2
      rcases hZ : S.size hm w2 with ⟨n | e | _ | _ | _, w3⟩
      · obtain ⟨z1, z2⟩ := hz _ _ _ _ _ _ hl hO hZ
        simp only
        rw [Act.bind_eq]
        have t3 := T.create s' w3
        rcases hC : S.create s' w3 with ⟨hw | e | _ | _ | _, w4⟩
        · simp only
          rw [Act.bind_eq]
          have t4 := T.write hw sealLine w4
          rcases hW : S.write hw sealLine w4 with ⟨j | e | _ | _ | _, w5⟩
          · simp only
            have hN := newEncoder_in S (s := ⟨sealOpen v0 v1 p m s' pub a b hm n hw, 2, closing hm hw, w5⟩) (v0 := v0) (v1 := v1)
              ⟨rfl, rfl, p0, p1⟩ hw (n := k) (by omega)
            have hB := seal_in S hS (s := ⟨sealOpen v0 v1 p m s' pub a b hm n hw ++ sealEnc hw .new [0, 0, 0] ++ [.ptr ⟨35, []⟩], 2, closing3 hm hw, w5⟩)
              (v0 := v0) (v1 := v1) ⟨rfl, rfl, p0, p1⟩ (p := ⟨23, []⟩) (l := ⟨35, []⟩) (b := ⟨34, []⟩) (hw := hw) (hm := hm) (pub := pub)
              (e := .new) (by simp) (by simp) (by simp) rfl rfl rfl rfl (seal_at v0 v1 rfl (by decide) w5 _) encNew_ok z1 (T.read hm)
              S.prims.boxSeal_length (k := k) (by omega)
            have t5 := T.box pub hm n hw w5
            unfold sealEnd
            simp only
            rcases hb : sealBox S.prims pub (Act.onSnd (S.entropy 32)) (fun k => Act.onSnd (S.read hm k)) n (encWrite (S.write hw)) (EncState.new, w5) with
              ⟨u | e | _ | _ | _, e6, w6⟩
            · rw [hb] at hB
              obtain ⟨k0, t, k1, hB⟩ := hB
              obtain ⟨st, l1, l2, rfl⟩ := seal_moved v0 v1 k1
              rw [← wrap_size z1] at hB
              have hD := close_in S (s := ⟨sealOpen v0 v1 p m s' pub a b hm n hw ++ sealEnc hw e6 st ++ [.ptr ⟨35, []⟩], 2, closing3 hm hw, w6⟩)
                (v0 := v0) (v1 := v1) ⟨rfl, rfl, p0, p1⟩ (l := ⟨35, []⟩) (b := ⟨34, []⟩) (h := hw) (e := e6) (by simp) (by simp) rfl
                (seal_at v0 v1 l1 l2 w6 _) (n := k) (by omega)
              have t6 := T.close hw (e6, w6)
              simp only
              rcases hc : encClose (S.write hw) (e6, w6) with ⟨u | e | _ | _ | _, e7, w7⟩
              · rw [hc] at hD
                obtain ⟨t, k2, hD⟩ := hD
                obtain ⟨st', l3, l4, rfl⟩ := seal_moved v0 v1 k2
                exact le_ok le (seal7_ok S v0 v1 _ hs hL hO hZ hC hW hN hB hD)
              · rw [hc] at hD
                obtain ⟨t, k2, hD⟩ := hD
                obtain ⟨st', l3, l4, rfl⟩ := seal_moved v0 v1 k2
                exact le_ok le (seal7_ok S v0 v1 _ hs hL hO hZ hC hW hN hB hD)
              · rw [hc] at t6
                exact absurd rfl t6
              · rw [hc] at hD
                obtain ⟨⟨l, bs, df, w'⟩, k2, k3⟩ := hD
                cases k3
                obtain ⟨t, c1, c2⟩ := seal7_ok_crash S v0 v1 _ hs hL hO hZ hC hW hN hB k2
                exact ⟨t, le_crash le c1, c2⟩
              · trivial
            · rw [hb] at hB
              obtain ⟨v, t, k0, k1, hB⟩ := hB
              obtain ⟨st, l1, l2, rfl⟩ := seal_moved v0 v1 k1
              rw [← wrap_size z1] at hB
              have tv : Tells e v := .inr k0
              obtain ⟨x, rfl⟩ := tv.err
              have hD := close_in S (s := ⟨sealOpen v0 v1 p m s' pub a b hm n hw ++ sealEnc hw e6 st ++ [.ptr ⟨35, []⟩], 2, closing3 hm hw, w6⟩)
                (v0 := v0) (v1 := v1) ⟨rfl, rfl, p0, p1⟩ (l := ⟨35, []⟩) (b := ⟨34, []⟩) (h := hw) (e := e6) (by simp) (by simp) rfl
                (seal_at v0 v1 l1 l2 w6 _) (n := k) (by omega)
              have t6 := T.close hw (e6, w6)
              simp only
              rcases hc : encClose (S.write hw) (e6, w6) with ⟨u | e | _ | _ | _, e7, w7⟩
              · rw [hc] at hD
                obtain ⟨t, k2, hD⟩ := hD
                obtain ⟨st', l3, l4, rfl⟩ := seal_moved v0 v1 k2
                exact ⟨_, tv, le_ok le (seal7_err S v0 v1 _ hs hL hO hZ hC hW hN hB hD)⟩
              · rw [hc] at hD
                obtain ⟨t, k2, hD⟩ := hD
                obtain ⟨st', l3, l4, rfl⟩ := seal_moved v0 v1 k2
                exact ⟨_, tv, le_ok le (seal7_err S v0 v1 _ hs hL hO hZ hC hW hN hB hD)⟩
              · rw [hc] at t6
                exact absurd rfl t6
              · rw [hc] at hD
                obtain ⟨⟨l, bs, df, w'⟩, k2, k3⟩ := hD
                cases k3
                obtain ⟨t, c1, c2⟩ := seal7_err_crash S v0 v1 _ hs hL hO hZ hC hW hN hB k2
                exact ⟨t, le_crash le c1, c2⟩
              · trivial
            · rw [hb] at t5
              exact absurd rfl t5
            · rw [hb] at hB
              obtain ⟨⟨l, bs, df, w'⟩, k2, k3⟩ := hB
              rw [← wrap_size z1] at k2
              cases k3
              obtain ⟨t, c1, c2⟩ := seal6_crash S v0 v1 _ hs hL hO hZ hC hW hN k2
              exact ⟨t, le_crash le c1, c2⟩
            · trivial
          · exact ⟨_, .inl (.inl rfl), le_ok le (seal5_err S v0 v1 _ hs hL hO hZ hC hW)⟩
          · rw [hW] at t4
            exact absurd rfl t4
          · obtain ⟨t, c1, c2⟩ := seal5_crash S v0 v1 _ hs hL hO hZ hC hW
            exact ⟨t, le_crash le c1, c2⟩
          · trivial
        · exact ⟨_, .inl (.inl rfl), le_ok le (seal4_err S v0 v1 _ hs hL hO hZ hC)⟩
        · rw [hC] at t3
          exact absurd rfl t3
        · obtain ⟨t, c1, c2⟩ := seal4_crash S v0 v1 _ hs hL hO hZ hC
          exact ⟨t, le_crash le c1, c2⟩
        · trivial
      · exact ⟨_, .inl (.inl rfl), le_ok le (seal3_err S v0 v1 _ hL hO hZ)⟩
      · rw [hZ] at t2
        exact absurd rfl t2
      · obtain ⟨t, c1, c2⟩ := seal3_crash S v0 v1 _ hL hO hZ
        exact ⟨t, le_crash le c1, c2⟩
      · trivial
    · exact ⟨_, .inl (.inl rfl), le_ok le (seal2_err S v0 v1 _ hL hO)⟩
    · rw [hO] at t1
      exact absurd rfl t1
    · obtain ⟨t, c1, c2⟩ := seal2_crash S v0 v1 _ hL hO
      exact ⟨t, le_crash le c1, c2⟩
    · trivial
  · rw [hl] at hL
    obtain ⟨v, m1, hL⟩ := hL
    obtain ⟨x, rfl⟩ := m1.err
    exact ⟨_, .inl m1, le_ok le (seal1_err S v0 v1 _ hL)⟩
  · rw [hl] at hL
    obtain ⟨⟨l, bs, df, w'⟩, k1, k2, k3⟩ := hL
    cases k2
    cases k3
    obtain ⟨t, c1, c2, c3⟩ := seal1_panic S v0 v1 _ k1
    exact ⟨t, le_panic le c1, c2, c3⟩
  · rw [hl] at hL
    obtain ⟨⟨l, bs, df, w'⟩, k1, k2⟩ := hL
    cases k2
    obtain ⟨t, c1, c2⟩ := seal1_crash S v0 v1 _ k1
    exact ⟨t, le_crash le c1, c2⟩
  · trivial

/-- The same in any memory. -/
theorem sealAll_in (hS : S.ed = edFns) (T : S.Calm) {st : St ω} {v0 v1 : Val} (G : Globals st v0 v1) (p m s : Bytes) {k : Nat}
    (hk : fuelFor (S.readFile p st.world) + 20 ≤ k) (hz : SizeIs S p m st.world fun n => n < 2 ^ 62 ∧ chunkCount n + 93 ≤ k) :
    Ends st.defers (sealS S p m s st.world) id
      (fun _ w' r => r = .ok [.nil] ⟨st.mem, st.base, st.defers, w'⟩)
      (fun e w' r => ∃ v, Tells e v ∧ r = .ok [v] ⟨st.mem, st.base, st.defers, w'⟩)
      ((interp (repo S) k).call id!"crypto" crypt.Seal [.str p, .str m, .str s] st) := by
  have c := carry_keep S (Nat.le_refl k) (ρ := []) (us := []) (args := [.str p, .str m, .str s]) (f := crypt.Seal) (p := id!"crypto")
    (Q := fun _ rs new => rs = [.nil] ∧ new = []) (Q' := fun e rs new => new = [] ∧ ∃ v, Tells e v ∧ rs = [v]) G (by simp) (by simp) rfl
    ((seal_text S v0 v1 hS T G.plain0 G.plain1 p m s st.world hk hz).mono (fun _ w' h => ⟨_, [], ⟨rfl, rfl⟩, h⟩)
      (fun e w' ⟨v, hv, h⟩ => ⟨_, [], ⟨rfl, v, hv, rfl⟩, h⟩))
  refine c.mono ?_ ?_
  · rintro a t ⟨rs, new, ⟨rfl, rfl⟩, k⟩
    refine k.trans ?_
    simp only [Emb.renVs, Emb.renV, List.append_nil]
    rfl
  · rintro e t ⟨rs, new, ⟨rfl, v, hv, rfl⟩, k⟩
    refine ⟨v, hv, k.trans ?_⟩
    simp only [Emb.renVs, hv.ren, List.append_nil]
    rfl

end Verif.Src
