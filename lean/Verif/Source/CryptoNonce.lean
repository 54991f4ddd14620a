/-
The text of `incrementNonce` and `skipComment` of crypto/crypto.go run on a few blocks of memory, then in any memory.
-/
import Verif.Source.CodingAny
import Verif.Model.Crypto

namespace Verif.Src

variable {ω : Type} (S : Sys ω) (v0 v1 : Val) (h : Nat)

/-- The errors that the repository makes, as its text says, and those of the libraries. -/
def errVal : GoErr → Val
  | .nonceReused => .err (.text b!"signify/crypto: message is too large, nonce reused" none)
  | .invalidPublicKey => .err (.text b!"signify: invalid public key" none)
  | e => libErr e

/-! ### `incrementNonce`, crypto.go:37-51 -/

/-- The body of the loop of `incrementNonce`. -/
noncomputable def nonceLoop : List Stmt := (Stmt.loopParts (crypt.incrementNonce.body[1]?)).2.2.2

/-- The names in its scope. -/
def nonceCtx : Ctx := ⟨id!"crypto", [(0, .val .nil), (id!"i", .var ⟨4, []⟩), (id!"nonce", .var ⟨3, []⟩)]⟩

/-- Memory at the start of an iteration. -/
def nonceMem (bs : Bytes) (i : Int) : List Val := [v0, v1, .arr (byteVals bs), .ptr ⟨2, []⟩, .int .int i]

theorem nonce_end (bs : Bytes) (w : ω) :
    block (interp (repo S) 20) nonceCtx nonceLoop ⟨nonceMem v0 v1 bs (-1), 3, [], w⟩ =
      .ok (.ret [errVal .nonceReused]) ⟨nonceMem v0 v1 bs (-1), 3, [], w⟩ := by
  seval []

theorem wrap_u8 (b : UInt8) : ITy.uint8.wrap ((b.toNat : Int) + 1) = ((b + 1).toNat : Int) := by
  show ((b.toNat : Int) + 1) % 2 ^ 8 = _
  rw [UInt8.toNat_add]
  simp

theorem set_byteVals (bs : Bytes) (k : Nat) (b : UInt8) : (byteVals bs).set k (byteVal b) = byteVals (bs.set k b) := by
  simp [byteVals, List.map_set]

theorem nonce_step (bs : Bytes) (k : Nat) (b : UInt8) (w : ω) (hk : k < 24) (hb : bs[k]? = some b) :
    block (interp (repo S) 20) nonceCtx nonceLoop ⟨nonceMem v0 v1 bs k, 3, [], w⟩ =
      if b + 1 ≠ 0 then .ok .brk ⟨nonceMem v0 v1 (bs.set k (b + 1)) k, 3, [], w⟩
      else .ok .next ⟨nonceMem v0 v1 (bs.set k (b + 1)) ((k : Int) - 1), 3, [], w⟩ := by
  have h1 : ¬ (k : Int) = -1 := by omega
  have h2 : (byteVals bs)[k]? = some (byteVal b) := by simp [byteVals, hb]
  have hl : k < bs.length := by
    rw [List.getElem?_eq_some_iff] at hb
    exact hb.1
  have h3 : (k : Int) < ((byteVals bs).length : Int) := by rw [byteVals_length]; omega
  have h4 : ((byteVals bs).set k (.int .uint8 (ITy.uint8.wrap ((b.toNat : Int) + 1))))[k]? =
      some (.int .uint8 (ITy.uint8.wrap ((b.toNat : Int) + 1))) := by simp [byteVals_length, hl]
  have h5 : (k : Int) < (((byteVals bs).set k (.int .uint8 (ITy.uint8.wrap ((b.toNat : Int) + 1)))).length : Int) := by
    rw [List.length_set]; exact h3
  have e : (byteVals bs).set k (.int .uint8 (ITy.uint8.wrap ((b.toNat : Int) + 1))) = byteVals (bs.set k (b + 1)) := by
    rw [wrap_u8, ← set_byteVals]
  split
  · next h0 =>
    have h6 : ¬ ITy.uint8.wrap ((b.toNat : Int) + 1) = 0 := by
      rw [wrap_u8]
      intro e
      exact h0 (UInt8.toNat_inj.1 (Int.ofNat.inj e))
    rw [nonceMem, nonceMem, ← e]
    seval [h1, h2, h3, h4, h5, h6]
  · next h0 =>
    have h6 : ITy.uint8.wrap ((b.toNat : Int) + 1) = 0 := by
      rw [wrap_u8, Decidable.not_not.1 h0]
      rfl
    have h7 : ((k : Int) - 1).natAbs < 9223372036854775808 := by omega
    have h8 : ITy.int.wrap ((k : Int) - 1) = (k : Int) - 1 := if_pos h7
    rw [nonceMem, nonceMem, ← e, ← h8]
    seval [h1, h2, h3, h4, h5, h6, h7]

theorem nonce_loop (w : ω) (n j : Nat) (nonce : Arr 24) (hj : j ≤ 24) (hn : j + 21 ≤ n) :
    match incrementNonceLoop j nonce with
    | .ok a => ∃ i, (interp (repo S) n).iter nonceCtx none none nonceLoop ⟨nonceMem v0 v1 nonce.toList ((j : Int) - 1), 3, [], w⟩ =
        .ok .next ⟨nonceMem v0 v1 a.toList i, 3, [], w⟩
    | .err e => ∃ bs : Arr 24, (interp (repo S) n).iter nonceCtx none none nonceLoop ⟨nonceMem v0 v1 nonce.toList ((j : Int) - 1), 3, [], w⟩ =
        .ok (.ret [errVal e]) ⟨nonceMem v0 v1 bs.toList (-1), 3, [], w⟩
    | _ => False := by
  induction j generalizing nonce n with
  | zero =>
    obtain ⟨m, rfl⟩ : ∃ m, n = m + 1 := ⟨n - 1, by omega⟩
    rw [incrementNonceLoop, iter_eq]
    refine ⟨nonce, ?_⟩
    rw [show ((0 : Nat) : Int) - 1 = -1 from rfl, block_more (by omega) (nonce_end S v0 v1 nonce.toList w) (by simp)]
    rfl
  | succ j ih =>
    obtain ⟨m, rfl⟩ : ∃ m, n = m + 1 := ⟨n - 1, by omega⟩
    have hl : nonce.toList.length = 24 := by simp
    have hb : nonce.toList[j]? = some (nonce.toList.getD j 0) := by
      rw [List.getD_eq_getElem?_getD, List.getElem?_eq_getElem (by omega)]
      rfl
    rw [incrementNonceLoop, iter_eq]
    have st := nonce_step S v0 v1 nonce.toList j _ w (by omega) hb
    have e : (nonce.setIfInBounds j (nonce.toList.getD j 0 + 1)).toList = nonce.toList.set j (nonce.toList.getD j 0 + 1) := by
      simp
    have g : (nonce.setIfInBounds j (nonce.toList.getD j 0 + 1)).toList.getD j 0 = nonce.toList.getD j 0 + 1 := by
      rw [e, List.getD_eq_getElem?_getD, List.getElem?_set_self (by omega)]
      rfl
    rw [show ((j + 1 : Nat) : Int) - 1 = j by omega]
    simp only [g]
    rw [← e] at st
    by_cases h0 : nonce.toList.getD j 0 + 1 ≠ 0
    · rw [if_pos h0] at st ⊢
      refine ⟨j, ?_⟩
      rw [block_more (by omega) st (by simp)]
      rfl
    · rw [if_neg h0] at st ⊢
      have := ih m (nonce.setIfInBounds j (nonce.toList.getD j 0 + 1)) (by omega) (by omega)
      rw [block_more (by omega) st (by simp)]
      exact this

/-- `incrementNonce`. -/
theorem nonce_run (nonce : Arr 24) (w : ω) {n : Nat} (hn : 50 ≤ n) :
    match incrementNonce nonce with
    | .ok a => (interp (repo S) n).call id!"crypto" crypt.incrementNonce [.ptr ⟨2, []⟩] ⟨[v0, v1, encArr nonce], 3, [], w⟩ =
        .ok [.nil] ⟨[v0, v1, encArr a], 3, [], w⟩
    | .err e => ∃ bs : Arr 24, (interp (repo S) n).call id!"crypto" crypt.incrementNonce [.ptr ⟨2, []⟩] ⟨[v0, v1, encArr nonce], 3, [], w⟩ =
        .ok [errVal e] ⟨[v0, v1, encArr bs], 3, [], w⟩
    | _ => False := by
  obtain ⟨m, rfl⟩ : ∃ m, n = m + 30 + 20 := ⟨n - 50, by omega⟩
  simp only [encArr_bytes]
  have loop := nonce_loop S v0 v1 w (m + 28 + 20) 24 nonce (by omega) (by omega)
  generalize hr : (interp (repo S) (m + 28 + 20)).iter nonceCtx none none nonceLoop ⟨nonceMem v0 v1 nonce.toList (((24 : Nat) : Int) - 1), 3, [], w⟩ = r at loop
  rw [call_for (n := m + 28 + 20) 1 (by seval []) (by seval []) (by krfl) hr]
  unfold incrementNonce
  generalize incrementNonceLoop 24 nonce = o at loop
  rcases o with a | e | _ | _ | _
  · obtain ⟨i, rfl⟩ := loop
    show _ = _
    seval []
  · obtain ⟨bs, rfl⟩ := loop
    refine ⟨bs, ?_⟩
    cases e <;> seval []
  · exact loop
  · exact loop
  · exact loop

/-! ### `skipComment`, crypto.go:23-35 -/

/-- The body of the loop of `skipComment`. -/
noncomputable def skipLoop : List Stmt := (Stmt.loopParts (crypt.skipComment.body[1]?)).2.2.2

/-- The names in its scope. -/
def skipCtx : Ctx := ⟨id!"crypto", [(0, .val .nil), (id!"c", .var ⟨4, []⟩), (id!"r", .var ⟨2, []⟩)]⟩

/-- Memory at the start of an iteration, as far as it matters. -/
def skipMem (c : UInt8) : List Val := [v0, v1, fileVal h, .arr [byteVal c], .slice ⟨3, []⟩ 0 1 1]

theorem ne_newline {b : UInt8} (hb : b ≠ 10) : ¬(b.toNat : Int) = 10 := fun e => hb (UInt8.toNat_inj.1 (by simpa using Int.ofNat_inj.1 e))

theorem skip_step (c : UInt8) (w : ω) (contract : ∀ w got w', S.read h 1 w = (.ok got, w') → got.length ≤ 1) :
    Agrees (S.read h 1 w) id
      (fun got w' r => ∃ new, r = .ok (if got.headD c = 10 then .ret [.nil] else .next) ⟨skipMem v0 v1 h (got.headD c) ++ new, 2, [], w'⟩)
      (fun e w' r => ∃ new, r = .ok (.ret [libErr e]) ⟨skipMem v0 v1 h c ++ new, 2, [], w'⟩)
      (block (interp (repo S) 20) skipCtx skipLoop ⟨skipMem v0 v1 h c, 2, [], w⟩) := by
  rcases hr : S.read h 1 w with ⟨got | x | _ | _ | _, w'⟩
  · have hg := contract w got w' hr
    show ∃ new, _ = _
    by_cases h10 : got.headD c = 10
    · rw [if_pos h10]
      match got, hg with
      | [], _ =>
        have hc : c = 10 := h10
        subst hc
        exact ⟨_, by seval [hr]⟩
      | [b], _ =>
        have hc : b = 10 := h10
        subst hc
        exact ⟨_, by seval [hr]⟩
    · rw [if_neg h10]
      match got, hg with
      | [], _ =>
        have h10 := ne_newline h10
        exact ⟨_, by seval [hr, h10]⟩
      | [b], _ =>
        have h10 := ne_newline h10
        exact ⟨_, by seval [hr, h10]⟩
  · exact ⟨_, by seval [hr]⟩
  · exact ⟨_, by seval [hr], rfl, rfl⟩
  · exact ⟨_, by seval [hr], rfl⟩
  · trivial

theorem skipMem_plain {v0 v1 : Val} (p0 : v0.refers 2 = false) (p1 : v1.refers 2 = false) (c : UInt8) :
    Val.anyRefers 5 (skipMem v0 v1 h c) = false := by
  have a0 := Val.refers_mono (k' := 5) (by omega) v0 p0
  have a1 := Val.refers_mono (k' := 5) (by omega) v1 p1
  simp [skipMem, Val.anyRefers, Val.refers, a0, a1]

theorem skip_loop (p0 : v0.refers 2 = false) (p1 : v1.refers 2 = false)
    (contract : ∀ w got w', S.read h 1 w = (.ok got, w') → got.length ≤ 1) (f : Nat) : ∀ (c : UInt8) (g : List Val) (w : ω),
    Agrees (skipCommentLoop (S.read h) f c w) id
      (fun _ w' r => ∃ F, 2 ≤ F.length ∧ F.take 2 = [v0, v1] ∧ r = .ok (.ret [.nil]) ⟨F, 2, [], w'⟩)
      (fun e w' r => ∃ F, 2 ≤ F.length ∧ F.take 2 = [v0, v1] ∧ r = .ok (.ret [libErr e]) ⟨F, 2, [], w'⟩)
      ((interp (repo S) (f + 20)).iter skipCtx none none skipLoop ⟨skipMem v0 v1 h c ++ g, 2, [], w⟩) := by
  induction f with
  | zero => intro c g w; trivial
  | succ f ih =>
    intro c g w
    have pl := skipMem_plain h p0 p1
    have gr := block_grow S (n := f + 20) (c := skipCtx) (b := skipLoop) (g := g) (base := 2) (w := w)
      (F := skipMem v0 v1 h c) (by simp [skipMem]) (by simp [skipMem]) (pl _) rfl
    have st := skip_step S v0 v1 h c w contract
    generalize hb : block (interp (repo S) 20) skipCtx skipLoop ⟨skipMem v0 v1 h c, 2, [], w⟩ = r at st
    show Agrees _ _ _ _ ((interp (repo S) (f + 20 + 1)).iter _ _ _ _ _)
    rw [iter_eq, skipCommentLoop, Act.bind_eq]
    rcases hr : S.read h 1 w with ⟨got | x | _ | _ | _, w'⟩ <;> rw [hr] at st
    · obtain ⟨new, rfl⟩ := st
      rw [block_more (by omega) hb (by simp)] at gr
      obtain ⟨g', e⟩ := gr _ new rfl rfl (pl _) rfl
      rw [e]
      show Agrees ((if got.headD c = 10 then pure () else skipCommentLoop (S.read h) f (got.headD c) : Act ω Unit) w') _ _ _ _
      by_cases h10 : got.headD c = 10
      · rw [if_pos h10, if_pos h10]
        exact ⟨_, by simp [skipMem], rfl, rfl⟩
      · rw [if_neg h10, if_neg h10]
        exact ih _ _ _
    · obtain ⟨new, rfl⟩ := st
      rw [block_more (by omega) hb (by simp)] at gr
      obtain ⟨g', e⟩ := gr _ new rfl rfl (pl _) rfl
      rw [e]
      exact ⟨_, by simp [skipMem], rfl, rfl⟩
    · obtain ⟨t, rfl, ew, ed⟩ := st
      rw [block_more (by omega) hb (by simp)] at gr
      obtain ⟨t', e2, ew', ed'⟩ := gr
      rw [e2]
      exact ⟨t', rfl, ew'.trans ew, ed' ed⟩
    · obtain ⟨t, rfl, ew⟩ := st
      rw [block_more (by omega) hb (by simp)] at gr
      obtain ⟨t', e2, ew'⟩ := gr
      rw [e2]
      exact ⟨t', rfl, ew'.trans ew⟩
    · trivial

/-- `skipComment`. -/
theorem skip_run (p0 : v0.refers 2 = false) (p1 : v1.refers 2 = false)
    (contract : ∀ w got w', S.read h 1 w = (.ok got, w') → got.length ≤ 1) (f : Nat) (w : ω) :
    Agrees (skipComment f (S.read h) w) id
      (fun _ w' r => r = .ok [.nil] ⟨[v0, v1], 2, [], w'⟩)
      (fun e w' r => r = .ok [libErr e] ⟨[v0, v1], 2, [], w'⟩)
      ((interp (repo S) (f + 22)).call id!"crypto" crypt.skipComment [fileVal h] ⟨[v0, v1], 2, [], w⟩) := by
  have loop := skip_loop S v0 v1 h p0 p1 contract f 0 [] w
  generalize hr : (interp (repo S) (f + 20)).iter skipCtx none none skipLoop ⟨skipMem v0 v1 h 0 ++ [], 2, [], w⟩ = r at loop
  rw [call_for (n := f + 20) 1 (by seval []) (by seval []) (by krfl) hr]
  unfold skipComment
  generalize skipCommentLoop (S.read h) f 0 w = o at loop
  rcases o with ⟨_ | x | _ | _ | _, w'⟩
  · obtain ⟨F, hF, h2, rfl⟩ := loop
    obtain ⟨a, b, F, rfl⟩ : ∃ a b G, F = a :: b :: G := by
      match F, hF with
      | a :: b :: G, _ => exact ⟨a, b, G, rfl⟩
    cases h2
    show _ = _
    seval []
  · obtain ⟨F, hF, h2, rfl⟩ := loop
    obtain ⟨a, b, F, rfl⟩ : ∃ a b G, F = a :: b :: G := by
      match F, hF with
      | a :: b :: G, _ => exact ⟨a, b, G, rfl⟩
    cases h2
    show _ = _
    seval []
  · obtain ⟨t, e1, ew, ed⟩ := loop
    subst e1
    obtain ⟨tm, tb, td, tw⟩ := t
    subst ed
    subst ew
    exact ⟨⟨tm, 2, [], _⟩, by seval [], rfl, rfl⟩
  · obtain ⟨t, e1, ew⟩ := loop
    subst e1
    obtain ⟨tm, tb, td, tw⟩ := t
    subst ew
    exact ⟨⟨tm, 2, [], _⟩, by seval [], rfl⟩
  · trivial

/-! ### In any memory -/

/-- `incrementNonce(nonce *[24]byte) error`, crypto.go:37-51. -/
theorem nonce_in {s : St ω} {v0 v1 : Val} (G : Globals s v0 v1) {l : Loc} (hl : 2 ≤ l.blk) {nonce : Arr 24}
    (E : l.get s.mem = some (encArr nonce)) {n : Nat} (hn : 50 ≤ n) :
    match incrementNonce nonce with
    | .ok a => ∃ m, l.set s.mem (encArr a) = some m ∧
        (interp (repo S) n).call id!"crypto" crypt.incrementNonce [.ptr l] s = .ok [.nil] { s with mem := m }
    | .err e => ∃ (bs : Arr 24) (m : List Val), l.set s.mem (encArr bs) = some m ∧
        (interp (repo S) n).call id!"crypto" crypt.incrementNonce [.ptr l] s = .ok [errVal e] { s with mem := m }
    | _ => False := by
  have run := nonce_run S v0 v1 nonce s.world (Nat.le_refl 50)
  generalize incrementNonce nonce = o at run
  have key : ∀ (rs : List Val) (a : Arr 24), (interp (repo S) 50).call id!"crypto" crypt.incrementNonce [.ptr ⟨2, []⟩] ⟨[v0, v1, encArr nonce], 3, [], s.world⟩ =
      .ok rs ⟨[v0, v1, encArr a], 3, [], s.world⟩ → Val.anyRefers 0 rs = false → ∃ m, l.set s.mem (encArr a) = some m ∧
        (interp (repo S) n).call id!"crypto" crypt.incrementNonce [.ptr l] s = .ok rs { s with mem := m } := by
    intro rs a run pl
    have c := carry S hn (ρ := [l]) (us := [encArr nonce]) (o := (.ok (), ())) (world := fun _ => s.world) (err := fun _ _ _ => False)
      (ok := fun _ _ r => r = .ok rs ⟨[v0, v1, encArr a], 3, [], s.world⟩) G (by simp [hl]) (by simp)
      (by simp only [getAll, E, Emb.renVs, Emb.renV_plain _ _ (Emb.encArr_plain nonce)]) run
    obtain ⟨r0, rfl, k⟩ := c
    obtain ⟨m, k1, k2⟩ := k _ [encArr a] [] _ _ _ rfl rfl
    simp only [Emb.renVs, List.zip_cons_cons, List.zip_nil_right, Emb.renV_plain _ _ (Emb.encArr_plain a), Emb.renV] at k1 k2
    rw [ren_two 0 l rfl, Emb.renVs_plain _ rs pl, List.append_nil] at k2
    obtain ⟨m1, c1, k1⟩ := writeAll_cons k1
    cases k1
    exact ⟨_, c1, k2⟩
  rcases o with a | e | _ | _ | _
  · exact key _ a run rfl
  · obtain ⟨bs, run⟩ := run
    exact ⟨bs, key _ bs run (by cases e <;> rfl)⟩
  · exact run
  · exact run
  · exact run

/-- `skipComment(r io.Reader) error`, crypto.go:23-35, for a file. -/
theorem skip_in {s : St ω} {v0 v1 : Val} (G : Globals s v0 v1) {h : Nat}
    (contract : ∀ w got w', S.read h 1 w = (.ok got, w') → got.length ≤ 1) {f n : Nat} (hn : f + 22 ≤ n) :
    Ends s.defers (skipComment f (S.read h) s.world) id
      (fun _ w r => r = .ok [.nil] ⟨s.mem, s.base, s.defers, w⟩)
      (fun e w r => r = .ok [libErr e] ⟨s.mem, s.base, s.defers, w⟩)
      ((interp (repo S) n).call id!"crypto" crypt.skipComment [fileVal h] s) := by
  have c := carry S hn (ρ := []) (us := []) G (by simp) (by simp) rfl (skip_run S v0 v1 h G.plain0 G.plain1 contract f s.world)
  refine c.mono (fun a w hr => ?_) (fun e w hr => ?_)
  · obtain ⟨r0, rfl, k⟩ := hr
    obtain ⟨m, k1, k2⟩ := k _ [] [] _ _ _ rfl rfl
    cases k1
    exact k2.trans (by simp [Emb.renVs, Emb.renV])
  · obtain ⟨r0, rfl, k⟩ := hr
    obtain ⟨m, k1, k2⟩ := k _ [] [] _ _ _ rfl rfl
    cases k1
    exact k2.trans (by simp [Emb.renVs, Emb.renV, libErr])

end Verif.Src
