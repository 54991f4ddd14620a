/-
The texts that `Sign` of signify/key.go calls, compared with the model in any memory.
-/
import Verif.Source.SignParts
import Verif.Lemmas.Base64

namespace Verif.Src

variable {ω : Type} (S : Sys ω) (v0 v1 : Val)

/-- `(priv *Private) decrypt(password []byte) error`, key.go:98-122. -/
theorem decrypt_run (p0 : v0.refers 2 = false) (p1 : v1.refers 2 = false) (priv : Private) (pw : Bytes) (cap : Nat) (w : ω) {n : Nat} (hn : 40 ≤ n) :
    Decrypts S pw priv fun v priv' =>
      (interp (repo S) n).call id!"signify" key.Private.decrypt [.ptr ⟨2, []⟩, .slice ⟨3, []⟩ 0 pw.length cap]
          ⟨v0 :: v1 :: [privateVal priv, .arr (byteVals pw)], 4, [], w⟩ =
        .ok [v] ⟨v0 :: v1 :: [privateVal priv', .arr (byteVals pw)], 4, [], w⟩ := by
  have le := (interpK_le (decK_sound S (n - 20)) 20).trans (interp_mono (.refl (repo S)) (show 20 + (n - 20) ≤ n by omega))
  have up : ∀ {rs : List Val} {t : St ω}, decrypting S v0 v1 (callOf S (n - 20) key.Private.Check) priv priv.kdfRounds.toNat (byteVals pw) pw.length cap w = .ok rs t →
      (interp (repo S) n).call id!"signify" key.Private.decrypt [.ptr ⟨2, []⟩, .slice ⟨3, []⟩ 0 pw.length cap]
          ⟨v0 :: v1 :: [privateVal priv, .arr (byteVals pw)], 4, [], w⟩ = .ok rs t := by
    intro rs t h
    rw [← privateL_eq]
    exact (le.call _ _ _).eq h (by simp)
  unfold Decrypts
  by_cases h1 : (priv.kdfRounds.toNat : Int) > 0
  · have e1 : priv.isEncrypted = true := by rw [Private.isEncrypted, decide_eq_true_eq]; omega
    by_cases h2 : rawL priv.kdfAlgo = b!"BK"
    · have e2 : priv.kdfAlgo.toList = b!"BK" := by rw [← rawL_eq]; exact h2
      have e3 : ∀ o, S.prims.bcryptKey pw priv.salt priv.kdfRounds.toNat = o →
          S.prims.bcryptKey (readOf (byteVals pw) pw.length) priv.salt (ITy.int.wrap priv.kdfRounds.toNat) = o := by
        intro o h
        rw [readOf_all, wrap_rounds, h]
      rcases bcryptKey_cases S.prims pw priv.salt priv.kdfRounds.toNat with ⟨a, ha⟩ | ⟨e, he⟩
      · have c := check_in S (s := ⟨xoredMem v0 v1 priv priv.kdfRounds.toNat (byteVals pw) pw.length cap a, 4, [], w⟩) (v0 := v0) (v1 := v1)
          ⟨rfl, rfl, p0, p1⟩ (l := ⟨2, []⟩) (by simp) (priv := { priv with key := xorArr priv.key a }) (by rw [← privateX_eq]; rfl) (n := n - 20) (by omega)
        have eq : Private.decrypt S.prims pw priv = (Private.check S.prims { priv with key := xorArr priv.key a }, { priv with key := xorArr priv.key a }) := by
          have : S.prims.bcryptKey pw priv.salt (priv.kdfRounds.toNat : Int) = .ok a := ha
          simp [Private.decrypt, Act.bind_eq, Act.get, Act.put, Act.ofRes, e1, e2, this]
        rw [eq]
        have np : ∀ o, Private.check S.prims { priv with key := xorArr priv.key a } = o → o = .ok () ∨ o = .err .badChecksum := by
          rintro o rfl
          unfold Private.check
          split <;> simp
        rcases np _ rfl with o | o
        · rw [o] at c ⊢
          refine (up (decrypt_good S v0 v1 _ priv cap w h1 h2 (e3 _ ha) c)).trans ?_
          rw [privateX_eq]
        · rw [o] at c ⊢
          obtain ⟨v, hv, c⟩ := c
          obtain ⟨x, rfl⟩ := hv.err
          refine ⟨_, .inr hv, (up (decrypt_bad S v0 v1 _ priv cap w h1 h2 (e3 _ ha) c)).trans ?_⟩
          rw [privateX_eq]
      · have eq : Private.decrypt S.prims pw priv = (.err e, priv) := by
          simp [Private.decrypt, Act.bind_eq, Act.get, Act.ofRes, e1, e2, he]
        rw [eq]
        refine ⟨_, .inl rfl, (up (decrypt_kdf S v0 v1 _ priv cap w h1 h2 (e3 _ he))).trans ?_⟩
        rw [privateL_eq]
    · have e2 : priv.kdfAlgo.toList ≠ b!"BK" := by rw [← rawL_eq]; exact h2
      have eq : Private.decrypt S.prims pw priv = (.err .unsupportedKdf, priv) := by
        simp [Private.decrypt, Act.bind_eq, Act.get, Act.fail, e1, e2]
      rw [eq]
      refine ⟨_, .inr ⟨rawL priv.kdfAlgo, rfl⟩, (up (decrypt_algo S v0 v1 _ priv cap w h1 h2)).trans ?_⟩
      rw [privateL_eq]
  · have e1 : priv.isEncrypted = false := by rw [Private.isEncrypted, decide_eq_false_iff_not]; omega
    have eq : Private.decrypt S.prims pw priv = (.ok (), priv) := by
      simp [Private.decrypt, Act.bind_eq, Act.get, e1]
    rw [eq]
    refine (up (decrypt_plain S v0 v1 _ priv cap w h1)).trans ?_
    rw [privateL_eq]

/-- The same in any memory. -/
theorem decrypt_in {s : St ω} {v0 v1 : Val} (G : Globals s v0 v1) {lk lp : Loc} (hk : 2 ≤ lk.blk) (hp : 2 ≤ lp.blk) (d : lk.disjoint lp = true)
    {priv : Private} {pw : Bytes} (ek : lk.get s.mem = some (privateVal priv)) (ep : lp.get s.mem = some (.arr (byteVals pw))) (cap : Nat)
    {n : Nat} (hn : 40 ≤ n) :
    Decrypts S pw priv fun v priv' => ∃ m, lk.set s.mem (privateVal priv') = some m ∧
      (interp (repo S) n).call id!"signify" key.Private.decrypt [.ptr lk, .slice lp 0 pw.length cap] s = .ok [v] { s with mem := m } := by
  refine (decrypt_run S v0 v1 G.plain0 G.plain1 priv pw cap s.world (Nat.le_refl 40)).mono ?_
  intro v priv' hv run
  have pl : Val.anyRefers 0 (byteVals pw) = false := byteVals_plain 0 _
  obtain ⟨M, k1, k2⟩ := carry_ok S hn (ρ := [lk, lp]) (us := [privateVal priv, .arr (byteVals pw)]) (us' := [privateVal priv', .arr (byteVals pw)]) (new := [])
    G (by simp [hk, hp]) (by simp [d])
    (by simp only [getAll, ek, ep, Emb.renVs, Emb.renV_plain _ _ (privateVal_plain priv 0), Emb.renV, Emb.renVs_plain _ _ pl]) rfl
    (by rw [List.append_nil]; exact run)
  have ea : (beside s [lk, lp]).renVs [.ptr ⟨2, []⟩, .slice ⟨3, []⟩ 0 pw.length cap] = [.ptr lk, .slice lp 0 pw.length cap] := by
    simp only [Emb.renVs, Emb.renV]
    rw [ren_two 0 lk rfl, ren_two 1 lp rfl]
  rw [ea] at k2
  simp only [Emb.renVs, Emb.renV_plain _ _ (privateVal_plain priv' 0), Emb.renV, Emb.renVs_plain _ _ pl, Emb.renV_plain _ _ hv, List.append_nil,
    List.zip_cons_cons, List.zip_nil_right] at k1 k2
  obtain ⟨m1, c1, k1⟩ := writeAll_cons k1
  obtain ⟨m2, c2, k1⟩ := writeAll_cons k1
  cases k1
  have : lp.get m1 = some (.arr (byteVals pw)) := by rw [Loc.get_set_disjoint d c1]; exact ep
  rw [Loc.set_get this] at c2
  cases c2
  exact ⟨_, c1, k2⟩

/-- `(priv *Private) sign(message []byte) (*Signature, error)`, key.go:124-134, in any memory. -/
theorem sign_in {s : St ω} {v0 v1 : Val} (G : Globals s v0 v1) {lk lm : Loc} (hk : 2 ≤ lk.blk) (hm : 2 ≤ lm.blk) (d : lk.disjoint lm = true)
    {priv : Private} {msg : Bytes} (ek : lk.get s.mem = some (privateVal priv)) (em : lm.get s.mem = some (.arr (byteVals msg))) (cap : Nat)
    {n : Nat} (hn : 20 ≤ n) :
    (interp (repo S) n).call id!"signify" key.Private.sign [.ptr lk, .slice lm 0 msg.length cap] s =
      .ok [.ptr ⟨s.mem.length + 2, []⟩, .nil] ⟨s.mem ++ [.ptr lk, .slice lm 0 msg.length cap, signatureVal (priv.sign S.prims msg), .ptr ⟨s.mem.length + 2, []⟩,
        encArr priv.key, .slice ⟨s.mem.length + 4, []⟩ 0 64 64, encArr (priv.sign S.prims msg).sig, .slice ⟨s.mem.length + 6, []⟩ 0 64 64], s.base, s.defers, s.world⟩ := by
  have pl : Val.anyRefers 0 (byteVals msg) = false := byteVals_plain 0 _
  have hs : signedL S priv (byteVals msg) msg.length = priv.sign S.prims msg := by
    rw [signedL, remade_eq, readOf_all]
    rfl
  have run := sign_raw S v0 v1 priv priv.kdfRounds.toNat (byteVals msg) msg.length cap s.world
  rw [privateL_eq, hs, signatureL_eq, encL_eq] at run
  have k := carry_same S hn (ρ := [lk, lm]) (us := [privateVal priv, .arr (byteVals msg)]) (new := [.ptr ⟨2, []⟩, .slice ⟨3, []⟩ 0 msg.length cap,
      signatureVal (priv.sign S.prims msg), .ptr ⟨6, []⟩, encArr priv.key, .slice ⟨8, []⟩ 0 64 64, encArr (priv.sign S.prims msg).sig, .slice ⟨10, []⟩ 0 64 64])
    G (by simp [hk, hm]) (by simp [d])
    (by simp only [getAll, ek, em, Emb.renVs, Emb.renV_plain _ _ (privateVal_plain priv 0), Emb.renV, Emb.renVs_plain _ _ pl]) run
  simp only [Emb.renVs, Emb.renV, Emb.renV_plain _ _ (signatureVal_plain _ 0), Emb.renV_plain _ _ (Emb.encArr_plain _)] at k
  rw [ren_two 0 lk rfl, ren_two 1 lm rfl] at k
  exact k

/-- `(sig *Signature) encode() []byte`, signature.go:19-25, in any memory. -/
theorem encode_in {s : St ω} {v0 v1 : Val} (G : Globals s v0 v1) {l : Loc} (hl : 2 ≤ l.blk) {sig : Signature} (E : l.get s.mem = some (signatureVal sig))
    {n : Nat} (hn : 20 ≤ n) :
    (interp (repo S) n).call id!"signify" signature.Signature.encode [.ptr l] s =
      .ok [.slice ⟨s.mem.length + 3, []⟩ 0 74 (byteVals sig.encode).length] ⟨s.mem ++ [.ptr l, .str sig.encode, .ptr ⟨s.mem.length + 1, []⟩,
        .arr (byteVals sig.encode)], s.base, s.defers, s.world⟩ := by
  have pl : Val.anyRefers 0 (byteVals sig.encode) = false := byteVals_plain 0 _
  have hs : encodeL sig = sig.encode := by rw [encodeL, rawL_eq, rawL_eq, rawL_eq]; rfl
  have run := encode_raw S v0 v1 sig s.world
  rw [signatureL_eq, hs] at run
  have k := carry_same S hn (ρ := [l]) (us := [signatureVal sig]) (new := [.ptr ⟨2, []⟩, .str sig.encode, .ptr ⟨4, []⟩, .arr (byteVals sig.encode)])
    G (by simp [hl]) (by simp)
    (by simp only [getAll, E, Emb.renVs, Emb.renV_plain _ _ (signatureVal_plain sig 0)]) run
  simp only [Emb.renVs, Emb.renV, Emb.renVs_plain _ _ pl] at k
  rw [ren_two 0 l rfl] at k
  exact k

theorem fileText_eq (comment d : Bytes) : fileText comment (byteVals d) d.length = DataFile.encode ⟨comment, B64.encode d⟩ := by
  have hl : (B64.encode d).length = B64.encodedLen d.length := Verif.encode_length d
  simp only [fileText, b64Buf, readOf_all, Int.toNat_natCast]
  rw [← hl, List.take_of_length_le (by rw [byteVals_length]), splice]
  simp [readOf, List.take_of_length_le, byteVals_length, map_valByte_byteVals, DataFile.encode]

/-- `writeDataFile(path, comment string, data []byte) error`, common.go:51-60. -/
theorem writeData_run (path comment data : Bytes) (cap : Nat) (w : ω) :
    Agrees (S.writeFile path (DataFile.encode ⟨comment, B64.encode data⟩) 0o644 w) id
      (fun _ w' r => ∃ rs new, (new = [] ∧ rs = [.nil]) ∧ r = .ok rs ⟨v0 :: v1 :: [.arr (byteVals data)] ++ new, 3, [], w'⟩)
      (fun e w' r => ∃ rs new, (new = [] ∧ rs = [libErr e]) ∧ r = .ok rs ⟨v0 :: v1 :: [.arr (byteVals data)] ++ new, 3, [], w'⟩)
      ((interp (repo S) 20).call id!"signify" common.writeDataFile [.str path, .str comment, .slice ⟨2, []⟩ 0 data.length cap]
        ⟨v0 :: v1 :: [.arr (byteVals data)], 3, [], w⟩) := by
  have h1 : (0 : Int) ≤ ↑(B64.encodedLen data.length) := Int.natCast_nonneg _
  have h2 : B64.encodedLen (readOf (byteVals data) data.length).length ≤ B64.encodedLen data.length := by rw [readOf_all]
  have ht : ∀ o, S.writeFile path (DataFile.encode ⟨comment, B64.encode data⟩) 0o644 w = o →
      S.writeFile path (readOf (byteVals (fileText comment (byteVals data) data.length)) (fileText comment (byteVals data) data.length).length) 420 w = o := by
    rintro o rfl
    rw [readOf_all, fileText_eq]
  rcases ho : S.writeFile path (DataFile.encode ⟨comment, B64.encode data⟩) 0o644 w with ⟨_ | e | _ | _ | _, w'⟩
  · exact ⟨_, [], ⟨rfl, rfl⟩, write_ok S v0 v1 cap h1 h2 (ht _ ho)⟩
  · exact ⟨_, [], ⟨rfl, rfl⟩, write_err S v0 v1 cap h1 h2 (ht _ ho)⟩
  · exact ⟨_, write_panic S v0 v1 cap h1 h2 (ht _ ho), rfl, rfl⟩
  · exact ⟨_, write_crash S v0 v1 cap h1 h2 (ht _ ho), rfl⟩
  · trivial

/-- The same in any memory. -/
theorem writeData_in {s : St ω} {v0 v1 : Val} (G : Globals s v0 v1) {l : Loc} (hl : 2 ≤ l.blk) (path comment : Bytes) {data : Bytes}
    (E : l.get s.mem = some (.arr (byteVals data))) (cap : Nat) {n : Nat} (hn : 20 ≤ n) :
    Ends s.defers (S.writeFile path (DataFile.encode ⟨comment, B64.encode data⟩) 0o644 s.world) id
      (fun _ w' r => r = .ok [.nil] ⟨s.mem, s.base, s.defers, w'⟩)
      (fun e w' r => r = .ok [libErr e] ⟨s.mem, s.base, s.defers, w'⟩)
      ((interp (repo S) n).call id!"signify" common.writeDataFile [.str path, .str comment, .slice l 0 data.length cap] s) := by
  have pl : Val.anyRefers 0 (byteVals data) = false := byteVals_plain 0 _
  have c := carry_keep S hn (ρ := [l]) (us := [.arr (byteVals data)]) G (by simp [hl]) (by simp)
    (by simp only [getAll, E, Emb.renVs, Emb.renV, Emb.renVs_plain _ _ pl]) (writeData_run S v0 v1 path comment data cap s.world)
  have ea : (beside s [l]).renVs [.str path, .str comment, .slice ⟨2, []⟩ 0 data.length cap] = [.str path, .str comment, .slice l 0 data.length cap] := by
    simp only [Emb.renVs, Emb.renV]
    rw [ren_two 0 l rfl]
  rw [ea] at c
  refine c.mono ?_ ?_
  · rintro a t ⟨rs, new, ⟨rfl, rfl⟩, k⟩
    refine k.trans ?_
    simp only [Emb.renVs, Emb.renV, List.append_nil]
    rfl
  · rintro e t ⟨rs, new, ⟨rfl, rfl⟩, k⟩
    refine k.trans ?_
    simp only [Emb.renVs, Emb.renV, List.append_nil, libErr]
    rfl

end Verif.Src
