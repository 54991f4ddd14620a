/-
The text of `GenerateKeypair` of signify/key.go compared with the model, on a few blocks of memory and then in any memory.
-/
import Verif.Source.GenRun
import Verif.Source.SealRun

namespace Verif.Src

variable {ω : Type} (S : Sys ω) (v0 : Val)

/-- `GenerateKeypair` as the model says, on any system. -/
def generateS (pw : Bytes) (r : Int) : Act ω (Private × Public) := do
  let seed ← S.entropy 32
  let salt ← S.entropy 16
  let num ← S.entropy 8
  Act.ofRes (makeKeypair S.prims pw r seed salt num)

/-- What the call adds to memory, with `b` blocks before. -/
def Made (b : Nat) (a : Private × Public) (rs new : List Val) : Prop :=
  ∃ j, (j = 4 ∨ j = 8) ∧ rs = [.ptr ⟨b + 7, []⟩, .ptr ⟨b + (8 + j), []⟩, .nil] ∧ new.length = j + 10 ∧ new[7]? = some (privateVal a.1) ∧
    new[j + 8]? = some (publicVal a.2)

theorem sumL_eq (d : Arr 64) : sumL d = encArr (copyZ 8 d.toList) := by
  rw [sumL, encArr_bytes, copyZ_toList_of_le (by simp), listed_eq]
  refine congrArg Val.arr ?_
  show _ = List.map _ _
  rw [List.map_take]

theorem wrap_uint32 (r : Int) : ITy.uint32.wrap r = ((BitVec.ofInt 32 r).toNat : Int) := by
  rw [BitVec.toNat_ofInt]
  show r % 2 ^ 32 = _
  omega

theorem letters_eq (s : Bytes) (h : s.length = 2) : Val.arr (byteVals s) = encArr (copyZ 2 s) := by
  rw [encArr_bytes, copyZ_toList_eq h]

theorem madeL_eq (rounds : BitVec 32) (salt : Arr 16) (d : Arr 64) (num : Arr 8) (k : Arr 64) :
    madeL rounds.toNat salt (sumL d) (encL num) (encArr k) =
      privateVal ⟨copyZ 2 b!"Ed", copyZ 2 b!"BK", rounds, salt, copyZ 8 d.toList, num, k⟩ := by
  rw [madeL, privateVal, sumL_eq, encL_eq, encL_eq, letters_eq _ rfl, letters_eq _ rfl]

theorem madePub_eq (num : Arr 8) (pub : Arr 32) :
    madePub num pub = publicVal ⟨copyZ 2 b!"Ed", num, copyZ 32 pub.toList⟩ := by
  have : copyZ 32 pub.toList = pub := arr_ext (copyZ_toList_eq (by simp))
  rw [madePub, publicVal, encL_eq, encL_eq, letters_eq _ rfl, this]

theorem make_plain (P : Prims) {pw : Bytes} (h : pw.length = 0) (r : Int) (seed : Arr 32) (salt : Arr 16) (num : Arr 8) :
    makeKeypair P pw r seed salt num = .ok (⟨copyZ 2 b!"Ed", copyZ 2 b!"BK", 0, salt,
      copyZ 8 (P.sha512 (seed.toList ++ (P.edPublic seed).toList)).toList, num, copyZ 64 (seed.toList ++ (P.edPublic seed).toList)⟩,
      ⟨copyZ 2 b!"Ed", num, copyZ 32 (P.edPublic seed).toList⟩) := by
  unfold makeKeypair
  simp only [h]
  rfl

theorem make_locked (P : Prims) {pw : Bytes} (h : ¬pw.length = 0) (r : Int) (seed : Arr 32) (salt : Arr 16) (num : Arr 8) {y : Arr 64}
    (hy : P.bcryptKey pw salt (BitVec.ofInt 32 r).toNat = .ok y) :
    makeKeypair P pw r seed salt num = .ok (⟨copyZ 2 b!"Ed", copyZ 2 b!"BK", BitVec.ofInt 32 r, salt,
      copyZ 8 (P.sha512 (seed.toList ++ (P.edPublic seed).toList)).toList, num, xorArr (copyZ 64 (seed.toList ++ (P.edPublic seed).toList)) y⟩,
      ⟨copyZ 2 b!"Ed", num, copyZ 32 (P.edPublic seed).toList⟩) := by
  unfold makeKeypair
  simp only [ne_eq, h, not_false_eq_true, if_true, if_false, hy]
  rfl

theorem make_kdf (P : Prims) {pw : Bytes} (h : ¬pw.length = 0) (r : Int) (seed : Arr 32) (salt : Arr 16) (num : Arr 8) {e : GoErr}
    (hy : P.bcryptKey pw salt (BitVec.ofInt 32 r).toNat = .err e) :
    makeKeypair P pw r seed salt num = .err e := by
  unfold makeKeypair
  simp only [ne_eq, h, not_false_eq_true, if_true, if_false, hy]
  rfl

/-- What is added when there is no passphrase. -/
def plainNew (us : List Val) (v q : Val) (pub : Arr 32) (k : Arr 64) (salt : Arr 16) (num : Arr 8) : List Val :=
  [v, q, encL pub, encL k, .slice ⟨us.length + 2 + 2, []⟩ 0 32 32, .slice ⟨us.length + 2 + 3, []⟩ 0 64 64, .nil,
    madeL 0 salt (sumL (madeSum S k)) (encL num) (encL k), .ptr ⟨us.length + 2 + 7, []⟩, .arr (byteVals b!"Ed"), .arr (byteVals b!"BK"),
    encArr (madeSum S k), madePub num pub, .ptr ⟨us.length + 2 + 12, []⟩]

theorem plainMem_eq (us : List Val) (v q : Val) (pub : Arr 32) (k : Arr 64) (salt : Arr 16) (num : Arr 8) :
    plainMem S v0 us v q pub k salt num = callerMem v0 us ++ plainNew S us v q pub k salt num := by
  simp only [plainMem, genMem, keysMem, plainNew, List.append_assoc, List.cons_append, List.nil_append]

/-- What is added when there is a passphrase. -/
def lockedNew (us : List Val) (v q : Val) (pub : Arr 32) (k y : Arr 64) (salt : Arr 16) (num : Arr 8) (rounds : Int) : List Val :=
  [v, q, encL pub, encL k, .slice ⟨us.length + 2 + 2, []⟩ 0 32 32, .slice ⟨us.length + 2 + 3, []⟩ 0 64 64, .nil,
    madeL rounds salt (sumL (madeSum S k)) (encL num) (.arr (xoredL k y)), .ptr ⟨us.length + 2 + 7, []⟩, .arr (byteVals b!"Ed"), .arr (byteVals b!"BK"),
    encArr (madeSum S k), encArr y, .slice ⟨us.length + 2 + 12, []⟩ 0 64 64, .nil, .int .int 63, madePub num pub, .ptr ⟨us.length + 2 + 16, []⟩]

theorem lockedMem_eq (us : List Val) (v q : Val) (pub : Arr 32) (k y : Arr 64) (salt : Arr 16) (num : Arr 8) (rounds : Int) :
    lockedMem S v0 us v q pub k y salt num rounds = callerMem v0 us ++ lockedNew S us v q pub k y salt num rounds := by
  simp only [lockedMem, genMem, keysMem, lockedNew, List.append_assoc, List.cons_append, List.nil_append]

/-- `GenerateKeypair(passphrase []byte, opts *GenerateOptions) (*Private, *Public, error)`, key.go:413-465. -/
theorem gen_run {us : List Val} {v o q : Val} {pw : Bytes} {r : Int} (ha : GenArgs us v pw o q r) (w : ω) :
    Agrees (generateS S pw r w) id
      (fun a w' res => ∃ rs new, Made (us.length + 2) a rs new ∧ res = .ok rs ⟨v0 :: defaultOpts :: us ++ new, us.length + 2, [], w'⟩)
      (fun e w' res => ∃ rs new, (new = [] ∧ rs = [.nil, .nil, libErr e]) ∧ res = .ok rs ⟨v0 :: defaultOpts :: us ++ new, us.length + 2, [], w'⟩)
      (generating S v0 us v o w) := by
  have start : (params [] (key.GenerateKeypair.recv.toList ++ key.GenerateKeypair.params) [v, o] >>= fun env =>
      namedResults (interp (repo S) 19) ⟨id!"signify", env⟩ env key.GenerateKeypair.results)
      ⟨callerMem v0 us, (callerMem v0 us).length, [], w⟩ =
      .ok (genEnv0 (us.length + 2)) ⟨callerMem v0 us ++ [v, o], us.length + 2, [], w⟩ := by
    cases ha <;> seval []
  have none' : ∀ (e : GoErr) (w' : ω), generating S v0 us v o w = .ok [.nil, .nil, libErr e] ⟨callerMem v0 us, us.length + 2, [], w'⟩ →
      ∃ rs new, (new = [] ∧ rs = [.nil, .nil, libErr e]) ∧
        generating S v0 us v o w = .ok rs ⟨v0 :: defaultOpts :: us ++ new, us.length + 2, [], w'⟩ := fun e w' h =>
    ⟨_, [], ⟨rfl, rfl⟩, by rw [List.append_nil]; exact h⟩
  unfold generateS
  rw [Act.bind_eq]
  rcases h1 : S.entropy 32 w with ⟨seed | e | _ | _ | _, w1⟩
  · simp only
    rw [Act.bind_eq]
    have front := gen_keys S v0 ha h1
    have sum : madeSum S (copyZ 64 (seed.toList ++ (S.prims.edPublic seed).toList)) = S.prims.sha512 (seed.toList ++ (S.prims.edPublic seed).toList) := by
      rw [madeSum, rawL_eq, copyZ_toList_eq (by simp)]
    have ck : ∀ {env2 s2 x rest} k, _ := fun {env2 s2 x rest} k => call_cut (P := repo S) (n := 19) (p := id!"signify") (f := key.GenerateKeypair) (vs := [v, o])
      (s := ⟨callerMem v0 us, us.length + 2, [], w⟩) (env2 := env2) (s2 := s2) (x := x) (rest := rest) k start
    rcases h2 : S.entropy 16 w1 with ⟨salt | e | _ | _ | _, w2⟩
    · simp only
      rw [Act.bind_eq]
      obtain ⟨kd, hkd⟩ : ∃ kd : BitVec 32, kd = if pw.length = 0 then 0 else BitVec.ofInt 32 r := ⟨_, rfl⟩
      have mid : genMid S v0 us v q (encArr (S.prims.edPublic seed)) (encArr (copyZ 64 (seed.toList ++ (S.prims.edPublic seed).toList))) w1 =
          .ok (genEnv1 (us.length + 2), .next)
            ⟨genMem v0 us v q (encArr (S.prims.edPublic seed)) (encArr (copyZ 64 (seed.toList ++ (S.prims.edPublic seed).toList)))
              (madeL kd.toNat salt (zeroBytes 8) (zeroBytes 8) (zeroBytes 64)), us.length + 2, [], w2⟩ := by
        by_cases h0 : pw.length = 0
        · rw [hkd, if_pos h0]
          exact gen_salt_plain S v0 ha h2 (by omega)
        · rw [hkd, if_neg h0, ← wrap_uint32]
          exact gen_salt_locked S v0 ha h2 (by omega)
      have c9 := ck 9 (execsEnv_append (ss := key.GenerateKeypair.body.take 3) (ss' := (key.GenerateKeypair.body.drop 3).take 6) front mid) rfl
      rw [← encL_eq, ← encL_eq] at c9
      rcases h3 : S.entropy 8 w2 with ⟨num | e | _ | _ | _, w3⟩
      · simp only
        by_cases h0 : pw.length = 0
        · rw [hkd, if_pos h0] at c9
          rw [make_plain S.prims h0]
          have e := c9.trans (gen_done_plain S v0 ha h3 (by omega))
          refine ⟨_, plainNew S us v q (S.prims.edPublic seed) (copyZ 64 (seed.toList ++ (S.prims.edPublic seed).toList)) salt num,
            ⟨4, .inl rfl, rfl, rfl, ?_, ?_⟩, e.trans (by rw [plainMem_eq]; rfl)⟩
          · rw [← madeL_eq, ← sum, ← encL_eq (copyZ 64 _)]
            rfl
          · rw [← madePub_eq]
            rfl
        · rw [if_neg h0] at hkd
          subst hkd
          rcases bcryptKey_cases S.prims pw salt (BitVec.ofInt 32 r).toNat with ⟨y, hy⟩ | ⟨e, hy⟩
          · rw [make_locked S.prims h0 _ _ _ _ hy]
            have e := c9.trans (gen_done_locked S v0 ha h3 (by omega) (y := y) (by rw [readOf_all, wrap_rounds, hy]))
            refine ⟨_, lockedNew S us v q (S.prims.edPublic seed) (copyZ 64 (seed.toList ++ (S.prims.edPublic seed).toList)) y salt num _,
              ⟨8, .inr rfl, rfl, rfl, ?_, ?_⟩, e.trans (by rw [lockedMem_eq]; rfl)⟩
            · rw [← madeL_eq, ← sum, ← xoredL_eq]
              rfl
            · rw [← madePub_eq]
              rfl
          · rw [make_kdf S.prims h0 _ _ _ _ hy]
            exact none' _ _ (c9.trans (gen_kdf S v0 ha h3 (by omega) (by rw [readOf_all, wrap_rounds, hy])))
      · exact none' _ _ (c9.trans (gen3_err S v0 ha h3))
      · obtain ⟨t, k1, k2, k3⟩ := gen3_panic S v0 ha h3
        exact ⟨t, c9.trans k1, k2, k3⟩
      · obtain ⟨t, k1, k2⟩ := gen3_crash S v0 ha h3
        exact ⟨t, c9.trans k1, k2⟩
      · trivial
    · exact none' _ _ ((ck 3 front rfl).trans (gen2_err S v0 ha h2))
    · obtain ⟨t, k1, k2, k3⟩ := gen2_panic S v0 ha h2
      exact ⟨t, (ck 3 front rfl).trans k1, k2, k3⟩
    · obtain ⟨t, k1, k2⟩ := gen2_crash S v0 ha h2
      exact ⟨t, (ck 3 front rfl).trans k1, k2⟩
    · trivial
  · exact none' _ _ (gen1_err S v0 ha h1)
  · exact gen1_panic S v0 ha h1
  · exact gen1_crash S v0 ha h1
  · trivial

theorem GenArgs.plain {us : List Val} {v o q : Val} {pw : Bytes} {r : Int} (ha : GenArgs us v pw o q r) : Val.anyRefers 0 us = false := by
  have pl : Val.anyRefers 0 (byteVals pw) = false := byteVals_plain 0 _
  cases ha <;> simp [Val.anyRefers, Val.refers, optsVal, Val.fieldRefers, pl]

theorem renew {s : St ω} {ρ : List Loc} {b : Nat} (h : b = ρ.length + 2) (i : Nat) : (beside s ρ).ren ⟨b + i, []⟩ = ⟨s.mem.length + i, []⟩ := by
  unfold Emb.ren
  rw [List.getElem?_eq_none (by simp; omega)]
  simp [h]

/-- The call in any memory. -/
theorem gen_in {s : St ω} {v0 : Val} (G : Globals s v0 defaultOpts) {us : List Val} {v o q : Val} {pw : Bytes} {r : Int} (ha : GenArgs us v pw o q r)
    {ρ : List Loc} (own : ∀ l ∈ ρ, 2 ≤ l.blk) (apart : ρ.Pairwise fun l m => l.disjoint m = true) (get : getAll s.mem ρ = some us) {n : Nat} (hn : 20 ≤ n) :
    Ends s.defers (generateS S pw r s.world) id
      (fun a t res => ∃ rs new, Made s.mem.length a rs new ∧ res = .ok rs ⟨s.mem ++ new, s.base, s.defers, t⟩)
      (fun e t res => res = .ok [.nil, .nil, libErr e] ⟨s.mem, s.base, s.defers, t⟩)
      ((interp (repo S) n).call id!"signify" key.GenerateKeypair ((beside s ρ).renVs [v, o]) s) := by
  have len : us.length = ρ.length := (getAll_length get).symm
  have c := carry_keep S hn (ρ := ρ) (us := us) G own apart (by rw [get, Emb.renVs_plain _ _ ha.plain]) (gen_run S v0 ha s.world)
  refine c.mono ?_ ?_
  · rintro a t ⟨rs, new, ⟨j, hj, rfl, h1, h2, h3⟩, k⟩
    refine ⟨_, (beside s ρ).renVs new, ⟨j, hj, ?_, by rw [Emb.renVs_length, h1], ?_, ?_⟩, k⟩
    · simp only [Emb.renVs, Emb.renV]
      rw [renew (by omega), renew (by omega)]
    · rw [Emb.renVs_eq, List.getElem?_map, h2, Option.map_some, Emb.renV_plain _ _ (privateVal_plain a.1 0)]
    · rw [Emb.renVs_eq, List.getElem?_map, h3, Option.map_some, Emb.renV_plain _ _ (publicVal_plain a.2 0)]
  · rintro e t ⟨rs, new, ⟨rfl, rfl⟩, k⟩
    refine k.trans ?_
    simp only [Emb.renVs, List.append_nil, Emb.renV]
    rfl

end Verif.Src
