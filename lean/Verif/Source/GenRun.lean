/-
The text of `GenerateKeypair` of signify/key.go and of the two `encode` methods, on a few blocks of memory and then in any
memory.
-/
import Verif.Source.SignMain

namespace Verif.Src

variable {ω : Type} (S : Sys ω) (v0 : Val)

/-- A call whose first statements are known. -/
theorem call_cut {P : Prog ω} {n : Nat} {p : Id} {f : Func} {vs : List Val} {s s1 s2 : St ω} {env env2 : Env} {x : Stmt} {rest : List Stmt} (k : Nat)
    (h1 : (params [] (f.recv.toList ++ f.params) vs >>= fun env => namedResults (interp P n) ⟨p, env⟩ env f.results)
      { s with base := s.mem.length, defers := [] } = .ok env s1)
    (h2 : execsEnv (interp P n) ⟨p, env⟩ (f.body.take k) s1 = .ok (env2, .next) s2)
    (h3 : f.body.drop k = x :: rest) :
    (interp P (n + 1)).call p f vs s = finish P (interp P n) f env s (execs (interp P n) ⟨p, env2⟩ (f.body.drop k) s2) := by
  rw [h3, execs_cons]
  exact call_parts k h1 h2 h3 rfl

/-! ### `encode` -/

section
variable (v1 : Val)

/-- What `Private.encode` returns. -/
def encPrivL (priv : Private) (r : Int) : Bytes :=
  rawL priv.keyAlgo ++ rawL priv.kdfAlgo ++ be32 (BitVec.ofInt 32 r) ++ rawL priv.salt ++ rawL priv.checksum ++ rawL priv.keyNum ++ rawL priv.key

theorem encPriv_raw (priv : Private) (r : Int) (w : ω) :
    (interp (repo S) 20).call id!"signify" key.Private.encode [.ptr ⟨2, []⟩] ⟨[v0, v1, privateL priv r], 3, [], w⟩ =
      .ok [.slice ⟨6, []⟩ 0 104 (byteVals (encPrivL priv r)).length] ⟨[v0, v1, privateL priv r, .ptr ⟨2, []⟩, .str (encPrivL priv r), .ptr ⟨4, []⟩,
        .arr (byteVals (encPrivL priv r))], 3, [], w⟩ := by
  sevalf []

/-- What `Public.encode` returns. -/
def encPubL (pub : Public) : Bytes := rawL pub.keyAlgo ++ rawL pub.keyNum ++ rawL pub.key

theorem encPub_raw (pub : Public) (w : ω) :
    (interp (repo S) 20).call id!"signify" key.Public.encode [.ptr ⟨2, []⟩] ⟨[v0, v1, publicL pub], 3, [], w⟩ =
      .ok [.slice ⟨6, []⟩ 0 42 (byteVals (encPubL pub)).length] ⟨[v0, v1, publicL pub, .ptr ⟨2, []⟩, .str (encPubL pub), .ptr ⟨4, []⟩,
        .arr (byteVals (encPubL pub))], 3, [], w⟩ := by
  sevalf []

end

/-- `(priv *Private) encode() []byte`, key.go:72-82, in any memory. -/
theorem encPriv_in {s : St ω} {v0 v1 : Val} (G : Globals s v0 v1) {l : Loc} (hl : 2 ≤ l.blk) {priv : Private} (E : l.get s.mem = some (privateVal priv))
    {n : Nat} (hn : 20 ≤ n) :
    (interp (repo S) n).call id!"signify" key.Private.encode [.ptr l] s =
      .ok [.slice ⟨s.mem.length + 3, []⟩ 0 104 (byteVals priv.encode).length] ⟨s.mem ++ [.ptr l, .str priv.encode, .ptr ⟨s.mem.length + 1, []⟩,
        .arr (byteVals priv.encode)], s.base, s.defers, s.world⟩ := by
  have pl : Val.anyRefers 0 (byteVals priv.encode) = false := byteVals_plain 0 _
  have hs : encPrivL priv priv.kdfRounds.toNat = priv.encode := by
    simp only [encPrivL, rawL_eq, BitVec.ofInt_natCast, BitVec.ofNat_toNat, BitVec.setWidth_eq]
    rfl
  have run := encPriv_raw S v0 v1 priv priv.kdfRounds.toNat s.world
  rw [privateL_eq, hs] at run
  have k := carry_same S hn (ρ := [l]) (us := [privateVal priv]) (new := [.ptr ⟨2, []⟩, .str priv.encode, .ptr ⟨4, []⟩, .arr (byteVals priv.encode)])
    G (by simp [hl]) (by simp)
    (by simp only [getAll, E, Emb.renVs, Emb.renV_plain _ _ (privateVal_plain priv 0)]) run
  simp only [Emb.renVs, Emb.renV, Emb.renVs_plain _ _ pl] at k
  rw [ren_two 0 l rfl] at k
  exact k

/-- `(pub *Public) encode() []byte`, key.go:279-285, in any memory. -/
theorem encPub_in {s : St ω} {v0 v1 : Val} (G : Globals s v0 v1) {l : Loc} (hl : 2 ≤ l.blk) {pub : Public} (E : l.get s.mem = some (publicVal pub))
    {n : Nat} (hn : 20 ≤ n) :
    (interp (repo S) n).call id!"signify" key.Public.encode [.ptr l] s =
      .ok [.slice ⟨s.mem.length + 3, []⟩ 0 42 (byteVals pub.encode).length] ⟨s.mem ++ [.ptr l, .str pub.encode, .ptr ⟨s.mem.length + 1, []⟩,
        .arr (byteVals pub.encode)], s.base, s.defers, s.world⟩ := by
  have pl : Val.anyRefers 0 (byteVals pub.encode) = false := byteVals_plain 0 _
  have hs : encPubL pub = pub.encode := by
    simp only [encPubL, rawL_eq]
    rfl
  have run := encPub_raw S v0 v1 pub s.world
  rw [publicL_eq, hs] at run
  have k := carry_same S hn (ρ := [l]) (us := [publicVal pub]) (new := [.ptr ⟨2, []⟩, .str pub.encode, .ptr ⟨4, []⟩, .arr (byteVals pub.encode)])
    G (by simp [hl]) (by simp)
    (by simp only [getAll, E, Emb.renVs, Emb.renV_plain _ _ (publicVal_plain pub 0)]) run
  simp only [Emb.renVs, Emb.renV, Emb.renVs_plain _ _ pl] at k
  rw [ren_two 0 l rfl] at k
  exact k

/-! ### `GenerateKeypair` -/

/-- The options of a caller. -/
def optsVal (r : Int) : Val := .struct id!"GenerateOptions" [(id!"Rounds", .int .int r)]

/-- The arguments of a caller: blocks of memory, a passphrase, which is nil or a slice of a block, the options, which are nil or a pointer to a block,
the pointer that is used and the rounds that it leads to. -/
inductive GenArgs : List Val → Val → Bytes → Val → Val → Int → Prop
  | none : GenArgs [] .nil [] .nil (.ptr ⟨1, []⟩) 42
  | pass (pw : Bytes) (cap : Nat) : GenArgs [.arr (byteVals pw)] (.slice ⟨2, []⟩ 0 pw.length cap) pw .nil (.ptr ⟨1, []⟩) 42
  | opts (r : Int) : GenArgs [optsVal r] .nil [] (.ptr ⟨2, []⟩) (.ptr ⟨2, []⟩) r
  | both (pw : Bytes) (cap : Nat) (r : Int) :
    GenArgs [.arr (byteVals pw), optsVal r] (.slice ⟨2, []⟩ 0 pw.length cap) pw (.ptr ⟨3, []⟩) (.ptr ⟨3, []⟩) r

/-- What a caller of `GenerateKeypair` has in memory. -/
def callerMem (us : List Val) : List Val := v0 :: defaultOpts :: us

noncomputable abbrev generating (us : List Val) (v o : Val) (w : ω) : R ω (List Val) :=
  (interp (repo S) 20).call id!"signify" key.GenerateKeypair [v, o] ⟨callerMem v0 us, us.length + 2, [], w⟩

/-- The names in use with `b` blocks before, before and after the key is drawn, and when the private key is being made. -/
def genEnv0 (b : Nat) : Env := [(id!"opts", .var ⟨b + 1, []⟩), (id!"passphrase", .var ⟨b, []⟩)]
def genEnvA (b : Nat) : Env :=
  (id!"err", .var ⟨b + 6, []⟩) :: (id!"edpriv", .var ⟨b + 5, []⟩) :: (id!"edpub", .var ⟨b + 4, []⟩) :: genEnv0 b
def genEnv1 (b : Nat) : Env := (id!"priv", .var ⟨b + 8, []⟩) :: genEnvA b

/-- A number of zero bytes. -/
def zeroBytes (n : Nat) : Val := .arr (List.replicate n (.int .uint8 0))

/-- Memory after the key is drawn. -/
def keysMem (us : List Val) (v q pv kv : Val) : List Val :=
  callerMem v0 us ++ [v, q, pv, kv, .slice ⟨us.length + 2 + 2, []⟩ 0 32 32, .slice ⟨us.length + 2 + 3, []⟩ 0 64 64, .nil]

/-- A private key, with its last fields. -/
def madeL (rounds : Int) (salt : Arr 16) (c x k : Val) : Val :=
  .struct id!"Private" [(id!"keyAlgo", .arr (byteVals b!"Ed")), (id!"kdfAlgo", .arr (byteVals b!"BK")), (id!"kdfRounds", .int .uint32 rounds),
    (id!"salt", encL salt), (id!"checksum", c), (id!"keyNum", x), (id!"key", k)]

/-- Memory after the salt is drawn. -/
def genMem (us : List Val) (v q pv kv : Val) (priv : Val) : List Val :=
  keysMem v0 us v q pv kv ++ [priv, .ptr ⟨us.length + 2 + 7, []⟩, .arr (byteVals b!"Ed"), .arr (byteVals b!"BK")]

/-- A run from its first statements on. -/
noncomputable abbrev genFront (us : List Val) (v o : Val) (w : ω) : R ω (Env × Ctl) :=
  execsEnv (interp (repo S) 19) ⟨id!"signify", genEnv0 (us.length + 2)⟩ (key.GenerateKeypair.body.take 3) ⟨callerMem v0 us ++ [v, o], us.length + 2, [], w⟩

noncomputable abbrev genMid (us : List Val) (v q pv kv : Val) (w : ω) : R ω (Env × Ctl) :=
  execsEnv (interp (repo S) 19) ⟨id!"signify", genEnvA (us.length + 2)⟩ ((key.GenerateKeypair.body.drop 3).take 6)
    ⟨keysMem v0 us v q pv kv, us.length + 2, [], w⟩

section
variable {us : List Val} {v o q pv kv : Val} {pw : Bytes} {r : Int} {w w1 w2 w3 : ω} (ha : GenArgs us v pw o q r)
include ha

theorem gen_keys {seed : Arr 32} (h1 : S.entropy 32 w = (.ok seed, w1)) :
    genFront S v0 us v o w = .ok (genEnvA (us.length + 2), .next)
      ⟨keysMem v0 us v q (encArr (S.prims.edPublic seed)) (encArr (copyZ 64 (seed.toList ++ (S.prims.edPublic seed).toList))), us.length + 2, [], w1⟩ := by
  cases ha <;> seval [h1]

theorem gen1_err {e : GoErr} (h : S.entropy 32 w = (.err e, w1)) :
    generating S v0 us v o w = .ok [.nil, .nil, libErr e] ⟨callerMem v0 us, us.length + 2, [], w1⟩ := by
  cases ha <;> seval [h]

theorem gen1_panic (h : S.entropy 32 w = (.panic, w1)) : ∃ t, generating S v0 us v o w = .panic t ∧ t.world = w1 ∧ t.defers = [] := by
  cases ha <;> exact ⟨_, by seval [h], rfl, rfl⟩

theorem gen1_crash (h : S.entropy 32 w = (.crash, w1)) : ∃ t, generating S v0 us v o w = .crash t ∧ t.world = w1 := by
  cases ha <;> exact ⟨_, by seval [h], rfl⟩

theorem gen_salt_plain {salt : Arr 16} (h2 : S.entropy 16 w1 = (.ok salt, w2)) (h0 : (pw.length : Int) = 0) :
    genMid S v0 us v q pv kv w1 = .ok (genEnv1 (us.length + 2), .next)
      ⟨genMem v0 us v q pv kv (madeL 0 salt (zeroBytes 8) (zeroBytes 8) (zeroBytes 64)), us.length + 2, [], w2⟩ := by
  cases ha
  · seval [h2]
  · seval [h2, h0]
  · seval [h2]
  · seval [h2, h0]

theorem gen_salt_locked {salt : Arr 16} (h2 : S.entropy 16 w1 = (.ok salt, w2)) (h0 : ¬(pw.length : Int) = 0) :
    genMid S v0 us v q pv kv w1 = .ok (genEnv1 (us.length + 2), .next)
      ⟨genMem v0 us v q pv kv (madeL (ITy.uint32.wrap r) salt (zeroBytes 8) (zeroBytes 8) (zeroBytes 64)), us.length + 2, [], w2⟩ := by
  cases ha
  · exact absurd rfl h0
  · seval [h2, h0]
  · exact absurd rfl h0
  · seval [h2, h0]

end

/-- The end of a run, from the statements after the first `k`. -/
noncomputable abbrev genEnd (k : Nat) (env : Env) (us : List Val) (w0 : ω) (mem : List Val) (w : ω) : R ω (List Val) :=
  finish (repo S) (interp (repo S) 19) key.GenerateKeypair (genEnv0 (us.length + 2)) ⟨callerMem v0 us, us.length + 2, [], w0⟩
    (execs (interp (repo S) 19) ⟨id!"signify", env⟩ (key.GenerateKeypair.body.drop k) ⟨mem, us.length + 2, [], w⟩)

section
variable {us : List Val} {v o q pv kv : Val} {pw : Bytes} {r rounds : Int} {w w0 w1 w2 w3 : ω} (ha : GenArgs us v pw o q r)
include ha

theorem gen2_err {e : GoErr} (h : S.entropy 16 w = (.err e, w1)) :
    genEnd S v0 3 (genEnvA (us.length + 2)) us w0 (keysMem v0 us v q pv kv) w = .ok [.nil, .nil, libErr e] ⟨callerMem v0 us, us.length + 2, [], w1⟩ := by
  by_cases hn : (pw.length : Int) = 0 <;> cases ha <;> first | exact absurd rfl hn | seval [h] | seval [h, hn]

theorem gen2_panic (h : S.entropy 16 w = (.panic, w1)) :
    ∃ t, genEnd S v0 3 (genEnvA (us.length + 2)) us w0 (keysMem v0 us v q pv kv) w = .panic t ∧ t.world = w1 ∧ t.defers = [] := by
  by_cases hn : (pw.length : Int) = 0 <;> cases ha <;>
    first | exact absurd rfl hn | exact ⟨_, by seval [h], rfl, rfl⟩ | exact ⟨_, by seval [h, hn], rfl, rfl⟩

theorem gen2_crash (h : S.entropy 16 w = (.crash, w1)) :
    ∃ t, genEnd S v0 3 (genEnvA (us.length + 2)) us w0 (keysMem v0 us v q pv kv) w = .crash t ∧ t.world = w1 := by
  by_cases hn : (pw.length : Int) = 0 <;> cases ha <;>
    first | exact absurd rfl hn | exact ⟨_, by seval [h], rfl⟩ | exact ⟨_, by seval [h, hn], rfl⟩

/-- A private key with nothing in its last fields. -/
def rawKey (rounds : Int) (salt : Arr 16) : Val := madeL rounds salt (zeroBytes 8) (zeroBytes 8) (zeroBytes 64)

variable {salt : Arr 16}

theorem gen3_err {e : GoErr} (h : S.entropy 8 w = (.err e, w1)) :
    genEnd S v0 9 (genEnv1 (us.length + 2)) us w0 (genMem v0 us v q pv kv (rawKey rounds salt)) w =
      .ok [.nil, .nil, libErr e] ⟨callerMem v0 us, us.length + 2, [], w1⟩ := by
  cases ha <;> seval [h]

theorem gen3_panic (h : S.entropy 8 w = (.panic, w1)) :
    ∃ t, genEnd S v0 9 (genEnv1 (us.length + 2)) us w0 (genMem v0 us v q pv kv (rawKey rounds salt)) w = .panic t ∧ t.world = w1 ∧ t.defers = [] := by
  cases ha <;> exact ⟨_, by seval [h], rfl, rfl⟩

theorem gen3_crash (h : S.entropy 8 w = (.crash, w1)) :
    ∃ t, genEnd S v0 9 (genEnv1 (us.length + 2)) us w0 (genMem v0 us v q pv kv (rawKey rounds salt)) w = .crash t ∧ t.world = w1 := by
  cases ha <;> exact ⟨_, by seval [h], rfl⟩

/-- The digest of the key. -/
def madeSum (k : Arr 64) : Arr 64 := S.prims.sha512 (rawL k)

/-- The checksum. -/
def sumL (d : Arr 64) : Val := .arr (((listed d).map byteVal).take 8)

/-- The public key. -/
def madePub (num : Arr 8) (pub : Arr 32) : Val :=
  .struct id!"Public" [(id!"keyAlgo", .arr (byteVals b!"Ed")), (id!"keyNum", encL num), (id!"key", encL pub)]

/-- Memory at the end, when there is no passphrase. -/
def plainMem (us : List Val) (v q : Val) (pub : Arr 32) (k : Arr 64) (salt : Arr 16) (num : Arr 8) : List Val :=
  genMem v0 us v q (encL pub) (encL k) (madeL 0 salt (sumL (madeSum S k)) (encL num) (encL k)) ++
    [encArr (madeSum S k), madePub num pub, .ptr ⟨us.length + 2 + 12, []⟩]

/-- Memory at the end, when there is a passphrase. -/
def lockedMem (us : List Val) (v q : Val) (pub : Arr 32) (k y : Arr 64) (salt : Arr 16) (num : Arr 8) (rounds : Int) : List Val :=
  genMem v0 us v q (encL pub) (encL k) (madeL rounds salt (sumL (madeSum S k)) (encL num) (.arr (xoredL k y))) ++
    [encArr (madeSum S k), encArr y, .slice ⟨us.length + 2 + 12, []⟩ 0 64 64, .nil, .int .int 63, madePub num pub, .ptr ⟨us.length + 2 + 16, []⟩]

variable {pub : Arr 32} {k : Arr 64} {num : Arr 8}

set_option maxHeartbeats 800000 in
theorem gen_done_plain (h : S.entropy 8 w = (.ok num, w1)) (h0 : (pw.length : Int) = 0) :
    genEnd S v0 9 (genEnv1 (us.length + 2)) us w0 (genMem v0 us v q (encL pub) (encL k) (rawKey 0 salt)) w =
      .ok [.ptr ⟨us.length + 2 + 7, []⟩, .ptr ⟨us.length + 2 + 12, []⟩, .nil] ⟨plainMem S v0 us v q pub k salt num, us.length + 2, [], w1⟩ := by
  cases ha
  · sevalf [h]
  · sevalf [h, h0]
  · sevalf [h]
  · sevalf [h, h0]

set_option maxHeartbeats 800000 in
theorem gen_done_locked (h : S.entropy 8 w = (.ok num, w1)) (h0 : ¬(pw.length : Int) = 0) {y : Arr 64}
    (hx : S.prims.bcryptKey (readOf (byteVals pw) pw.length) salt (ITy.int.wrap rounds) = .ok y) :
    genEnd S v0 9 (genEnv1 (us.length + 2)) us w0 (genMem v0 us v q (encL pub) (encL k) (rawKey rounds salt)) w =
      .ok [.ptr ⟨us.length + 2 + 7, []⟩, .ptr ⟨us.length + 2 + 16, []⟩, .nil] ⟨lockedMem S v0 us v q pub k y salt num rounds, us.length + 2, [], w1⟩ := by
  cases ha
  · exact absurd rfl h0
  · sevalf [h, h0, hx]
  · exact absurd rfl h0
  · sevalf [h, h0, hx]

set_option maxHeartbeats 800000 in
theorem gen_kdf (h : S.entropy 8 w = (.ok num, w1)) (h0 : ¬(pw.length : Int) = 0) {e : GoErr}
    (hx : S.prims.bcryptKey (readOf (byteVals pw) pw.length) salt (ITy.int.wrap rounds) = .err e) :
    genEnd S v0 9 (genEnv1 (us.length + 2)) us w0 (genMem v0 us v q (encL pub) (encL k) (rawKey rounds salt)) w =
      .ok [.nil, .nil, libErr e] ⟨callerMem v0 us, us.length + 2, [], w1⟩ := by
  cases ha
  · exact absurd rfl h0
  · sevalf [h, h0, hx]
  · exact absurd rfl h0
  · sevalf [h, h0, hx]

end

end Verif.Src
