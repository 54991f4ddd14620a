/-
The text of `seal` of crypto/crypto.go does what the model's `sealBox` does, first on a few blocks of memory, then in any
memory.
-/
import Verif.Source.CryptoSeal
import Verif.Source.EvalTidy
namespace Verif.Src

variable {ω : Type} (S : Sys ω) (v0 v1 : Val)
section
variable (FT FW FN : List Val → M ω (List Val)) (pub : Public) (e e' : EncState) (stale stale' : Bytes) (hw hm n : Nat) (w w1 w2 : ω) (n0 n1 n2 n3 n4 n5 n6 : Val) (a k : Arr 32)

/-- Memory before the call. -/
def sealMem0 : List Val := [v0, v1, publicVal pub, encVal e.line (fileVal hw) ⟨4, []⟩ e.pending.length, bufVal e.pending stale]

/-- The arguments of the call. -/
def sealArgs : List Val := [.ptr ⟨2, []⟩, fileVal hm, .int .int n, .ptr ⟨3, []⟩]

/-- Memory when the keys are known. -/
def sealMem1 (shared : Arr 32) : List Val :=
  sealMem0 v0 v1 pub e stale hw ++ sealArgs hm n ++ [encArr shared, n0, n1, n2, n3, n4, n5, n6, encArr a, .ptr ⟨17, []⟩, .nil,
    encArr (S.prims.x25519Base k), encArr k, .ptr ⟨20, []⟩, .ptr ⟨21, []⟩]

theorem seal_keys (hn : ¬(n : Int) = 0) 
    (hT : FT [.ptr ⟨2, []⟩] ⟨sealMem0 v0 v1 pub e stale hw ++ sealArgs hm n ++ [encArr (Vector.replicate 32 0)], 5, [], w⟩ =
      .ok [.ptr ⟨17, []⟩, .nil] ⟨sealMem0 v0 v1 pub e stale hw ++ sealArgs hm n ++ [encArr (Vector.replicate 32 0), n0, n1, n2, n3, n4, n5, n6, encArr a], 5, [], w⟩)
    (hE : S.entropy 32 w = (.ok k, w1)) :
    execsEnv (interpK (repo S) (sealK FT FW FN) 20) ⟨id!"crypto", sealEnv⟩ (crypt.seal.body.take 7) ⟨sealMem0 v0 v1 pub e stale hw ++ sealArgs hm n, 5, [], w⟩ =
      .ok (sealEnv1, .next) ⟨sealMem1 S v0 v1 pub e stale hw hm n n0 n1 n2 n3 n4 n5 n6 a k (S.prims.precompute a k), 5, [], w1⟩ := by
  sevalt [hT, hE, hn]

theorem seal_count (shared : Arr 32) (hn : n < 2 ^ 62) :
    execsEnv (interpK (repo S) (sealK FT FW FN) 20) ⟨id!"crypto", sealEnv1⟩ ((crypt.seal.body.drop 7).take 2)
      ⟨sealMem1 S v0 v1 pub e stale hw hm n n0 n1 n2 n3 n4 n5 n6 a k shared, 5, [], w⟩ =
      .ok ((id!"chunks", .var ⟨24, []⟩) :: sealEnv1, .next)
        ⟨sealMem1 S v0 v1 pub e stale hw hm n n0 n1 n2 n3 n4 n5 n6 a k shared ++ [.int .int (chunkCount n)], 5, [], w⟩ := by
  have e1 : Int.tdiv n 16385 = (n / 16385 : Nat) := rfl
  have e2 : Int.tmod n 16385 = (n % 16385 : Nat) := rfl
  have h1 : (Int.tdiv n 16385).natAbs < 9223372036854775808 := by rw [e1]; omega
  have h2 : (Int.tmod n 16385).natAbs < 9223372036854775808 := by rw [e2]; omega
  have w1 : ITy.int.wrap (Int.tdiv n 16385) = Int.tdiv n 16385 := if_pos h1
  have w2 : ITy.int.wrap (Int.tmod n 16385) = Int.tmod n 16385 := if_pos h2
  by_cases h3 : ITy.int.wrap (Int.tmod n 16385) = 0
  · have h4 : (chunkCount n : Int) = ITy.int.wrap (Int.tdiv n 16385) := by
      rw [w1, e1, chunkCount, chunkSize, if_neg (by rw [w2, e2] at h3; omega)]
    rw [h4]
    seval [h3]
  · have h5 : (Int.tdiv n 16385 + 1).natAbs < 9223372036854775808 := by rw [e1]; omega
    have h4 : (chunkCount n : Int) = ITy.int.wrap (ITy.int.wrap (Int.tdiv n 16385) + 1) := by
      rw [w1, show ITy.int.wrap (Int.tdiv n 16385 + 1) = Int.tdiv n 16385 + 1 from if_pos h5, e1, chunkCount, chunkSize, if_pos (by rw [w2, e2] at h3; omega)]
      rfl
    rw [h4]
    seval [h3]

theorem seal_header (shared : Arr 32) (c : Nat) :
    execsEnv (interpK (repo S) (sealK FT FW FN) 20) ⟨id!"crypto", (id!"chunks", .var ⟨24, []⟩) :: sealEnv1⟩ ((crypt.seal.body.drop 9).take 5)
      ⟨sealMem1 S v0 v1 pub e stale hw hm n n0 n1 n2 n3 n4 n5 n6 a k shared ++ [.int .int c], 5, [], w⟩ =
      .ok (sealEnv2, .next)
        ⟨sealMem1 S v0 v1 pub e stale hw hm n n0 n1 n2 n3 n4 n5 n6 a k shared ++ [.int .int c, 
          .arr ((be64 (ITy.uint64.wrap c).toNat ++ listed (S.prims.x25519Base k) ++ listed (S.prims.authSum (be64 (ITy.uint64.wrap c).toNat ++ listed (S.prims.x25519Base k)) shared)).map byteVal),
          encArr (S.prims.authSum (be64 (ITy.uint64.wrap c).toNat ++ listed (S.prims.x25519Base k)) shared), .ptr ⟨26, []⟩], 5, [], w⟩ := by
  sevalt []


variable (shared : Arr 32) (c : Nat) (hv : List Val) (b26 : Val)

/-- Memory when the header is to be written. -/
def sealMem2 : List Val :=
  sealMem1 S v0 v1 pub e stale hw hm n n0 n1 n2 n3 n4 n5 n6 a k shared ++ [.int .int c, .arr hv, b26, .ptr ⟨26, []⟩]

/-- The state when the header is to be written. -/
abbrev sealAt : St ω := ⟨sealMem2 S v0 v1 pub e stale hw hm n n0 n1 n2 n3 n4 n5 n6 a k shared c hv b26, 5, [], w⟩

theorem seal_head (j : Int) (hl : hv.length = 72)
    (hW : FW [.ptr ⟨3, []⟩, .slice ⟨25, []⟩ 0 72 72] (sealAt S v0 v1 pub e stale hw hm n w n0 n1 n2 n3 n4 n5 n6 a k shared c hv b26) =
      .ok [.int .int j, .nil] (sealAt S v0 v1 pub e' stale' hw hm n w1 n0 n1 n2 n3 n4 n5 n6 a k shared c hv b26)) :
    execsEnv (interpK (repo S) (sealK FT FW FN) 20) ⟨id!"crypto", sealEnv2⟩ ((crypt.seal.body.drop 14).take 4)
      (sealAt S v0 v1 pub e stale hw hm n w n0 n1 n2 n3 n4 n5 n6 a k shared c hv b26) =
      .ok (sealEnv3, .next)
        ⟨sealMem2 S v0 v1 pub e' stale' hw hm n n0 n1 n2 n3 n4 n5 n6 a k shared c hv b26 ++
          [.arr (List.replicate 16385 (.int .uint8 0)), .slice ⟨28, []⟩ 0 16385 16385, encArr (Vector.replicate 24 0)], 5, [], w1⟩ := by
  seval [hl, hW]

theorem seal_init (cv : List Val) :
    initial (interpK (repo S) (sealK FT FW FN) 20) ⟨id!"crypto", sealEnv3⟩ sealFor.1
      ⟨sealMem2 S v0 v1 pub e stale hw hm n n0 n1 n2 n3 n4 n5 n6 a k shared c hv b26 ++
        [.arr cv, .slice ⟨28, []⟩ 0 16385 16385, encArr (Vector.replicate 24 0)], 5, [], w⟩ =
      .ok sealCtx ⟨sealMem2 S v0 v1 pub e stale hw hm n n0 n1 n2 n3 n4 n5 n6 a k shared c hv b26 ++
        [.arr cv, .slice ⟨28, []⟩ 0 16385 16385, encArr (Vector.replicate 24 0), .int .int 0], 5, [], w⟩ := by
  seval []

theorem seal_head_err (j : Int) (er : GoErr) (hl : hv.length = 72)
    (hW : FW [.ptr ⟨3, []⟩, .slice ⟨25, []⟩ 0 72 72] (sealAt S v0 v1 pub e stale hw hm n w n0 n1 n2 n3 n4 n5 n6 a k shared c hv b26) =
      .ok [.int .int j, libErr er] (sealAt S v0 v1 pub e' stale' hw hm n w1 n0 n1 n2 n3 n4 n5 n6 a k shared c hv b26)) :
    ∃ new, execs (interpK (repo S) (sealK FT FW FN) 20) ⟨id!"crypto", sealEnv2⟩ (crypt.seal.body.drop 14)
      (sealAt S v0 v1 pub e stale hw hm n w n0 n1 n2 n3 n4 n5 n6 a k shared c hv b26) =
      .ok (.ret [libErr er]) ⟨sealMem0 v0 v1 pub e' stale' hw ++ new, 5, [], w1⟩ :=
  ⟨[_, _, _, _, _, _, _, _, _, _, _, _, _, _, _, _, _, _, _, _, _, _, _], by seval [hl, hW]⟩

theorem seal_head_panic (t : St ω) (hl : hv.length = 72)
    (hW : FW [.ptr ⟨3, []⟩, .slice ⟨25, []⟩ 0 72 72] (sealAt S v0 v1 pub e stale hw hm n w n0 n1 n2 n3 n4 n5 n6 a k shared c hv b26) = .panic t) :
    execs (interpK (repo S) (sealK FT FW FN) 20) ⟨id!"crypto", sealEnv2⟩ (crypt.seal.body.drop 14)
      (sealAt S v0 v1 pub e stale hw hm n w n0 n1 n2 n3 n4 n5 n6 a k shared c hv b26) = .panic t := by
  seval [hl, hW]

theorem seal_head_crash (t : St ω) (hl : hv.length = 72)
    (hW : FW [.ptr ⟨3, []⟩, .slice ⟨25, []⟩ 0 72 72] (sealAt S v0 v1 pub e stale hw hm n w n0 n1 n2 n3 n4 n5 n6 a k shared c hv b26) = .crash t) :
    execs (interpK (repo S) (sealK FT FW FN) 20) ⟨id!"crypto", sealEnv2⟩ (crypt.seal.body.drop 14)
      (sealAt S v0 v1 pub e stale hw hm n w n0 n1 n2 n3 n4 n5 n6 a k shared c hv b26) = .crash t := by
  seval [hl, hW]

theorem seal_none :
    (interpK (repo S) (sealK FT FW FN) 20).call id!"crypto" crypt.seal (sealArgs hm 0) ⟨sealMem0 v0 v1 pub e stale hw, 5, [], w⟩ =
      .ok [.nil] ⟨sealMem0 v0 v1 pub e stale hw, 5, [], w⟩ := by
  seval []

theorem seal_key_err (hn : ¬(n : Int) = 0) (ev : EVal)
    (hT : FT [.ptr ⟨2, []⟩] ⟨sealMem0 v0 v1 pub e stale hw ++ sealArgs hm n ++ [encArr (Vector.replicate 32 0)], 5, [], w⟩ =
      .ok [.nil, .err ev] ⟨sealMem0 v0 v1 pub e stale hw ++ sealArgs hm n ++ [encArr (Vector.replicate 32 0)], 5, [], w⟩) :
    (interpK (repo S) (sealK FT FW FN) 20).call id!"crypto" crypt.seal (sealArgs hm n) ⟨sealMem0 v0 v1 pub e stale hw, 5, [], w⟩ =
      .ok [.err ev] ⟨sealMem0 v0 v1 pub e stale hw, 5, [], w⟩ := by
  seval [hT, hn]

section
variable (hn : ¬(n : Int) = 0) 
    (hT : FT [.ptr ⟨2, []⟩] ⟨sealMem0 v0 v1 pub e stale hw ++ sealArgs hm n ++ [encArr (Vector.replicate 32 0)], 5, [], w⟩ =
      .ok [.ptr ⟨17, []⟩, .nil] ⟨sealMem0 v0 v1 pub e stale hw ++ sealArgs hm n ++ [encArr (Vector.replicate 32 0), n0, n1, n2, n3, n4, n5, n6, encArr a], 5, [], w⟩)
include hn hT

theorem seal_rand_err (er : GoErr) (hE : S.entropy 32 w = (.err er, w1)) :
    (interpK (repo S) (sealK FT FW FN) 20).call id!"crypto" crypt.seal (sealArgs hm n) ⟨sealMem0 v0 v1 pub e stale hw, 5, [], w⟩ =
      .ok [libErr er] ⟨sealMem0 v0 v1 pub e stale hw, 5, [], w1⟩ := by
  seval [hT, hE, hn]

theorem seal_rand_panic (hE : S.entropy 32 w = (.panic, w1)) :
    ∃ m, (interpK (repo S) (sealK FT FW FN) 20).call id!"crypto" crypt.seal (sealArgs hm n) ⟨sealMem0 v0 v1 pub e stale hw, 5, [], w⟩ =
      .panic ⟨m, 5, [], w1⟩ :=
  ⟨_, by seval [hT, hE, hn]⟩

theorem seal_rand_crash (hE : S.entropy 32 w = (.crash, w1)) :
    ∃ t, (interpK (repo S) (sealK FT FW FN) 20).call id!"crypto" crypt.seal (sealArgs hm n) ⟨sealMem0 v0 v1 pub e stale hw, 5, [], w⟩ =
      .crash t ∧ t.world = w1 :=
  ⟨_, by seval [hT, hE, hn], rfl⟩
end
end

theorem execsEnv_append {I : Interp ω} {c : Ctx} {ss ss' : List Stmt} {s t : St ω} {env : Env} {r : R ω (Env × Ctl)}
    (h : execsEnv I c ss s = .ok (env, .next) t) (k : execsEnv I { c with env := env } ss' t = r) :
    execsEnv I c (ss ++ ss') s = r := by
  induction ss generalizing c s with
  | nil => cases h; exact k
  | cons x xs ih =>
    unfold execsEnv at h
    change M.bind _ _ s = _ at h
    unfold M.bind at h
    rw [List.cons_append]
    unfold execsEnv
    show M.bind _ _ s = _
    unfold M.bind
    cases hx : I.stmt c x s with
    | ok a u =>
      rw [hx] at h
      obtain ⟨env', ctl⟩ := a
      cases ctl with
      | next => exact ih h k
      | _ => cases h
    | _ => rw [hx] at h; cases h

/-- A call in two parts. -/
theorem call_rest {P : Prog ω} {K : Known ω} {n m d : Nat} (hK : K.Sound P d) (hm : m + d ≤ n) {p : Id} {f : Func} {vs : List Val}
    {s s1 s2 : St ω} {env env2 : Env} {x : Stmt} {rest : List Stmt} {r : R ω Ctl} (k : Nat)
    (h1 : (params [] (f.recv.toList ++ f.params) vs >>= fun env => namedResults (interpK P K m) ⟨p, env⟩ env f.results)
      { s with base := s.mem.length, defers := [] } = .ok env s1)
    (h2 : execsEnv (interpK P K m) ⟨p, env⟩ (f.body.take k) s1 = .ok (env2, .next) s2)
    (h3 : f.body.drop k = x :: rest)
    (h4 : execs (interpK P K m) ⟨p, env2⟩ (f.body.drop k) s2 = r) (hr : r ≠ .stuck) :
    (interp P (n + 1)).call p f vs s = finish P (interp P n) f env s r := by
  have le : (interpK P K m).Le (interp P n) := (interpK_le hK m).trans (interp_mono (.refl P) (by omega))
  have c := call_parts k (P := P) (n := n) (p := p) (f := f) (vs := vs) (s := s)
    ((Le.bind (.refl _) fun env => namedResults_mono le _ _ _).ok h1) ((execsEnv_mono le _ _).ok h2) h3 rfl
  rw [c, ← execs_cons (I := interp P n), ← h3, (execs_mono le _ _).eq h4 hr]

section
variable (pub : Public) (hw hm n : Nat)

/-- The blocks that stay during the loop. -/
def sealFix (new : List Val) (a k : Arr 32) (c : Nat) (hv : List Val) (b26 : Val) : SealFixed where
  b2 := publicVal pub
  b5 := .ptr ⟨2, []⟩
  b7 := .int .int n
  b10 := new.getD 0 .nil
  b11 := new.getD 1 .nil
  b12 := new.getD 2 .nil
  b13 := new.getD 3 .nil
  b14 := new.getD 4 .nil
  b15 := new.getD 5 .nil
  b16 := new.getD 6 .nil
  b17 := encArr a
  b18 := .ptr ⟨17, []⟩
  b19 := .nil
  b20 := encArr (S.prims.x25519Base k)
  b21 := encArr k
  b22 := .ptr ⟨20, []⟩
  b23 := .ptr ⟨21, []⟩
  b25 := .arr hv
  b26 := b26
  b27 := .ptr ⟨26, []⟩
  shared := S.prims.precompute a k
  hm := hm
  hw := hw
  chunks := c

theorem toBox_ok_err : pub.toBox ≠ .panic ∧ pub.toBox ≠ .crash ∧ pub.toBox ≠ .hang := by
  rw [Public.toBox, Public.toBoxBytes]
  cases Ed.extFromBytes pub.key <;> simp [Public.boxOfPoint]

/-- The calls in `seal`. -/
noncomputable abbrev sealFT (vs : List Val) : M ω (List Val) := (interp (repo S) 50).call id!"signify" key.Public.ToBox vs
noncomputable abbrev sealFW (vs : List Val) : M ω (List Val) := (interp (repo S) 50).call id!"base64" coding.Encoder.Write vs
noncomputable abbrev sealFN (vs : List Val) : M ω (List Val) := (interp (repo S) 50).call id!"crypto" crypt.incrementNonce vs

theorem seal_first (e : EncState) (stale : Bytes) (hn : n < 2 ^ 62) (w w1 : ω) (n0 n1 n2 n3 n4 n5 n6 : Val) (a k : Arr 32)
    (h0' : ¬(n : Int) = 0)
    (hT : sealFT S [.ptr ⟨2, []⟩] ⟨sealMem0 v0 v1 pub e stale hw ++ sealArgs hm n ++ [encArr (Vector.replicate 32 0)], 5, [], w⟩ =
      .ok [.ptr ⟨17, []⟩, .nil] ⟨sealMem0 v0 v1 pub e stale hw ++ sealArgs hm n ++ [encArr (Vector.replicate 32 0), n0, n1, n2, n3, n4, n5, n6, encArr a], 5, [], w⟩)
    (hE : S.entropy 32 w = (.ok k, w1)) :
    execsEnv (interpK (repo S) (sealKnown S 50) 20) ⟨id!"crypto", sealEnv⟩ (crypt.seal.body.take 14) ⟨sealMem0 v0 v1 pub e stale hw ++ sealArgs hm n, 5, [], w⟩ =
      .ok (sealEnv2, .next) (sealAt S v0 v1 pub e stale hw hm n w1 n0 n1 n2 n3 n4 n5 n6 a k (S.prims.precompute a k) (chunkCount n)
        (byteVals (sealHeader S.prims (chunkCount n) (S.prims.x25519Base k) (S.prims.precompute a k)))
        (encArr (S.prims.authSum (be64 (chunkCount n) ++ (S.prims.x25519Base k).toList) (S.prims.precompute a k)))) := by
  have c62 : chunkCount n < 2 ^ 62 := by
    rw [chunkCount, chunkSize]
    split <;> omega
  have hc : (ITy.uint64.wrap (chunkCount n)).toNat = chunkCount n := by
    rw [show ITy.uint64.wrap (chunkCount n) = (chunkCount n : Int) % 2 ^ 64 from rfl]
    omega
  have k1 := seal_keys S v0 v1 (sealFT S) (sealFW S) (sealFN S) pub e stale hw hm n w w1 n0 n1 n2 n3 n4 n5 n6 a k h0' hT hE
  have k2 := seal_count S v0 v1 (sealFT S) (sealFW S) (sealFN S) pub e stale hw hm n w1 n0 n1 n2 n3 n4 n5 n6 a k (S.prims.precompute a k) hn
  have k3 := seal_header S v0 v1 (sealFT S) (sealFW S) (sealFN S) pub e stale hw hm n w1 n0 n1 n2 n3 n4 n5 n6 a k (S.prims.precompute a k) (chunkCount n)
  rw [hc, listed_eq, listed_eq] at k3
  exact execsEnv_append (execsEnv_append k1 k2) k3

theorem byteVals_zeros : (List.replicate 16385 (Val.int .uint8 0)) = byteVals (List.replicate 16385 0) := by
  rw [byteVals, List.map_replicate]; rfl

/-- From the header on. -/
theorem seal_from (p0 : v0.refers 2 = false) (p1 : v1.refers 2 = false) (e : EncState) (stale : Bytes)
    (he : EncOk e) (hs : e.pending.length + stale.length = 3) (hn : n < 2 ^ 62)
    (contract : ∀ w got w', S.read hm 16385 w = (.ok got, w') → got.length ≤ 16385)
    (box : ∀ key nonce m, (S.prims.boxSeal key nonce m).length = m.length + 16) (w w1 : ω)
    (n0 n1 n2 n3 n4 n5 n6 : Val) (a k : Arr 32) (pl : Val.anyRefers 18 [n0, n1, n2, n3, n4, n5, n6] = false)
    (h0' : ¬(n : Int) = 0)
    (hT : sealFT S [.ptr ⟨2, []⟩] ⟨sealMem0 v0 v1 pub e stale hw ++ sealArgs hm n ++ [encArr (Vector.replicate 32 0)], 5, [], w⟩ =
      .ok [.ptr ⟨17, []⟩, .nil] ⟨sealMem0 v0 v1 pub e stale hw ++ sealArgs hm n ++ [encArr (Vector.replicate 32 0), n0, n1, n2, n3, n4, n5, n6, encArr a], 5, [], w⟩)
    (hE : S.entropy 32 w = (.ok k, w1)) :
    Agrees ((encWrite (S.write hw) (sealHeader S.prims (chunkCount n) (S.prims.x25519Base k) (S.prims.precompute a k)) >>= fun _ =>
        sealLoop S.prims (S.prims.precompute a k) (fun k => Act.onSnd (S.read hm k)) (encWrite (S.write hw)) (chunkCount n) (Vector.replicate 24 0) :
        Act (EncState × ω) Unit) (e, w1)) (·.2)
      (fun _ t r => EncOk t.1 ∧ ∃ stale', t.1.pending.length + stale'.length = 3 ∧
        r = .ok [.nil] ⟨sealMem0 v0 v1 pub t.1 stale' hw, 5, [], t.2⟩)
      (fun er t r => ∃ v stale', t.1.pending.length < 3 ∧ IsErr er v ∧ t.1.pending.length + stale'.length = 3 ∧
        r = .ok [v] ⟨sealMem0 v0 v1 pub t.1 stale' hw, 5, [], t.2⟩)
      ((interp (repo S) (chunkCount n + 73)).call id!"crypto" crypt.seal (sealArgs hm n) ⟨sealMem0 v0 v1 pub e stale hw, 5, [], w⟩) := by
  have snd := sealKnown_sound S 50
  have c62 : chunkCount n < 2 ^ 62 := by
    rw [chunkCount, chunkSize]
    split <;> omega
  have first := seal_first S v0 v1 pub hw hm n e stale hn w w1 n0 n1 n2 n3 n4 n5 n6 a k h0' hT hE
  obtain ⟨tag, htag⟩ : ∃ tag, encArr (S.prims.authSum (be64 (chunkCount n) ++ (S.prims.x25519Base k).toList) (S.prims.precompute a k)) = tag := ⟨_, rfl⟩
  have tpl : tag.refers 32 = false := by rw [← htag]; exact Val.refers_mono (by omega) _ (Emb.encArr_plain _)
  rw [htag] at first
  have l72 : (sealHeader S.prims (chunkCount n) (S.prims.x25519Base k) (S.prims.precompute a k)).length = 72 := by
    simp [sealHeader, show ∀ c, (be64 c).length = 8 from fun _ => rfl]
  generalize sealHeader S.prims (chunkCount n) (S.prims.x25519Base k) (S.prims.precompute a k) = hd at first l72
  have hl : (byteVals hd).length = 72 := by rw [byteVals_length, l72]
  have start : (params [] (crypt.seal.recv.toList ++ crypt.seal.params) (sealArgs hm n) >>= fun env =>
      namedResults (interpK (repo S) (sealKnown S 50) 20) ⟨id!"crypto", env⟩ env crypt.seal.results) ⟨sealMem0 v0 v1 pub e stale hw, 5, [], w⟩ =
      .ok sealEnv ⟨sealMem0 v0 v1 pub e stale hw ++ sealArgs hm n, 5, [], w⟩ := by seval []
  have wr := write_in S (s := sealAt S v0 v1 pub e stale hw hm n w1 n0 n1 n2 n3 n4 n5 n6 a k (S.prims.precompute a k) (chunkCount n) (byteVals hd) tag)
    (v0 := v0) (v1 := v1) ⟨rfl, rfl, p0, p1⟩
    (l := ⟨3, []⟩) (b := ⟨4, []⟩) (a := ⟨25, []⟩) (h := hw) (e := e) (by simp) (by simp) (by simp) rfl rfl rfl ⟨stale, hs, he.1, rfl, rfl⟩ he
    (ps := hd) rfl (off := 0) (len := 72) (cap := 72) (by omega) (by omega) (n := 50) (by omega)
  rw [List.drop_zero, ← l72, List.take_length, l72] at wr
  rw [Act.bind_eq]
  have rest := fun {r} => call_rest snd (n := chunkCount n + 72) (by omega) 14 (s := ⟨sealMem0 v0 v1 pub e stale hw, 5, [], w⟩) (r := r) start first rfl
  rcases hwr : encWrite (S.write hw) hd (e, w1) with ⟨j | er | _ | _ | _, e', w2⟩ <;> rw [hwr] at wr
  · obtain ⟨he', s', ⟨stale', m, q1, q2, q3, rfl⟩, hW⟩ := wr
    cases (show writeAll _ _ = some (sealMem2 S v0 v1 pub e' stale' hw hm n n0 n1 n2 n3 n4 n5 n6 a k (S.prims.precompute a k) (chunkCount n) (byteVals hd) tag) from rfl).symm.trans q3
    have k4 := seal_head S v0 v1 (sealFT S) (sealFW S) (sealFN S) pub e e' stale stale' hw hm n w1 w2 n0 n1 n2 n3 n4 n5 n6 a k (S.prims.precompute a k) (chunkCount n)
      (byteVals hd) tag j hl hW
    rw [byteVals_zeros] at k4
    have all : execsEnv (interpK (repo S) (sealKnown S 50) 20) ⟨id!"crypto", sealEnv⟩ (crypt.seal.body.take 18) _ = _ := execsEnv_append first k4
    obtain ⟨x, hx⟩ : ∃ x, sealFix S pub hw hm n [n0, n1, n2, n3, n4, n5, n6] a k (chunkCount n) (byteVals hd) tag = x := ⟨_, rfl⟩
    have xpl : x.Plain := by
      subst hx
      have r1 := Val.anyRefers_mono (k' := 32) (by omega) _ pl
      simp only [Val.anyRefers, Bool.or_eq_false_iff] at r1
      have r2 := Val.refers_mono (k' := 32) (by omega) _ (Emb.encArr_plain a)
      have r3 := Val.refers_mono (k' := 32) (by omega) _ (Emb.encArr_plain k)
      have r4 := Val.refers_mono (k' := 32) (by omega) _ (Emb.encArr_plain (S.prims.x25519Base k))
      simp [SealFixed.Plain, sealFix, Val.anyRefers, Val.refers, publicVal_plain, byteVals_plain, tpl, r1, r2, r3, r4]
    have loop := seal_loop S v0 v1 p0 p1 x xpl (by subst hx; exact c62) (by subst hx; exact contract) box (chunkCount n) 0 (Vector.replicate 24 0)
      (List.replicate 16385 0) e' stale' [] w2 (by subst hx; exact Nat.zero_add _) q1 he'
    generalize hr : (interp (repo S) (chunkCount n + 71)).iter sealCtx sealFor.2.1 sealFor.2.2.1 sealFor.2.2.2 _ = r at loop
    have fin := call_loop snd (n := chunkCount n + 71) (m := 20) (by omega) (s := ⟨sealMem0 v0 v1 pub e stale hw, 5, [], w⟩) 18 start all (by krfl)
      (i := sealFor.1) (c := sealCtx) (s3 := ⟨x.mem v0 v1 e' stale' (byteVals (List.replicate 16385 0)) (Vector.replicate 24 0) (0 : Nat) ++ [], 5, [], w2⟩)
      (by
        subst hx
        have init := seal_init S v0 v1 (sealFT S) (sealFW S) (sealFN S) pub e' stale' hw hm n w2 n0 n1 n2 n3 n4 n5 n6 a k (S.prims.precompute a k) (chunkCount n)
          (byteVals hd) tag (byteVals (List.replicate 16385 0))
        exact init) hr
    rw [fin]
    simp only
    subst hx
    change Agrees (sealLoop S.prims (S.prims.precompute a k) (fun k => Act.onSnd (S.read hm k)) (encWrite (S.write hw)) (chunkCount n) (Vector.replicate 24 0) (e', w2)) _ _ _ _ at loop
    rcases ho : sealLoop S.prims (S.prims.precompute a k) (fun k => Act.onSnd (S.read hm k)) (encWrite (S.write hw)) (chunkCount n) (Vector.replicate 24 0) (e', w2) with ⟨j | er | _ | _ | _, t⟩ <;> rw [ho] at loop
    · obtain ⟨he2, stale2, cb, nonce, i, g, l1, l2, rfl⟩ := loop
      refine ⟨he2, stale2, l1, ?_⟩
      seval []
    · obtain ⟨v, hv, stale2, cb, nonce, i, g, l1, l2, rfl⟩ := loop
      refine ⟨v, stale2, l2, hv, l1, ?_⟩
      obtain ⟨ev, rfl⟩ : ∃ ev, v = .err ev := by
        rcases hv with rfl | rfl
        · exact ⟨_, rfl⟩
        · cases er <;> exact ⟨_, rfl⟩
      seval []
    · obtain ⟨t', rfl, ew, ed⟩ := loop
      obtain ⟨tm, tb, td, tw⟩ := t'
      subst ed
      subst ew
      exact ⟨⟨tm, 5, [], _⟩, by seval [], rfl, rfl⟩
    · obtain ⟨t', rfl, ew⟩ := loop
      obtain ⟨tm, tb, td, tw⟩ := t'
      subst ew
      exact ⟨⟨tm, 5, [], _⟩, by seval [], rfl⟩
    · trivial
  · obtain ⟨j, s', ⟨stale', m, q1, q2, q3, rfl⟩, hW⟩ := wr
    cases (show writeAll _ _ = some (sealMem2 S v0 v1 pub e' stale' hw hm n n0 n1 n2 n3 n4 n5 n6 a k (S.prims.precompute a k) (chunkCount n) (byteVals hd) tag) from rfl).symm.trans q3
    obtain ⟨new, k4⟩ := seal_head_err S v0 v1 (sealFT S) (sealFW S) (sealFN S) pub e e' stale stale' hw hm n w1 w2 n0 n1 n2 n3 n4 n5 n6 a k (S.prims.precompute a k) (chunkCount n)
      (byteVals hd) tag j er hl hW
    rw [rest k4 (by simp)]
    refine ⟨_, stale', q2, .inl rfl, q1, ?_⟩
    seval []
  · obtain ⟨t, hW, ew, ed⟩ := wr
    rw [rest (seal_head_panic S v0 v1 (sealFT S) (sealFW S) (sealFN S) pub e stale hw hm n w1 n0 n1 n2 n3 n4 n5 n6 a k (S.prims.precompute a k) (chunkCount n)
      (byteVals hd) tag t hl hW) (by simp)]
    obtain ⟨tm, tb, td, tw⟩ := t
    subst ed
    subst ew
    exact ⟨⟨tm, 5, [], _⟩, by seval [], rfl, rfl⟩
  · obtain ⟨t, hW, ew⟩ := wr
    rw [rest (seal_head_crash S v0 v1 (sealFT S) (sealFW S) (sealFN S) pub e stale hw hm n w1 n0 n1 n2 n3 n4 n5 n6 a k (S.prims.precompute a k) (chunkCount n)
      (byteVals hd) tag t hl hW) (by simp)]
    obtain ⟨tm, tb, td, tw⟩ := t
    subst ew
    exact ⟨⟨tm, 5, [], _⟩, by seval [], rfl⟩
  · trivial

theorem seal_run (hS : S.ed = edFns) (p0 : v0.refers 2 = false) (p1 : v1.refers 2 = false) (e : EncState) (stale : Bytes)
    (he : EncOk e) (hs : e.pending.length + stale.length = 3) (hn : n < 2 ^ 62)
    (contract : ∀ w got w', S.read hm 16385 w = (.ok got, w') → got.length ≤ 16385)
    (box : ∀ key nonce m, (S.prims.boxSeal key nonce m).length = m.length + 16) (w : ω) :
    Agrees (sealBox S.prims pub (Act.onSnd (S.entropy 32)) (fun k => Act.onSnd (S.read hm k)) n (encWrite (S.write hw)) (e, w)) (·.2)
      (fun _ t r => EncOk t.1 ∧ ∃ stale', t.1.pending.length + stale'.length = 3 ∧
        r = .ok [.nil] ⟨sealMem0 v0 v1 pub t.1 stale' hw, 5, [], t.2⟩)
      (fun er t r => ∃ v stale', t.1.pending.length < 3 ∧ IsErr er v ∧ t.1.pending.length + stale'.length = 3 ∧
        r = .ok [v] ⟨sealMem0 v0 v1 pub t.1 stale' hw, 5, [], t.2⟩)
      ((interp (repo S) (chunkCount n + 73)).call id!"crypto" crypt.seal (sealArgs hm n) ⟨sealMem0 v0 v1 pub e stale hw, 5, [], w⟩) := by
  have snd := sealKnown_sound S 50
  have up : ∀ {s : St ω} {r}, (interpK (repo S) (sealKnown S 50) 20).call id!"crypto" crypt.seal (sealArgs hm n) s = r → r ≠ .stuck →
      (interp (repo S) (chunkCount n + 73)).call id!"crypto" crypt.seal (sealArgs hm n) s = r := fun h hr =>
    Le.eq (((interpK_le snd 20).trans (interp_mono (.refl _) (by omega))).call _ _ _) h hr
  unfold sealBox
  by_cases h0 : n = 0
  · subst h0
    rw [if_pos rfl, up (seal_none S v0 v1 _ _ _ pub e stale hw hm w) (by simp)]
    exact ⟨he, stale, hs, rfl⟩
  have h0' : ¬(n : Int) = 0 := Int.ofNat_ne_zero.2 h0
  rw [if_neg h0]
  have tb := toBox_in S hS (s := ⟨sealMem0 v0 v1 pub e stale hw ++ sealArgs hm n ++ [encArr (Vector.replicate 32 0)], 5, [], w⟩) (v0 := v0) (v1 := v1)
    ⟨rfl, rfl, p0, p1⟩ (l := ⟨2, []⟩) (by simp) (pub := pub) rfl (n := 50) (by omega)
  generalize ht : pub.toBox = o at tb
  rcases o with a | er | _ | _ | _
  · obtain ⟨new, l8, l7, pl, hT⟩ := tb
    obtain ⟨n0, n1, n2, n3, n4, n5, n6, rfl⟩ : ∃ n0 n1 n2 n3 n4 n5 n6, new = [n0, n1, n2, n3, n4, n5, n6, encArr a] := by
      match new, l8 with
      | [n0, n1, n2, n3, n4, n5, n6, n7], _ => cases l7; exact ⟨n0, n1, n2, n3, n4, n5, n6, rfl⟩
    show Agrees ((Act.onSnd (S.entropy 32) >>= fun epriv => _ : Act (EncState × ω) Unit) (e, w)) _ _ _ _
    rw [Act.bind_eq, Act.onSnd_apply]
    rcases hE : S.entropy 32 w with ⟨k | er | _ | _ | _, w1⟩
    · exact seal_from S v0 v1 pub hw hm n p0 p1 e stale he hs hn contract box w w1 n0 n1 n2 n3 n4 n5 n6 a k (by
        simp only [Val.anyRefers, Bool.or_eq_false_iff] at pl ⊢
        obtain ⟨q0, q1, q2, q3, q4, q5, q6, -⟩ := pl
        exact ⟨q0, q1, q2, q3, q4, q5, q6, trivial⟩) h0' hT hE
    · rw [up (seal_rand_err S v0 v1 _ _ _ pub e stale hw hm n w w1 n0 n1 n2 n3 n4 n5 n6 a h0' hT er hE) (by simp)]
      exact ⟨_, stale, he.1, .inl rfl, hs, rfl⟩
    · obtain ⟨m, h⟩ := seal_rand_panic S v0 v1 _ _ _ pub e stale hw hm n w w1 n0 n1 n2 n3 n4 n5 n6 a h0' hT hE
      rw [up h (by simp)]
      exact ⟨_, rfl, rfl, rfl⟩
    · obtain ⟨t, h, ew⟩ := seal_rand_crash S v0 v1 _ _ _ pub e stale hw hm n w w1 n0 n1 n2 n3 n4 n5 n6 a h0' hT hE
      rw [up h (by simp)]
      exact ⟨_, rfl, ew⟩
    · trivial
  · obtain ⟨ev, hev⟩ : ∃ ev, errVal er = .err ev := by cases er <;> exact ⟨_, rfl⟩
    simp only [hev] at tb
    rw [up (seal_key_err S v0 v1 _ _ _ pub e stale hw hm n w h0' ev tb) (by simp)]
    exact ⟨_, stale, he.1, .inr hev.symm, hs, rfl⟩
  · exact absurd ht (toBox_ok_err pub).1
  · exact absurd ht (toBox_ok_err pub).2.1
  · exact absurd ht (toBox_ok_err pub).2.2
end

/-- `seal(pub *signify.Public, message io.Reader, messageLen int, w io.Writer) error`, crypto.go:53-118, for a message in an
open file and an encoder. -/
theorem seal_in (hS : S.ed = edFns) {s : St ω} {v0 v1 : Val} (G : Globals s v0 v1) {p l b : Loc} {hw hm : Nat} {pub : Public} {e : EncState}
    (hp : 2 ≤ p.blk) (hl : 2 ≤ l.blk) (hb : 2 ≤ b.blk) (d : l.disjoint b = true) (d1 : p.disjoint l = true) (d2 : p.disjoint b = true)
    (Ep : p.get s.mem = some (publicVal pub)) (E : EncAt s l b hw e) (K : EncOk e) {n : Nat} (hn : n < 2 ^ 62)
    (contract : ∀ w got w', S.read hm 16385 w = (.ok got, w') → got.length ≤ 16385)
    (box : ∀ key nonce m, (S.prims.boxSeal key nonce m).length = m.length + 16) {k : Nat} (hk : chunkCount n + 73 ≤ k) :
    Ends s.defers (sealBox S.prims pub (Act.onSnd (S.entropy 32)) (fun k => Act.onSnd (S.read hm k)) n (encWrite (S.write hw)) (e, s.world)) (·.2)
      (fun _ t r => EncOk t.1 ∧ ∃ s', EncMoved s l b hw t.1 t.2 s' ∧ r = .ok [.nil] s')
      (fun er t r => ∃ v s', IsErr er v ∧ EncMoved s l b hw t.1 t.2 s' ∧ r = .ok [v] s')
      ((interp (repo S) k).call id!"crypto" crypt.seal [.ptr p, fileVal hm, .int .int n, .ptr l] s) := by
  obtain ⟨stale, h1, h2, h3, h4⟩ := E
  have c := carry S hk (ρ := [p, l, b]) (us := [publicVal pub, encVal e.line (fileVal hw) ⟨4, []⟩ e.pending.length, bufVal e.pending stale]) G
    (by simp [hp, hl, hb]) (by simp [d, d1, d2])
    (by
      simp only [getAll, h3, h4, Ep, Emb.renVs, bufVal, Emb.renVs_bytes, Emb.renV_plain _ _ (publicVal_plain pub 0)]
      rw [encVal, encVal]
      simp only [Emb.renV, Emb.renFs]
      rw [ren_two 2 b rfl])
    (seal_run S v0 v1 pub hw hm n hS G.plain0 G.plain1 e stale K h1 hn contract box s.world)
  have ea : (beside s [p, l, b]).renVs (sealArgs hm n) = [.ptr p, fileVal hm, .int .int n, .ptr l] := by
    simp only [sealArgs, fileVal, Emb.renVs, Emb.renV]; rw [ren_two 0 p rfl, ren_two 1 l rfl]
  rw [ea] at c
  have fin : ∀ (t : EncState × ω) (rs : List Val) (stale' : Bytes) (r : R ω (List Val)), t.1.pending.length + stale'.length = 3 → t.1.pending.length < 3 →
      Carried s [p, l, b] v0 v1 (.ok rs ⟨sealMem0 v0 v1 pub t.1 stale' hw, 5, [], t.2⟩) r → Val.anyRefers 0 rs = false →
      ∃ s', EncMoved s l b hw t.1 t.2 s' ∧ r = .ok rs s' := by
    intro t rs stale' r k1 k2 k hr
    obtain ⟨m, k3, k4⟩ := k rs [publicVal pub, encVal t.1.line (fileVal hw) ⟨4, []⟩ t.1.pending.length, bufVal t.1.pending stale'] [] _ _ _ rfl rfl
    refine ⟨⟨m, s.base, s.defers, t.2⟩, ⟨stale', m, k1, k2, ?_, rfl⟩, ?_⟩
    · rw [← k3]
      simp only [Emb.renVs, bufVal, Emb.renVs_bytes, List.zip_cons_cons, List.zip_nil_right, Emb.renV_plain _ _ (publicVal_plain pub 0)]
      rw [writeAll.eq_2 s.mem p (publicVal pub), Loc.set_get Ep]
      rw [encVal, encVal]
      simp only [Emb.renV, Emb.renFs]
      rw [ren_two 2 b rfl]
    · rw [k4, Emb.renVs_plain _ _ hr]
      simp [Emb.renVs]
  refine c.mono (fun a t hr => ?_) (fun a t hr => ?_)
  · obtain ⟨r0, ⟨k0, stale', k1, rfl⟩, k⟩ := hr
    exact ⟨k0, fin t _ stale' _ k1 k0.1 k rfl⟩
  · obtain ⟨r0, ⟨v, stale', k2, hv, k1, rfl⟩, k⟩ := hr
    obtain ⟨s', h⟩ := fin t _ stale' _ k1 k2 k (by
      rcases hv with rfl | rfl
      · rfl
      · cases a <;> rfl)
    exact ⟨v, s', hv, h⟩

end Verif.Src
