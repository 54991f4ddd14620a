/-
The loop of `open` of crypto/crypto.go, in the text, writes what the loop of the model writes.
-/
import Verif.Source.OpenText

namespace Verif.Src

variable {ω : Type} (S : Sys ω) (v0 v1 : Val)

/-- What stays during the loop. -/
structure OpenFixed where
  priv : Private
  hm : Nat
  hw : Nat
  j : Nat
  pre : List Val
  sc : Arr 32
  z : Val
  hv : List Val
  c : Nat
  ep : Arr 32
  shared : Arr 32

/-- Memory at the start of an iteration. -/
def OpenFixed.mem (x : OpenFixed) (cv : List Val) (nonce : Arr 24) (i : Int) : List Val :=
  openMem4 v0 v1 x.priv x.hm x.hw x.j x.pre x.sc x.z x.hv x.c x.ep x.shared cv nonce ++ [.int .uint64 i]

/-- Memory when a chunk is open. -/
def OpenFixed.mid (x : OpenFixed) (cv : List Val) (nonce : Arr 24) (i : Int) (k : Nat) (out : Bytes) : List Val :=
  x.mem v0 v1 cv nonce i ++ [.int .int k, .nil, .arr (byteVals out), .slice ⟨x.j + 22, []⟩ 0 out.length (byteVals out).length, .bool true]

/-- An iteration, with what is known about some calls. -/
noncomputable abbrev openTurn (C : Id → Func → List Val → M ω (List Val)) (j : Nat) : M ω Ctl :=
  turn (interpC (repo S) C 19) (openCtx j) openFor.2.1 openFor.2.2.1 openFor.2.2.2

/-- The first `k` bytes of a chunk, as they are read from memory. -/
def rawC (k : Nat) (cv : List Val) : Bytes := List.map valByte (List.take (((k : Int)).toNat - 0) (List.drop 0 cv))

/-- What is written, as it is read from memory. -/
abbrev rawO (out : Bytes) : Bytes := List.map valByte (List.take out.length (List.drop 0 (byteVals out)))

theorem rawO_eq (out : Bytes) : rawO out = out := by
  rw [rawO, List.drop_zero, byteVals_take, map_valByte_byteVals, List.take_length]

section
variable (C : Id → Func → List Val → M ω (List Val)) (x : OpenFixed) (hj : x.j = 2 ∨ x.j = 7) {cv cv' : List Val} {nonce nonce' : Arr 24} {i : Nat}
  {w w1 w2 : ω}
include hj

theorem open_over (hi : ¬(i : Int) < x.c) :
    openTurn S C x.j ⟨x.mem v0 v1 cv nonce i, 4, [], w⟩ = .ok .brk ⟨x.mem v0 v1 cv nonce i, 4, [], w⟩ := by
  obtain ⟨priv, hm, hw, j, pre, sc, z, hv, c, ep, shared⟩ := x
  rcases hj with rfl | rfl
  · seval [hi]
  · seval [hi]

/-- The arguments of `Read`. -/
abbrev readArgs (j : Nat) : List Val := [.ptr ⟨3, []⟩, .slice ⟨j + 16, []⟩ 0 16401 16401]

variable (hi : (i : Int) < x.c)
include hi

theorem open_read_err (er : EVal) (hR : C id!"base64" coding.Decoder.Read (readArgs x.j) ⟨x.mem v0 v1 cv nonce i, 4, [], w⟩ =
      .ok [.int .int 0, .err er] ⟨x.mem v0 v1 cv nonce i, 4, [], w1⟩) :
    ∃ new, openTurn S C x.j ⟨x.mem v0 v1 cv nonce i, 4, [], w⟩ = .ok (.ret [.err er]) ⟨x.mem v0 v1 cv nonce i ++ new, 4, [], w1⟩ := by
  obtain ⟨priv, hm, hw, j, pre, sc, z, hv, c, ep, shared⟩ := x
  rcases hj with rfl | rfl
  · exact ⟨[_, _], by seval [hi, hR]⟩
  · exact ⟨[_, _], by seval [hi, hR]⟩

theorem open_read_panic (t : St ω) (hR : C id!"base64" coding.Decoder.Read (readArgs x.j) ⟨x.mem v0 v1 cv nonce i, 4, [], w⟩ = .panic t) :
    openTurn S C x.j ⟨x.mem v0 v1 cv nonce i, 4, [], w⟩ = .panic t := by
  obtain ⟨priv, hm, hw, j, pre, sc, z, hv, c, ep, shared⟩ := x
  rcases hj with rfl | rfl
  · seval [hi, hR]
  · seval [hi, hR]

theorem open_read_crash (t : St ω) (hR : C id!"base64" coding.Decoder.Read (readArgs x.j) ⟨x.mem v0 v1 cv nonce i, 4, [], w⟩ = .crash t) :
    openTurn S C x.j ⟨x.mem v0 v1 cv nonce i, 4, [], w⟩ = .crash t := by
  obtain ⟨priv, hm, hw, j, pre, sc, z, hv, c, ep, shared⟩ := x
  rcases hj with rfl | rfl
  · seval [hi, hR]
  · seval [hi, hR]

variable (k : Nat) (hk : (k : Int) ≤ 16401)
  (hR : C id!"base64" coding.Decoder.Read (readArgs x.j) ⟨x.mem v0 v1 cv nonce i, 4, [], w⟩ =
      .ok [.int .int k, .nil] ⟨x.mem v0 v1 cv' nonce i, 4, [], w1⟩)
include hk hR

theorem open_bad (hb : S.prims.boxOpen (remadeK x.shared) (remadeK nonce) (rawC k cv') = none) :
    ∃ new, openTurn S C x.j ⟨x.mem v0 v1 cv nonce i, 4, [], w⟩ =
      .ok (.ret [.err (.text b!"signify/crypto: failed to decrypt chunk=%d" (some i))]) ⟨x.mem v0 v1 cv' nonce i ++ new, 4, [], w1⟩ := by
  obtain ⟨priv, hm, hw, j, pre, sc, z, hv, c, ep, shared⟩ := x
  rcases hj with rfl | rfl
  · exact ⟨[_, _, _, _], by seval [hi, hk, hR, hb]⟩
  · exact ⟨[_, _, _, _], by seval [hi, hk, hR, hb]⟩

variable (out : Bytes) (hb : S.prims.boxOpen (remadeK x.shared) (remadeK nonce) (rawC k cv') = some out)
include hb

theorem open_write_err (er : GoErr) (hw : S.write x.hw (rawO out) w1 = (.err er, w2)) :
    ∃ new, openTurn S C x.j ⟨x.mem v0 v1 cv nonce i, 4, [], w⟩ = .ok (.ret [libErr er]) ⟨x.mem v0 v1 cv' nonce i ++ new, 4, [], w2⟩ := by
  obtain ⟨priv, hm, hw', j, pre, sc, z, hv, c, ep, shared⟩ := x
  rcases hj with rfl | rfl
  · exact ⟨[_, _, _, _, _], by seval [hi, hk, hR, hb, hw]⟩
  · exact ⟨[_, _, _, _, _], by seval [hi, hk, hR, hb, hw]⟩

theorem open_write_panic (hw : S.write x.hw (rawO out) w1 = (.panic, w2)) :
    ∃ m, openTurn S C x.j ⟨x.mem v0 v1 cv nonce i, 4, [], w⟩ = .panic ⟨m, 4, [], w2⟩ := by
  obtain ⟨priv, hm, hw', j, pre, sc, z, hv, c, ep, shared⟩ := x
  rcases hj with rfl | rfl
  · exact ⟨_, by seval [hi, hk, hR, hb, hw]⟩
  · exact ⟨_, by seval [hi, hk, hR, hb, hw]⟩

theorem open_write_crash (hw : S.write x.hw (rawO out) w1 = (.crash, w2)) :
    ∃ m, openTurn S C x.j ⟨x.mem v0 v1 cv nonce i, 4, [], w⟩ = .crash ⟨m, 4, [], w2⟩ := by
  obtain ⟨priv, hm, hw', j, pre, sc, z, hv, c, ep, shared⟩ := x
  rcases hj with rfl | rfl
  · exact ⟨_, by seval [hi, hk, hR, hb, hw]⟩
  · exact ⟨_, by seval [hi, hk, hR, hb, hw]⟩

variable (u : Nat) (hw : S.write x.hw (rawO out) w1 = (.ok u, w2))
include hw

theorem open_nonce_err (er : EVal) (hN : C id!"crypto" crypt.incrementNonce [.ptr ⟨x.j + 18, []⟩] ⟨x.mid v0 v1 cv' nonce i k out, 4, [], w2⟩ =
      .ok [.err er] ⟨x.mid v0 v1 cv' nonce' i k out, 4, [], w2⟩) :
    ∃ new, openTurn S C x.j ⟨x.mem v0 v1 cv nonce i, 4, [], w⟩ = .ok (.ret [.err er]) ⟨x.mem v0 v1 cv' nonce' i ++ new, 4, [], w2⟩ := by
  obtain ⟨priv, hm, hw', j, pre, sc, z, hv, c, ep, shared⟩ := x
  rcases hj with rfl | rfl
  · exact ⟨[_, _, _, _, _], by seval [hi, hk, hR, hb, hw, hN]⟩
  · exact ⟨[_, _, _, _, _], by seval [hi, hk, hR, hb, hw, hN]⟩

theorem open_step (hc : x.c < 2 ^ 64) (hN : C id!"crypto" crypt.incrementNonce [.ptr ⟨x.j + 18, []⟩] ⟨x.mid v0 v1 cv' nonce i k out, 4, [], w2⟩ =
      .ok [.nil] ⟨x.mid v0 v1 cv' nonce' i k out, 4, [], w2⟩) :
    ∃ new, openTurn S C x.j ⟨x.mem v0 v1 cv nonce i, 4, [], w⟩ = .ok .next ⟨x.mem v0 v1 cv' nonce' (i + 1 : Nat) ++ new, 4, [], w2⟩ := by
  have h8 : ((i + 1 : Nat) : Int) = ITy.uint64.wrap ((i : Int) + 1) := by
    rw [show ITy.uint64.wrap ((i : Int) + 1) = ((i : Int) + 1) % 2 ^ 64 from rfl]
    omega
  rw [h8]
  obtain ⟨priv, hm, hw', j, pre, sc, z, hv, c, ep, shared⟩ := x
  rcases hj with rfl | rfl
  · exact ⟨[_, _, _, _, _], by seval [hi, hk, hR, hb, hw, hN]⟩
  · exact ⟨[_, _, _, _, _], by seval [hi, hk, hR, hb, hw, hN]⟩

end

/-! ### All iterations -/

theorem decRead_short {σ : Type} {f n : Nat} {rd : Reader σ} {s t : σ} {out : Bytes} (h : decRead f rd n s = (.ok out, t)) : out.length ≤ n := by
  rw [decRead, Act.bind_eq] at h
  rcases hb : decReadLoop rd (B64.encodedLen n) f 0 [] s with ⟨b | e | _ | _ | _, t'⟩ <;> rw [hb] at h
  · simp only at h
    rcases hd : B64.decode n b with o | _ | _ <;> rw [hd] at h
    · cases h
      exact decode_le hd
    · cases h
    · cases h
  all_goals cases h

/-- The errors of `open` itself. -/
def openErrVal : GoErr → Val
  | .shortHeader n => .err (.text b!"signify/crypto: couldn't read the full header (read %d)" (some n))
  | .headerAuth => .err (.text b!"signify/crypto: failed to authenticate the message header" none)
  | .chunkDecrypt i => .err (.text b!"signify/crypto: failed to decrypt chunk=%d" (some i))
  | e => libErr e

/-- An error value that stands for an error of the model. -/
def Heard (e : GoErr) (v : Val) : Prop := Tells e v ∨ v = openErrVal e

theorem Heard.err {e : GoErr} {v : Val} (h : Heard e v) : ∃ x, v = .err x := by
  rcases h with h | rfl
  · exact h.err
  · cases e <;> exact ⟨_, rfl⟩

theorem Heard.ren {e : GoErr} {v : Val} (h : Heard e v) (E : Emb) : E.renV v = v := by
  obtain ⟨x, rfl⟩ := h.err
  rfl

/-- The fixed blocks refer to nothing outside memory. -/
structure OpenFixed.Plain (x : OpenFixed) : Prop where
  j : x.j = 2 ∨ x.j = 7
  pre : Val.anyRefers (x.j + 20) (spread x.j x.pre) = false
  z : x.z.refers (x.j + 20) = false
  hv : Val.anyRefers (x.j + 20) x.hv = false

theorem OpenFixed.length (x : OpenFixed) (cv : List Val) (nonce : Arr 24) (i : Int) : (x.mem v0 v1 cv nonce i).length = x.j + 20 := by
  simp [OpenFixed.mem, openMem4, openMem3, openMem2, openMem1, openMem0, spread]

theorem OpenFixed.plain {v0 v1 : Val} {x : OpenFixed} (hx : x.Plain) (p0 : v0.refers 2 = false) (p1 : v1.refers 2 = false) (cb : Bytes)
    (nonce : Arr 24) (i : Int) : Val.anyRefers (x.j + 20) (x.mem v0 v1 (byteVals cb) nonce i) = false := by
  have a0 := Val.refers_mono (k' := x.j + 20) (by omega) v0 p0
  have a1 := Val.refers_mono (k' := x.j + 20) (by omega) v1 p1
  have a2 := Val.refers_mono (k' := x.j + 20) (by omega) _ (Emb.encArr_plain nonce)
  have a3 := Val.refers_mono (k' := x.j + 20) (by omega) _ (Emb.encArr_plain x.shared)
  have a4 := Val.refers_mono (k' := x.j + 20) (by omega) _ (Emb.encArr_plain x.ep)
  have a5 := Val.refers_mono (k' := x.j + 20) (by omega) _ (Emb.encArr_plain x.sc)
  have a6 := hx.pre
  have a7 := hx.z
  have a8 := hx.hv
  unfold OpenFixed.mem openMem4 openMem3 openMem2 openMem1 openMem0
  refine anyRefers_append (anyRefers_append (anyRefers_append (anyRefers_append (anyRefers_append (anyRefers_append ?_ a6) ?_) ?_) ?_) ?_) ?_
  all_goals simp [Val.anyRefers, Val.refers, Val.fieldRefers, byteVals_plain, privateVal_plain, a0, a1, a2, a3, a4, a5, a7, a8]

section
variable (x : OpenFixed) (hj : x.j = 2 ∨ x.j = 7) (cv cv' : List Val) (nonce nonce' : Arr 24) (i : Int) (k : Nat) (out : Bytes)
include hj

theorem OpenFixed.chunk_get : (⟨x.j + 16, []⟩ : Loc).get (x.mem v0 v1 cv nonce i) = some (.arr cv) := by
  obtain ⟨priv, hm, hw', j, pre, sc, z, hv, c, ep, shared⟩ := x
  rcases hj with rfl | rfl <;> rfl

theorem OpenFixed.chunk_set : (⟨x.j + 16, []⟩ : Loc).set (x.mem v0 v1 cv nonce i) (.arr cv') = some (x.mem v0 v1 cv' nonce i) := by
  obtain ⟨priv, hm, hw', j, pre, sc, z, hv, c, ep, shared⟩ := x
  rcases hj with rfl | rfl <;> rfl

theorem OpenFixed.nonce_get : (⟨x.j + 18, []⟩ : Loc).get (x.mid v0 v1 cv nonce i k out) = some (encArr nonce) := by
  obtain ⟨priv, hm, hw', j, pre, sc, z, hv, c, ep, shared⟩ := x
  rcases hj with rfl | rfl <;> rfl

theorem OpenFixed.nonce_set : (⟨x.j + 18, []⟩ : Loc).set (x.mid v0 v1 cv nonce i k out) (encArr nonce') = some (x.mid v0 v1 cv nonce' i k out) := by
  obtain ⟨priv, hm, hw', j, pre, sc, z, hv, c, ep, shared⟩ := x
  rcases hj with rfl | rfl <;> rfl

theorem OpenFixed.apart : (⟨3, []⟩ : Loc).disjoint ⟨x.j + 16, []⟩ = true := by
  rcases hj with e | e <;> rw [e] <;> rfl
end

theorem rawC_eq (cb got : Bytes) : rawC got.length (byteVals (cb.take 0 ++ got ++ cb.drop (0 + got.length))) = got := by
  rw [rawC, List.drop_zero, Nat.sub_zero, Int.toNat_natCast, byteVals_take, map_valByte_byteVals, List.take_zero, List.nil_append, List.take_left]

/-- The loop is left like this. -/
def OpenEnd (x : OpenFixed) (c : Ctl) (t : Private × ω) (r : R ω Ctl) : Prop :=
  t.1 = x.priv ∧ ∃ (cb : Bytes) (nonce : Arr 24) (i : Int) (g : List Val), r = .ok c ⟨x.mem v0 v1 (byteVals cb) nonce i ++ g, 4, [], t.2⟩

/-- The calls in `open`. -/
noncomputable abbrev openC (q : Nat) := (interp (repo S) q).call

theorem open_loop (p0 : v0.refers 2 = false) (p1 : v1.refers 2 = false) (x : OpenFixed) (hx : x.Plain) (hc : x.c < 2 ^ 64) (f : Nat)
    (contract : ∀ w got w', S.read x.hm 1 w = (.ok got, w') → got.length ≤ 1) (k : Nat) :
    ∀ (i : Nat) (nonce : Arr 24) (cb : Bytes) (g : List Val) (w : ω), i + k = x.c →
    Agrees (openLoop S.prims x.shared (fun n => Act.onSnd (decRead f (S.read x.hm) n)) (fun bs => Act.onSnd (S.write x.hw bs)) k i nonce (x.priv, w)) (·.2)
      (fun _ t r => OpenEnd v0 v1 x .next t r)
      (fun er t r => ∃ v, Heard er v ∧ OpenEnd v0 v1 x (.ret [v]) t r)
      ((interp (repo S) (k + (f + 60 + 20))).iter (openCtx x.j) openFor.2.1 openFor.2.2.1 openFor.2.2.2 ⟨x.mem v0 v1 (byteVals cb) nonce i ++ g, 4, [], w⟩) := by
  have up : ∀ k, Le (openTurn S (openC S (f + 60)) x.j) (turn (interp (repo S) (k + (f + 60 + 19))) (openCtx x.j) openFor.2.1 openFor.2.2.1 openFor.2.2.2) := fun k =>
    turn_mono ((interpC_le (repo S) (f + 60) 19).trans (interp_mono (.refl _) (by omega))) _ _ _ _
  have grow : ∀ (n i : Nat) (nonce : Arr 24) (cb : Bytes) (g : List Val) (w : ω),
      Grown (turn (interp (repo S) n) (openCtx x.j) openFor.2.1 openFor.2.2.1 openFor.2.2.2) (⟨x.mem v0 v1 (byteVals cb) nonce i ++ g, firstBlocks (x.j + 20)⟩ : Emb).renCtl
        (x.mem v0 v1 (byteVals cb) nonce i) g 4 w
        (turn (interp (repo S) n) (openCtx x.j) openFor.2.1 openFor.2.2.1 openFor.2.2.2 ⟨x.mem v0 v1 (byteVals cb) nonce i, 4, [], w⟩) := by
    intro n i nonce cb g w
    have l := x.length v0 v1 (byteVals cb) nonce i
    have := turn_grow S (n := n) (c := openCtx x.j) (e := openFor.2.1) (p := openFor.2.2.1) (b := openFor.2.2.2) (g := g) (base := 4) (w := w)
      (F := x.mem v0 v1 (byteVals cb) nonce i) (by omega) (by omega) (by rw [l]; exact OpenFixed.plain hx p0 p1 _ _ _)
      (by rw [l]; rcases hx.j with e | e <;> rw [e] <;> rfl)
    rwa [l] at this
  induction k with
  | zero =>
    intro i nonce cb g w hk
    have gr := grow (0 + (f + 60 + 19)) i nonce cb g w
    rw [(up 0).eq (open_over S v0 v1 _ x hx.j (by omega)) (by simp)] at gr
    obtain ⟨g', eg⟩ := gr _ [] (List.append_nil _).symm rfl (by rw [x.length]; exact OpenFixed.plain hx p0 p1 _ _ _) rfl
    rw [show 0 + (f + 60 + 20) = (0 + (f + 60 + 19)) + 1 by omega, iter_turn, eg]
    exact ⟨rfl, cb, nonce, i, g', rfl⟩
  | succ k ih =>
    intro i nonce cb g w hk
    have gr := grow (k + 1 + (f + 60 + 19)) i nonce cb g w
    have up := up (k + 1)
    have hi : (i : Int) < x.c := by omega
    rw [show k + 1 + (f + 60 + 20) = (k + 1 + (f + 60 + 19)) + 1 by omega, iter_turn, openLoop, Act.bind_eq, Act.onSnd_apply]
    have rd := read_in S (s := ⟨x.mem v0 v1 (byteVals cb) nonce i, 4, [], w⟩) (v0 := v0) (v1 := v1) ⟨rfl, rfl, p0, p1⟩ (l := ⟨3, []⟩) (a := ⟨x.j + 16, []⟩)
      (h := x.hm) (by simp) (by simp) (x.apart hx.j) rfl (ps := cb) (x.chunk_get v0 v1 hx.j _ _ _) (off := 0) (len := 16401) (cap := 16401) (by omega) contract
      (f := f) (n := f + 60) (by omega)
    have low : ∀ cb' nonce' i', Val.anyRefers (x.mem v0 v1 (byteVals cb) nonce i).length (x.mem v0 v1 (byteVals cb') nonce' i') = false := fun cb' nonce' i' => by
      rw [x.length]
      exact OpenFixed.plain hx p0 p1 _ _ _
    rcases hr : decRead f (S.read x.hm) sealedChunkSize w with ⟨got | er | _ | _ | _, w1⟩ <;> rw [show decRead f (S.read x.hm) 16401 w = _ from hr] at rd
    · have hg : (got.length : Int) ≤ 16401 := by
        have := decRead_short hr
        have : sealedChunkSize = 16401 := rfl
        omega
      obtain ⟨m, km, hR⟩ := rd
      rw [show (⟨x.j + 16, []⟩ : Loc).set (x.mem v0 v1 (byteVals cb) nonce i) _ = some _ from x.chunk_set v0 v1 hx.j _ _ _ _] at km
      cases km
      obtain ⟨cb', ecb⟩ : ∃ cb', cb.take 0 ++ got ++ cb.drop (0 + got.length) = cb' := ⟨_, rfl⟩
      have erc := rawC_eq cb got
      rw [ecb] at hR erc
      simp only
      rcases hb : S.prims.boxOpen x.shared nonce got with _ | out
      · have hb' : S.prims.boxOpen (remadeK x.shared) (remadeK nonce) (rawC got.length (byteVals cb')) = none := by
          rw [remadeK_eq, remadeK_eq, erc, hb]
        obtain ⟨new, st⟩ := open_bad S v0 v1 _ x hx.j hi got.length hg hR hb'
        rw [up.eq st (by simp)] at gr
        obtain ⟨g', eg⟩ := gr _ new rfl (x.length _ _ _ _ _ |>.trans (x.length _ _ _ _ _).symm) (low _ _ _) rfl
        rw [eg]
        exact ⟨_, .inr rfl, rfl, cb', nonce, i, g', rfl⟩
      · have hb' : S.prims.boxOpen (remadeK x.shared) (remadeK nonce) (rawC got.length (byteVals cb')) = some out := by
          rw [remadeK_eq, remadeK_eq, erc, hb]
        simp only
        rw [Act.bind_eq, Act.onSnd_apply]
        rcases hw : S.write x.hw out w1 with ⟨u | er | _ | _ | _, w2⟩ <;> rw [← rawO_eq out] at hw
        · have nc := nonce_in S (s := ⟨x.mid v0 v1 (byteVals cb') nonce i got.length out, 4, [], w2⟩) (v0 := v0) (v1 := v1) ⟨rfl, rfl, p0, p1⟩
            (l := ⟨x.j + 18, []⟩) (by simp) (nonce := nonce) (x.nonce_get v0 v1 hx.j _ _ _ _ _) (n := f + 60) (by omega)
          simp only
          rw [Act.bind_eq]
          rcases hn : incrementNonce nonce with a | er | _ | _ | _ <;> rw [hn] at nc
          · obtain ⟨m, km, hN⟩ := nc
            rw [show (⟨x.j + 18, []⟩ : Loc).set (x.mid v0 v1 (byteVals cb') nonce i got.length out) _ = some _ from x.nonce_set v0 v1 hx.j _ _ _ _ _ _] at km
            cases km
            obtain ⟨new, st⟩ := open_step S v0 v1 _ x hx.j hi got.length hg hR out hb' u hw hc hN
            rw [up.eq st (by simp)] at gr
            obtain ⟨g', eg⟩ := gr _ new rfl (x.length _ _ _ _ _ |>.trans (x.length _ _ _ _ _).symm) (low _ _ _) rfl
            rw [eg]
            have := ih (i + 1) a cb' g' w2 (by omega)
            rw [show k + (f + 60 + 20) = k + 1 + (f + 60 + 19) by omega] at this
            exact this
          · obtain ⟨bs, m, km, hN⟩ := nc
            rw [show (⟨x.j + 18, []⟩ : Loc).set (x.mid v0 v1 (byteVals cb') nonce i got.length out) _ = some _ from x.nonce_set v0 v1 hx.j _ _ _ _ _ _] at km
            cases km
            obtain ⟨ev, hev⟩ : ∃ ev, errVal er = .err ev := by cases er <;> exact ⟨_, rfl⟩
            rw [hev] at hN
            obtain ⟨new, st⟩ := open_nonce_err S v0 v1 _ x hx.j hi got.length hg hR out hb' u hw ev hN
            rw [up.eq st (by simp)] at gr
            obtain ⟨g', eg⟩ := gr _ new rfl (x.length _ _ _ _ _ |>.trans (x.length _ _ _ _ _).symm) (low _ _ _) rfl
            rw [eg]
            exact ⟨_, .inl (.inr (.inr hev.symm)), rfl, cb', bs, i, g', rfl⟩
          · exact nc.elim
          · exact nc.elim
          · exact nc.elim
        · obtain ⟨new, st⟩ := open_write_err S v0 v1 _ x hx.j hi got.length hg hR out hb' er hw
          rw [up.eq st (by simp)] at gr
          obtain ⟨g', eg⟩ := gr _ new rfl (x.length _ _ _ _ _ |>.trans (x.length _ _ _ _ _).symm) (low _ _ _) rfl
          rw [eg]
          exact ⟨_, .inl (.inr (.inl rfl)), rfl, cb', nonce, i, g', rfl⟩
        · obtain ⟨m, st⟩ := open_write_panic S v0 v1 _ x hx.j hi got.length hg hR out hb' hw
          rw [up.eq st (by simp)] at gr
          obtain ⟨t', e2, ew', ed'⟩ := gr
          rw [e2]
          exact ⟨t', rfl, ew', ed' rfl⟩
        · obtain ⟨m, st⟩ := open_write_crash S v0 v1 _ x hx.j hi got.length hg hR out hb' hw
          rw [up.eq st (by simp)] at gr
          obtain ⟨t', e2, ew'⟩ := gr
          rw [e2]
          exact ⟨t', rfl, ew'⟩
        · trivial
    · obtain ⟨new, st⟩ := open_read_err S v0 v1 _ x hx.j hi _ rd
      rw [up.eq st (by simp)] at gr
      obtain ⟨g', eg⟩ := gr _ new rfl (x.length _ _ _ _ _ |>.trans (x.length _ _ _ _ _).symm) (low _ _ _) rfl
      rw [eg]
      exact ⟨_, .inl (.inr (.inl rfl)), rfl, cb, nonce, i, g', rfl⟩
    · obtain ⟨t, hR, ew, ed⟩ := rd
      rw [up.eq (open_read_panic S v0 v1 _ x hx.j hi t hR) (by simp)] at gr
      obtain ⟨t', e2, ew', ed'⟩ := gr
      rw [e2]
      exact ⟨t', rfl, ew'.trans ew, ed' ed⟩
    · obtain ⟨t, hR, ew⟩ := rd
      rw [up.eq (open_read_crash S v0 v1 _ x hx.j hi t hR) (by simp)] at gr
      obtain ⟨t', e2, ew'⟩ := gr
      rw [e2]
      exact ⟨t', rfl, ew'.trans ew⟩
    · trivial

end Verif.Src
