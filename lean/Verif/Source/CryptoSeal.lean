/-
The loop of `seal` of crypto/crypto.go, in the text, writes what the loop of the model writes.
-/
import Verif.Source.KeyBox
import Verif.Source.Turns
namespace Verif.Src
variable {ω : Type} (S : Sys ω) (v0 v1 : Val)

@[seval_simps] theorem map_byteVal (bs : Bytes) : List.map (fun b : UInt8 => Val.int .uint8 (b.toNat : Int)) bs = byteVals bs := rfl

/-- The calls that are looked at on their own. -/
def sealK (FT FW FN : List Val → M ω (List Val)) : Known ω where
  func p x := if p = id!"crypto" ∧ x = id!"incrementNonce" then some FN else none
  method t m := if t = id!"Public" ∧ m = id!"ToBox" then some FT else if t = id!"Encoder" ∧ m = id!"Write" then some FW else none

def sealEnv : Env := [(id!"w", .var ⟨8, []⟩), (id!"messageLen", .var ⟨7, []⟩), (id!"message", .var ⟨6, []⟩), (id!"pub", .var ⟨5, []⟩)]
def sealEnv1 : Env := [(id!"epriv", .var ⟨23, []⟩), (id!"epub", .var ⟨22, []⟩), (id!"err", .var ⟨19, []⟩), (id!"edpub", .var ⟨18, []⟩), (id!"shared", .var ⟨9, []⟩)] ++ sealEnv
def sealEnv2 : Env := [(id!"headerAuth", .var ⟨27,[]⟩), (id!"header", .var ⟨25,[]⟩), (id!"chunks", .var ⟨24,[]⟩)] ++ sealEnv1
def sealEnv3 : Env := [(id!"nonce", .var ⟨30,[]⟩), (id!"chunk", .var ⟨29,[]⟩)] ++ sealEnv2
/-- The names in the scope of the loop of `seal`. -/
def sealCtx : Ctx := ⟨id!"crypto", [(id!"i", .var ⟨31, []⟩), (0, .val .nil)] ++ sealEnv3⟩
/-- The loop of `seal`, crypto.go:99-115. -/
noncomputable def sealFor := Stmt.loopParts (crypt.seal.body[18]?)

/-- What stays during the loop. -/
structure SealFixed where
  (b2 b5 b7 b10 b11 b12 b13 b14 b15 b16 b17 b18 b19 b20 b21 b22 b23 b25 b26 b27 : Val)
  shared : Arr 32
  hm : Nat
  hw : Nat
  chunks : Nat

/-- Memory at the start of an iteration, as far as it matters. -/
def SealFixed.mem (x : SealFixed) (e : EncState) (stale : Bytes) (chunk : List Val) (nonce : Arr 24) (i : Int) : List Val :=
  [v0, v1, x.b2, encVal e.line (fileVal x.hw) ⟨4, []⟩ e.pending.length, bufVal e.pending stale, x.b5, fileVal x.hm, x.b7, .ptr ⟨3, []⟩, encArr x.shared,
    x.b10, x.b11, x.b12, x.b13, x.b14, x.b15, x.b16, x.b17, x.b18, x.b19, x.b20, x.b21, x.b22, x.b23, .int .int x.chunks, x.b25, x.b26, x.b27,
    .arr chunk, .slice ⟨28, []⟩ 0 16385 16385, encArr nonce, .int .int i]

/-- Memory during an iteration. -/
def SealFixed.mid (x : SealFixed) (e : EncState) (stale : Bytes) (chunk : List Val) (nonce : Arr 24) (i : Int) (n : Nat) (out : Bytes) : List Val :=
  x.mem v0 v1 e stale chunk nonce i ++ [.int .int n, .nil, .arr (byteVals out), .slice ⟨34, []⟩ 0 out.length (byteVals out).length]

section
variable (x : SealFixed) (FT FW FN : List Val → M ω (List Val)) (nonce nonce' : Arr 24) (i : Nat) (cb : Bytes) (e e' : EncState) (stale stale' : Bytes) (w w1 w2 : ω)

/-- An iteration, with what is known about some calls. -/
noncomputable abbrev sealTurn : M ω Ctl := turn (interpK (repo S) (sealK FT FW FN) 20) sealCtx sealFor.2.1 sealFor.2.2.1 sealFor.2.2.2

theorem seal_over (hi : ¬ (i : Int) < x.chunks) :
    sealTurn S FT FW FN ⟨x.mem v0 v1 e stale (byteVals cb) nonce i, 5, [], w⟩ = .ok .brk ⟨x.mem v0 v1 e stale (byteVals cb) nonce i, 5, [], w⟩ := by
  seval [hi]

theorem seal_read (hi : (i : Int) < x.chunks) (er : GoErr) (hr : S.read x.hm 16385 w = (.err er, w1)) :
    ∃ new, sealTurn S FT FW FN ⟨x.mem v0 v1 e stale (byteVals cb) nonce i, 5, [], w⟩ =
      .ok (.ret [libErr er]) ⟨x.mem v0 v1 e stale (byteVals cb) nonce i ++ new, 5, [], w1⟩ :=
  ⟨[_, _], by seval [hi, hr]⟩

theorem seal_read_panic (hi : (i : Int) < x.chunks) (hr : S.read x.hm 16385 w = (.panic, w1)) :
    ∃ m, sealTurn S FT FW FN ⟨x.mem v0 v1 e stale (byteVals cb) nonce i, 5, [], w⟩ = .panic ⟨m, 5, [], w1⟩ :=
  ⟨_, by seval [hi, hr]⟩

theorem seal_read_crash (hi : (i : Int) < x.chunks) (hr : S.read x.hm 16385 w = (.crash, w1)) :
    ∃ m, sealTurn S FT FW FN ⟨x.mem v0 v1 e stale (byteVals cb) nonce i, 5, [], w⟩ = .crash ⟨m, 5, [], w1⟩ :=
  ⟨_, by seval [hi, hr]⟩

/-- The bytes read, and those left over from before. -/
def refill (cb got : Bytes) : Bytes := got ++ cb.drop got.length

variable (got : Bytes)

theorem refill_eq (hg : got.length ≤ 16385) : splice (byteVals cb) 0 (List.take 16385 (byteVals got)) = byteVals (refill cb got) := by
  rw [splice, byteVals_take 16385, List.take_of_length_le hg, byteVals_length, byteVals_take, byteVals_drop, List.take_zero, Nat.zero_add, ← byteVals_append,
    ← byteVals_append]
  rfl

theorem refill_first (hg : got.length ≤ 16385) :
    List.map valByte (List.take (((got.length : Int)).toNat - 0) (List.drop 0 (splice (byteVals cb) 0 (List.take 16385 (byteVals got))))) = got := by
  rw [refill_eq cb got hg, List.drop_zero, Nat.sub_zero, Int.toNat_natCast, byteVals_take, map_valByte_byteVals, refill, List.take_left]

/-- The state when a chunk is written. -/
abbrev SealFixed.at (m : Bytes) (cv : List Val) (e : EncState) (stale : Bytes) (nonce nonce' : Arr 24) (w : ω) : St ω :=
  ⟨x.mid v0 v1 e stale cv nonce' i got.length (S.prims.boxSeal x.shared nonce m), 5, [], w⟩

/-- The arguments of `Write`. -/
abbrev SealFixed.args (m : Bytes) (nonce : Arr 24) : List Val :=
  [.ptr ⟨3, []⟩, .slice ⟨34, []⟩ 0 (S.prims.boxSeal x.shared nonce m).length (byteVals (S.prims.boxSeal x.shared nonce m)).length]

variable (m : Bytes) (cv : List Val) (em : m = List.map valByte (List.take (((got.length : Int)).toNat - 0) (List.drop 0 cv)))
  (ec : cv = splice (byteVals cb) 0 (List.take 16385 (byteVals got))) (hi : (i : Int) < x.chunks)
  (hr : S.read x.hm 16385 w = (.ok got, w1)) (hg : got.length ≤ 16385)

include em ec hi hr hg

theorem seal_step (k : Int) (hc : x.chunks < 2 ^ 62) 
    (hW : FW (x.args S m nonce) (x.at S v0 v1 i got m cv e stale nonce nonce w1) = .ok [.int .int k, .nil] (x.at S v0 v1 i got m cv e' stale' nonce nonce w2))
    (hN : FN [.ptr ⟨30, []⟩] (x.at S v0 v1 i got m cv e' stale' nonce nonce w2) = .ok [.nil] (x.at S v0 v1 i got m cv e' stale' nonce nonce' w2)) :
    ∃ new, sealTurn S FT FW FN ⟨x.mem v0 v1 e stale (byteVals cb) nonce i, 5, [], w⟩ =
      .ok .next ⟨x.mem v0 v1 e' stale' cv nonce' (i + 1 : Nat) ++ new, 5, [], w2⟩ := by
  have hg' : (got.length : Int) ≤ 16385 := by omega
  have h7 : ((i : Int) + 1).natAbs < 9223372036854775808 := by omega
  have h8 : ((i + 1 : Nat) : Int) = ITy.int.wrap ((i : Int) + 1) := (show ITy.int.wrap ((i : Int) + 1) = (i : Int) + 1 from if_pos h7).symm
  subst em
  subst ec
  rw [h8]
  exact ⟨[_, _, _, _], by seval [hi, hr, hg', hW, hN, h7]⟩

theorem seal_write_err (er : GoErr) (k : Int)
    (hW : FW (x.args S m nonce) (x.at S v0 v1 i got m cv e stale nonce nonce w1) = .ok [.int .int k, libErr er] (x.at S v0 v1 i got m cv e' stale' nonce nonce w2)) :
    ∃ new, sealTurn S FT FW FN ⟨x.mem v0 v1 e stale (byteVals cb) nonce i, 5, [], w⟩ =
      .ok (.ret [libErr er]) ⟨x.mem v0 v1 e' stale' cv nonce i ++ new, 5, [], w2⟩ := by
  have hg' : (got.length : Int) ≤ 16385 := by omega
  subst em
  subst ec
  exact ⟨[_, _, _, _], by seval [hi, hr, hg', hW]⟩

theorem seal_write_panic (t : St ω)
    (hW : FW (x.args S m nonce) (x.at S v0 v1 i got m cv e stale nonce nonce w1) = .panic t) :
    sealTurn S FT FW FN ⟨x.mem v0 v1 e stale (byteVals cb) nonce i, 5, [], w⟩ = .panic t := by
  have hg' : (got.length : Int) ≤ 16385 := by omega
  subst em
  subst ec
  seval [hi, hr, hg', hW]

theorem seal_write_crash (t : St ω)
    (hW : FW (x.args S m nonce) (x.at S v0 v1 i got m cv e stale nonce nonce w1) = .crash t) :
    sealTurn S FT FW FN ⟨x.mem v0 v1 e stale (byteVals cb) nonce i, 5, [], w⟩ = .crash t := by
  have hg' : (got.length : Int) ≤ 16385 := by omega
  subst em
  subst ec
  seval [hi, hr, hg', hW]

theorem seal_nonce_err (er : EVal) (k : Int)
    (hW : FW (x.args S m nonce) (x.at S v0 v1 i got m cv e stale nonce nonce w1) = .ok [.int .int k, .nil] (x.at S v0 v1 i got m cv e' stale' nonce nonce w2))
    (hN : FN [.ptr ⟨30, []⟩] (x.at S v0 v1 i got m cv e' stale' nonce nonce w2) = .ok [.err er] (x.at S v0 v1 i got m cv e' stale' nonce nonce' w2)) :
    ∃ new, sealTurn S FT FW FN ⟨x.mem v0 v1 e stale (byteVals cb) nonce i, 5, [], w⟩ =
      .ok (.ret [.err er]) ⟨x.mem v0 v1 e' stale' cv nonce' i ++ new, 5, [], w2⟩ := by
  have hg' : (got.length : Int) ≤ 16385 := by omega
  subst em
  subst ec
  exact ⟨[_, _, _, _], by seval [hi, hr, hg', hW, hN]⟩

end

/-! ### All iterations -/

/-- An error value that stands for an error of the model. -/
def IsErr (e : GoErr) (v : Val) : Prop := v = libErr e ∨ v = errVal e

/-- The summaries used above. -/
noncomputable def sealKnown (n : Nat) : Known ω :=
  sealK (fun vs => (interp (repo S) n).call id!"signify" key.Public.ToBox vs) (fun vs => (interp (repo S) n).call id!"base64" coding.Encoder.Write vs)
    (fun vs => (interp (repo S) n).call id!"crypto" crypt.incrementNonce vs)

theorem sealKnown_sound (n : Nat) : (sealKnown S n).Sound (repo S) n where
  func p x F h := by
    simp only [sealKnown, sealK] at h
    split at h
    · next hp =>
      obtain ⟨rfl, rfl⟩ := hp
      cases h
      exact ⟨⟨crypt.types, crypt.funcs⟩, crypt.incrementNonce, by krfl, by krfl, fun vs => .refl _⟩
    · cases h
  method t m F h := by
    simp only [sealKnown, sealK] at h
    split at h
    · next hp =>
      obtain ⟨rfl, rfl⟩ := hp
      cases h
      exact ⟨_, _, by krfl, fun vs => .refl _⟩
    · split at h
      · next hp =>
        obtain ⟨rfl, rfl⟩ := hp
        cases h
        exact ⟨_, _, by krfl, fun vs => .refl _⟩
      · cases h


/-- The fixed blocks refer to nothing outside memory. -/
def SealFixed.Plain (x : SealFixed) : Prop :=
  Val.anyRefers 32 [x.b2, x.b5, x.b7, x.b10, x.b11, x.b12, x.b13, x.b14, x.b15, x.b16, x.b17, x.b18, x.b19, x.b20, x.b21, x.b22, x.b23, x.b25, x.b26, x.b27] = false

theorem SealFixed.plain {v0 v1 : Val} {x : SealFixed} (hx : x.Plain) (p0 : v0.refers 2 = false) (p1 : v1.refers 2 = false) (e : EncState) (stale cb : Bytes)
    (nonce : Arr 24) (i : Int) : Val.anyRefers 32 (x.mem v0 v1 e stale (byteVals cb) nonce i) = false := by
  have a0 := Val.refers_mono (k' := 32) (by omega) v0 p0
  have a1 := Val.refers_mono (k' := 32) (by omega) v1 p1
  have a2 := Val.refers_mono (k' := 32) (by omega) _ (Emb.encArr_plain nonce)
  have a3 := Val.refers_mono (k' := 32) (by omega) _ (Emb.encArr_plain x.shared)
  simp only [SealFixed.Plain, Val.anyRefers, Bool.or_eq_false_iff] at hx
  simp [SealFixed.mem, Val.anyRefers, Val.refers, Val.fieldRefers, encVal, bufVal, fileVal, byteVals_plain, hx, a0, a1, a2, a3]

/-- The loop is left like this. -/
def SealEnd (x : SealFixed) (c : Ctl) (t : EncState × ω) (r : R ω Ctl) : Prop :=
  ∃ (stale cb : Bytes) (nonce : Arr 24) (i : Int) (g : List Val), t.1.pending.length + stale.length = 3 ∧ t.1.pending.length < 3 ∧
    r = .ok c ⟨x.mem v0 v1 t.1 stale (byteVals cb) nonce i ++ g, 5, [], t.2⟩

theorem seal_loop (p0 : v0.refers 2 = false) (p1 : v1.refers 2 = false) (x : SealFixed) (hx : x.Plain) (hc : x.chunks < 2 ^ 62)
    (contract : ∀ w got w', S.read x.hm 16385 w = (.ok got, w') → got.length ≤ 16385)
    (box : ∀ key nonce m, (S.prims.boxSeal key nonce m).length = m.length + 16) (k : Nat) :
    ∀ (i : Nat) (nonce : Arr 24) (cb : Bytes) (e : EncState) (stale : Bytes) (g : List Val) (w : ω), i + k = x.chunks →
      e.pending.length + stale.length = 3 → EncOk e →
    Agrees (sealLoop S.prims x.shared (fun n => Act.onSnd (S.read x.hm n)) (encWrite (S.write x.hw)) k nonce (e, w)) (·.2)
      (fun _ t r => EncOk t.1 ∧ SealEnd v0 v1 x .next t r)
      (fun er t r => ∃ v, IsErr er v ∧ SealEnd v0 v1 x (.ret [v]) t r)
      ((interp (repo S) (k + 71)).iter sealCtx sealFor.2.1 sealFor.2.2.1 sealFor.2.2.2 ⟨x.mem v0 v1 e stale (byteVals cb) nonce i ++ g, 5, [], w⟩) := by
  have snd := interpK_le (sealKnown_sound S 50) 20
  have up : ∀ k, Le (sealTurn S _ _ _) (turn (interp (repo S) (k + 70)) sealCtx sealFor.2.1 sealFor.2.2.1 sealFor.2.2.2) := fun k =>
    turn_mono (snd.trans (interp_mono (.refl _) (by omega))) _ _ _ _
  induction k with
  | zero =>
    intro i nonce cb e stale g w hk hs he
    have gr := turn_grow S (n := 70) (c := sealCtx) (e := sealFor.2.1) (p := sealFor.2.2.1) (b := sealFor.2.2.2) (g := g) (base := 5) (w := w)
      (F := x.mem v0 v1 e stale (byteVals cb) nonce i) (by simp [SealFixed.mem]) (by simp [SealFixed.mem]) (SealFixed.plain hx p0 p1 _ _ _ _ _) rfl
    rw [(up 0).eq (seal_over S v0 v1 x _ _ _ nonce i cb e stale w (by omega)) (by simp)] at gr
    obtain ⟨g', eg⟩ := gr _ [] (List.append_nil _).symm rfl (SealFixed.plain hx p0 p1 _ _ _ _ _) rfl
    rw [iter_turn, eg]
    exact ⟨he, stale, cb, nonce, i, g', hs, he.1, rfl⟩
  | succ k ih =>
    intro i nonce cb e stale g w hk hs he
    have gr := turn_grow S (n := k + 71) (c := sealCtx) (e := sealFor.2.1) (p := sealFor.2.2.1) (b := sealFor.2.2.2) (g := g) (base := 5) (w := w)
      (F := x.mem v0 v1 e stale (byteVals cb) nonce i) (by simp [SealFixed.mem]) (by simp [SealFixed.mem]) (SealFixed.plain hx p0 p1 _ _ _ _ _) rfl
    have up := up (k + 1)
    have hi : (i : Int) < x.chunks := by omega
    show Agrees _ _ _ _ ((interp (repo S) (k + 71 + 1)).iter _ _ _ _ _)
    rw [iter_turn, sealLoop, Act.bind_eq, Act.onSnd_apply]
    rcases hr : S.read x.hm chunkSize w with ⟨got | er | _ | _ | _, w1⟩
    · have hg := contract w got w1 hr
      have wr := write_in S (s := x.at S v0 v1 i got got (byteVals (refill cb got)) e stale nonce nonce w1) (v0 := v0) (v1 := v1) ⟨rfl, rfl, p0, p1⟩
        (l := ⟨3, []⟩) (b := ⟨4, []⟩) (a := ⟨34, []⟩) (h := x.hw) (e := e) (by simp) (by simp) (by simp) rfl rfl rfl ⟨stale, hs, he.1, rfl, rfl⟩ he
        (ps := S.prims.boxSeal x.shared nonce got) rfl (off := 0) (len := (S.prims.boxSeal x.shared nonce got).length)
        (cap := (byteVals (S.prims.boxSeal x.shared nonce got)).length) (by omega) (by rw [box]; omega) (n := 50) (by omega)
      rw [List.drop_zero, List.take_length] at wr
      have em := (refill_first cb got hg).symm
      have ec := (refill_eq cb got hg).symm
      rw [← ec] at em
      show Agrees ((encWrite (S.write x.hw) (S.prims.boxSeal x.shared nonce got) >>= fun _ => Act.ofRes (incrementNonce nonce) >>= fun nonce =>
        sealLoop S.prims x.shared (fun n => Act.onSnd (S.read x.hm n)) (encWrite (S.write x.hw)) k nonce : Act (EncState × ω) Unit) (e, w1)) _ _ _ _
      rw [Act.bind_eq]
      rcases hw : encWrite (S.write x.hw) (S.prims.boxSeal x.shared nonce got) (e, w1) with ⟨j | er | _ | _ | _, e', w2⟩ <;> rw [hw] at wr
      · obtain ⟨he', s', ⟨stale', m, k1, k2, k3, rfl⟩, hW⟩ := wr
        cases (show writeAll _ _ = some (x.mid v0 v1 e' stale' (byteVals (refill cb got)) nonce i got.length (S.prims.boxSeal x.shared nonce got)) from rfl).symm.trans k3
        have nc := nonce_in S (s := x.at S v0 v1 i got got (byteVals (refill cb got)) e' stale' nonce nonce w2) (v0 := v0) (v1 := v1) ⟨rfl, rfl, p0, p1⟩
          (l := ⟨30, []⟩) (by simp) (nonce := nonce) rfl (n := 50) (by omega)
        simp only
        rw [Act.bind_eq]
        rcases hn : incrementNonce nonce with a | er | _ | _ | _ <;> rw [hn] at nc
        · obtain ⟨m, k4, hN⟩ := nc
          cases (show Loc.set _ _ _ = some (x.mid v0 v1 e' stale' (byteVals (refill cb got)) a i got.length (S.prims.boxSeal x.shared nonce got)) from rfl).symm.trans k4
          obtain ⟨new, st⟩ := seal_step S v0 v1 x _ _ _ nonce a i cb e e' stale stale' w w1 w2 got got _ em ec hi hr hg j hc hW hN
          rw [up.eq st (by simp)] at gr
          obtain ⟨g', eg⟩ := gr _ new rfl rfl (SealFixed.plain hx p0 p1 _ _ _ _ _) rfl
          rw [eg]
          exact ih (i + 1) a _ e' stale' g' w2 (by omega) k1 he'
        · obtain ⟨bs, m, k4, hN⟩ := nc
          cases (show Loc.set _ _ _ = some (x.mid v0 v1 e' stale' (byteVals (refill cb got)) bs i got.length (S.prims.boxSeal x.shared nonce got)) from rfl).symm.trans k4
          obtain ⟨ev, hev⟩ : ∃ ev, errVal er = .err ev := by cases er <;> exact ⟨_, rfl⟩
          rw [hev] at hN
          obtain ⟨new, st⟩ := seal_nonce_err S v0 v1 x _ _ _ nonce bs i cb e e' stale stale' w w1 w2 got got _ em ec hi hr hg ev j hW hN
          rw [up.eq st (by simp)] at gr
          obtain ⟨g', eg⟩ := gr _ new rfl rfl (SealFixed.plain hx p0 p1 _ _ _ _ _) rfl
          rw [eg]
          exact ⟨_, .inr hev.symm, stale', _, bs, i, g', k1, k2, rfl⟩
        · exact nc.elim
        · exact nc.elim
        · exact nc.elim
      · obtain ⟨j, s', ⟨stale', m, k1, k2, k3, rfl⟩, hW⟩ := wr
        cases (show writeAll _ _ = some (x.mid v0 v1 e' stale' (byteVals (refill cb got)) nonce i got.length (S.prims.boxSeal x.shared nonce got)) from rfl).symm.trans k3
        obtain ⟨new, st⟩ := seal_write_err S v0 v1 x _ _ _ nonce i cb e e' stale stale' w w1 w2 got got _ em ec hi hr hg er j hW
        rw [up.eq st (by simp)] at gr
        obtain ⟨g', eg⟩ := gr _ new rfl rfl (SealFixed.plain hx p0 p1 _ _ _ _ _) rfl
        rw [eg]
        exact ⟨_, .inl rfl, stale', _, nonce, i, g', k1, k2, rfl⟩
      · obtain ⟨t, hW, ew, ed⟩ := wr
        rw [up.eq (seal_write_panic S v0 v1 x _ _ _ nonce i cb e stale w w1 got got _ em ec hi hr hg t hW) (by simp)] at gr
        obtain ⟨t', e2, ew', ed'⟩ := gr
        rw [e2]
        exact ⟨t', rfl, ew'.trans ew, ed' ed⟩
      · obtain ⟨t, hW, ew⟩ := wr
        rw [up.eq (seal_write_crash S v0 v1 x _ _ _ nonce i cb e stale w w1 got got _ em ec hi hr hg t hW) (by simp)] at gr
        obtain ⟨t', e2, ew'⟩ := gr
        rw [e2]
        exact ⟨t', rfl, ew'.trans ew⟩
      · trivial
    · obtain ⟨new, st⟩ := seal_read S v0 v1 x _ _ _ nonce i cb e stale w w1 hi er hr
      rw [up.eq st (by simp)] at gr
      obtain ⟨g', eg⟩ := gr _ new rfl rfl (SealFixed.plain hx p0 p1 _ _ _ _ _) rfl
      rw [eg]
      exact ⟨_, .inl rfl, stale, cb, nonce, i, g', hs, he.1, rfl⟩
    · obtain ⟨m, st⟩ := seal_read_panic S v0 v1 x _ _ _ nonce i cb e stale w w1 hi hr
      rw [up.eq st (by simp)] at gr
      obtain ⟨t', e2, ew', ed'⟩ := gr
      rw [e2]
      exact ⟨t', rfl, ew', ed' rfl⟩
    · obtain ⟨m, st⟩ := seal_read_crash S v0 v1 x _ _ _ nonce i cb e stale w w1 hi hr
      rw [up.eq st (by simp)] at gr
      obtain ⟨t', e2, ew'⟩ := gr
      rw [e2]
      exact ⟨t', rfl, ew'⟩
    · trivial

end Verif.Src
