/-
The text of `open` of crypto/crypto.go does what the model's `openBox` does, first on a few blocks of memory, then in any
memory.
-/
import Verif.Source.OpenLoop

namespace Verif.Src

variable {ω : Type}

/-- A call in two parts. -/
theorem call_rest_le {P : Prog ω} {I : Interp ω} {n : Nat} (le : I.Le (interp P n)) {p : Id} {f : Func} {vs : List Val}
    {s s1 s2 : St ω} {env env2 : Env} {x : Stmt} {rest : List Stmt} {r : R ω Ctl} (k : Nat)
    (h1 : (params [] (f.recv.toList ++ f.params) vs >>= fun env => namedResults I ⟨p, env⟩ env f.results)
      { s with base := s.mem.length, defers := [] } = .ok env s1)
    (h2 : execsEnv I ⟨p, env⟩ (f.body.take k) s1 = .ok (env2, .next) s2)
    (h3 : f.body.drop k = x :: rest)
    (h4 : execs I ⟨p, env2⟩ (f.body.drop k) s2 = r) (hr : r ≠ .stuck) :
    (interp P (n + 1)).call p f vs s = finish P (interp P n) f env s r := by
  have c := call_parts k (P := P) (n := n) (p := p) (f := f) (vs := vs) (s := s)
    ((Le.bind (.refl _) fun env => namedResults_mono le _ _ _).ok h1) ((execsEnv_mono le _ _).ok h2) h3 rfl
  rw [c, ← execs_cons (I := interp P n), ← h3, (execs_mono le _ _).eq h4 hr]

/-- A call with a loop after the first `k` statements. -/
theorem call_loop_le {P : Prog ω} {I : Interp ω} {n : Nat} (le' : I.Le (interp P n)) {p : Id} {f : Func} {vs : List Val}
    {s s1 s2 s3 : St ω} {env env2 : Env} {c : Ctx} {i : Option Stmt} {e : Option Expr} {post : Option Stmt} {b : List Stmt} {r : R ω Ctl} (k : Nat)
    (h1 : (params [] (f.recv.toList ++ f.params) vs >>= fun env => namedResults I ⟨p, env⟩ env f.results)
      { s with base := s.mem.length, defers := [] } = .ok env s1)
    (h2 : execsEnv I ⟨p, env⟩ (f.body.take k) s1 = .ok (env2, .next) s2)
    (h3 : f.body.drop k = .loop i e post b :: f.body.drop (k + 1))
    (h4 : initial I ⟨p, env2⟩ i s2 = .ok c s3)
    (h5 : (interp P n).iter c e post b s3 = r) :
    (interp P (n + 2)).call p f vs s =
      finish P (interp P (n + 1)) f env s (after (interp P (n + 1)) ⟨p, env2⟩ (f.body.drop (k + 1)) (endLoop env2 r)) := by
  have le : I.Le (interp P (n + 1)) := le'.trans (interp_mono (.refl P) (by omega))
  refine call_parts k ?_ ((execsEnv_mono le _ _).ok h2) h3 ?_
  · refine Le.ok ?_ h1
    exact Le.bind (.refl _) fun env => namedResults_mono le _ _ _
  · refine (M.bind_ok ((initial_mono le' _ _).ok h4)).trans ?_
    show M.bind _ _ _ = _
    unfold M.bind
    rw [h5]
    cases r <;> rfl

variable (S : Sys ω) (v0 v1 : Val)

/-- How the call ends, given how the loop ends. -/
noncomputable abbrev openFin (n : Nat) (priv : Private) (hm j : Nat) (w : ω) (r : R ω Ctl) : R ω (List Val) :=
  finish (repo S) (interp (repo S) (n + 20)) crypt.open openEnv ⟨[v0, v1, privateVal priv, decoderVal hm], 4, [], w⟩
    (after (interp (repo S) (n + 20)) ⟨id!"crypto", openEnv2 j⟩ (crypt.open.body.drop 14) (endLoop (openEnv2 j) r))

section
variable (x : OpenFixed) (hj : x.j = 2 ∨ x.j = 7) (n : Nat) (priv : Private) {cv : List Val} {nonce : Arr 24} {i : Int} {g : List Val} {w w' : ω}
include hj

theorem openFin_next : openFin S v0 v1 n priv x.hm x.j w (.ok .next ⟨x.mem v0 v1 cv nonce i ++ g, 4, [], w'⟩) =
    .ok [.nil] ⟨[v0, v1, privateVal x.priv, decoderVal x.hm], 4, [], w'⟩ := by
  obtain ⟨priv, hm, hw, j, pre, sc, z, hv, c, ep, shared⟩ := x
  rcases hj with rfl | rfl
  · seval []
  · seval []

theorem openFin_ret {e : EVal} : openFin S v0 v1 n priv x.hm x.j w (.ok (.ret [.err e]) ⟨x.mem v0 v1 cv nonce i ++ g, 4, [], w'⟩) =
    .ok [.err e] ⟨[v0, v1, privateVal x.priv, decoderVal x.hm], 4, [], w'⟩ := by
  obtain ⟨priv, hm, hw, j, pre, sc, z, hv, c, ep, shared⟩ := x
  rcases hj with rfl | rfl
  · seval []
  · seval []
end

theorem openFin_panic (n : Nat) (priv : Private) (hm j : Nat) (w w' : ω) (m : List Val) (b : Nat) :
    ∃ t, openFin S v0 v1 n priv hm j w (.panic ⟨m, b, [], w'⟩) = .panic t ∧ t.world = w' ∧ t.defers = [] :=
  ⟨_, by seval [], rfl, rfl⟩

theorem openFin_crash (n : Nat) (priv : Private) (hm j : Nat) (w w' : ω) (m : List Val) (b : Nat) (df : List Deferred) :
    ∃ t, openFin S v0 v1 n priv hm j w (.crash ⟨m, b, df, w'⟩) = .crash t ∧ t.world = w' :=
  ⟨_, by seval [], rfl⟩

theorem openFin_noauth {n : Nat} {priv priv' : Private} {hm hw j : Nat} (hj : j = 2 ∨ j = 7) {pre : List Val} {sc : Arr 32} {z : Val} {hv : List Val} {c : Nat}
    {ep shared : Arr 32} {e : EVal} {w w' : ω} :
    finish (repo S) (interp (repo S) (n + 20)) crypt.open openEnv ⟨[v0, v1, privateVal priv, decoderVal hm], 4, [], w⟩
      (.ok (.ret [.err e]) ⟨openMem3 v0 v1 priv' hm hw j pre sc z hv c ep shared, 4, [], w'⟩) =
      .ok [.err e] ⟨[v0, v1, privateVal priv', decoderVal hm], 4, [], w'⟩ := by
  rcases hj with rfl | rfl
  · seval []
  · seval []

theorem open_start (C : Id → Func → List Val → M ω (List Val)) (priv : Private) (hm hw : Nat) (w : ω) :
    (params [] (crypt.open.recv.toList ++ crypt.open.params) (openArgs hw) >>= fun env =>
      namedResults (interpC (repo S) C 19) ⟨id!"crypto", env⟩ env crypt.open.results) ⟨[v0, v1, privateVal priv, decoderVal hm], 4, [], w⟩ =
      .ok openEnv ⟨openMem0 v0 v1 priv hm hw, 4, [], w⟩ := by
  seval []

theorem chunks_lt (hd : Arr 72) : beVal (headL hd 0 8) < 2 ^ 64 := by
  have := beVal_lt (headL hd 0 8)
  rw [show (headL hd 0 8).length = 8 by simp [headL]] at this
  omega

/-- `open` on any system. -/
def openS (f hm hw : Nat) : Act (Private × ω) Unit :=
  openBox S.prims (toBoxS S) (fun n => Act.onSnd (decRead f (S.read hm) n)) (fun bs => Act.onSnd (S.write hw bs))

theorem header_get {priv : Private} {hm hw j : Nat} (hj : j = 2 ∨ j = 7) {pre : List Val} {sc : Arr 32} {z : Val} (hv : List Val) :
    (⟨j + 11, []⟩ : Loc).get (openMem2 v0 v1 priv hm hw j pre sc z hv) = some (.arr hv) := by
  rcases hj with rfl | rfl <;> rfl

theorem header_set {priv : Private} {hm hw j : Nat} (hj : j = 2 ∨ j = 7) {pre : List Val} {sc : Arr 32} {z : Val} (hv hv' : List Val) :
    (⟨j + 11, []⟩ : Loc).set (openMem2 v0 v1 priv hm hw j pre sc z hv) (.arr hv') = some (openMem2 v0 v1 priv hm hw j pre sc z hv') := by
  rcases hj with rfl | rfl <;> rfl

/-- Memory of the caller after a call. -/
noncomputable abbrev openDone (t : Private × ω) (hm : Nat) : St ω := ⟨[promptFunc, v1, privateVal t.1, decoderVal hm], 4, [], t.2⟩

/-- From the header on. -/
theorem open_tail (p1 : v1.refers 2 = false) {priv priv' : Private} {hm hw f j : Nat}
    (contract : ∀ w got w', S.read hm 1 w = (.ok got, w') → got.length ≤ 1) (hj : j = 2 ∨ j = 7) {pre : List Val} {sc : Arr 32} {z : Val} {hd : Arr 72}
    (hpl : Val.anyRefers (j + 20) (spread j pre) = false) (zpl : ∀ k, z.refers k = false) {w w1 w2 : ω}
    (hT : openC S (f + 60) id!"signify" key.Private.ToBox [.ptr ⟨2, []⟩] ⟨openMem0 promptFunc v1 priv hm hw, 4, [], w⟩ =
        .ok [.ptr ⟨j + 7, []⟩, .nil] ⟨openMem1 promptFunc v1 priv' hm hw j pre sc z, 4, [], w1⟩)
    (hR : openC S (f + 60) id!"base64" coding.Decoder.Read [.ptr ⟨3, []⟩, .slice ⟨j + 11, []⟩ 0 72 72]
              ⟨openMem2 promptFunc v1 priv' hm hw j pre sc z zeroV, 4, [], w1⟩ =
            .ok [.int .int 72, .nil] ⟨openMem2 promptFunc v1 priv' hm hw j pre sc z (headV hd), 4, [], w2⟩) :
    Agrees ((if (!S.prims.authVerify (hd.toList.drop 40) (hd.toList.take 40) (S.prims.precompute (copyZ 32 (hd.toList.drop 8)) sc)) = true then
          Act.fail GoErr.headerAuth
        else
          openLoop S.prims (S.prims.precompute (copyZ 32 (hd.toList.drop 8)) sc)
            (fun n => Act.onSnd (decRead f (S.read hm) n)) (fun bs => Act.onSnd (S.write hw bs)) (beVal (hd.toList.take 8)) 0
            (Vector.replicate 24 0) : Act (Private × ω) Unit) (priv', w2)) (·.2)
      (fun _ t r => r = .ok [.nil] (openDone v1 t hm))
      (fun er t r => ∃ v, Heard er v ∧ r = .ok [v] (openDone v1 t hm))
      ((interp (repo S) (beVal (headL hd 0 8) + (f + 60 + 20) + 2)).call id!"crypto" crypt.open (openArgs hw)
        ⟨[promptFunc, v1, privateVal priv, decoderVal hm], 4, [], w⟩) := by
  have p0 : promptFunc.refers 2 = false := rfl
  have e0 : hd.toList.take 8 = headL hd 0 8 := by rw [headL_eq hd (by omega), List.drop_zero]
  have e1 : hd.toList.take 40 = rawH hd 0 40 := by rw [rawH_eq, headL_eq hd (by omega), List.drop_zero]
  have e2 : hd.toList.drop 40 = rawH hd 40 32 := by rw [rawH_eq, headL_eq hd (by omega), List.take_of_length_le (by simp)]
  have start := open_start S promptFunc v1 (openC S (f + 60)) priv hm hw w
  have first := open_first S promptFunc v1 (openC S (f + 60)) hj hT hR
  have c64 := chunks_lt hd
  rw [e0, e1, e2]
  generalize beVal (headL hd 0 8) = c at first c64
  have le : (interpC (repo S) (openC S (f + 60)) 19).Le (interp (repo S) (c + (f + 60 + 20))) :=
    (interpC_le (repo S) (f + 60) 19).trans (interp_mono (.refl _) (by omega))
  have le' := le.trans (interp_mono (.refl (repo S)) (show c + (f + 60 + 20) ≤ c + (f + 60 + 20) + 1 by omega))
  by_cases ha : (!S.prims.authVerify (rawH hd 40 32) (rawH hd 0 40) (S.prims.precompute (copyZ 32 (hd.toList.drop 8)) sc)) = true
  · rw [if_pos ha]
    have na := open_noauth S promptFunc v1 (openC S (f + 60)) (priv := priv') (hm := hm) (hw := hw) (pre := pre) (sc := sc) (ep := epubOf hd) (z := z) (c := c) hj
      (w := w2) (hd := hd) (by rw [remadeK_eq, remadeK_eq, remadeK_eq]; exact ha)
    rw [call_rest_le le' 9 start first rfl na (by simp)]
    have fin := openFin_noauth S promptFunc v1 (n := c + f + 61) (priv := priv) (priv' := priv') (hm := hm) (hw := hw) hj (pre := pre) (sc := sc) (z := z)
      (hv := headV hd) (c := c) (ep := epubOf hd) (shared := S.prims.precompute (epubOf hd) sc)
      (e := .text b!"signify/crypto: failed to authenticate the message header" none) (w := w) (w' := w2)
    rw [show c + (f + 60 + 20) + 1 = c + f + 61 + 20 by omega, fin]
    exact ⟨_, .inr rfl, rfl⟩
  · rw [if_neg ha]
    have au := open_auth S promptFunc v1 (openC S (f + 60)) (priv := priv') (hm := hm) (hw := hw) (pre := pre) (sc := sc) (ep := epubOf hd) (z := z) (c := c) hj
      (w := w2) (hd := hd) (by rw [remadeK_eq, remadeK_eq, remadeK_eq]; exact ha)
    have all : execsEnv (interpC (repo S) (openC S (f + 60)) 19) ⟨id!"crypto", openEnv⟩ (crypt.open.body.take 13) _ = _ := execsEnv_append first au
    rw [show (List.replicate 16401 (Val.int .uint8 0)) = byteVals (List.replicate 16401 0) by rw [byteVals, List.map_replicate]; rfl] at all
    obtain ⟨x, hx⟩ : ∃ x : OpenFixed, x = ⟨priv', hm, hw, j, pre, sc, z, headV hd, c, epubOf hd, S.prims.precompute (epubOf hd) sc⟩ := ⟨_, rfl⟩
    have xpl : x.Plain := by
      subst hx
      exact ⟨hj, hpl, zpl _, by simp only; rw [headV_eq]; exact byteVals_plain _ _⟩
    have loop := open_loop S promptFunc v1 p0 p1 x xpl (by subst hx; exact c64) f (by subst hx; exact contract) c 0 (Vector.replicate 24 0)
      (List.replicate 16401 0) [] w2 (by subst hx; exact Nat.zero_add _)
    generalize hr : (interp (repo S) (c + (f + 60 + 20))).iter (openCtx x.j) openFor.2.1 openFor.2.2.1 openFor.2.2.2 _ = r at loop
    have init := open_init S promptFunc v1 (openC S (f + 60)) (priv := priv') (hm := hm) (hw := hw) (pre := pre) (sc := sc) (ep := epubOf hd) (z := z) (c := c) hj
      (w := w2) (nonce := Vector.replicate 24 0) (cv := byteVals (List.replicate 16401 0)) (hv := headV hd) (shared := S.prims.precompute (epubOf hd) sc)
    have fin := call_loop_le le (s := ⟨[promptFunc, v1, privateVal priv, decoderVal hm], 4, [], w⟩) 13 start all (by krfl)
      (i := openFor.1) (c := openCtx j) init (r := r) (by
        rw [← hr]
        subst hx
        rw [List.append_nil]
        rfl)
    rw [fin, show c + (f + 60 + 20) + 1 = c + f + 61 + 20 by omega]
    have out : Agrees (openLoop S.prims x.shared (fun n => Act.onSnd (decRead f (S.read x.hm) n)) (fun bs => Act.onSnd (S.write x.hw bs)) c 0 (Vector.replicate 24 0) (x.priv, w2)) (·.2)
        (fun _ t r => r = .ok [.nil] (openDone v1 t x.hm))
        (fun er t r => ∃ v, Heard er v ∧ r = .ok [v] (openDone v1 t x.hm)) (openFin S promptFunc v1 (c + f + 61) priv x.hm x.j w r) := by
      rcases ho : openLoop S.prims x.shared (fun n => Act.onSnd (decRead f (S.read x.hm) n)) (fun bs => Act.onSnd (S.write x.hw bs)) c 0 (Vector.replicate 24 0) (x.priv, w2)
        with ⟨u | er | _ | _ | _, tp, tw⟩ <;> rw [ho] at loop
      · obtain ⟨rfl, cb, nonce, i, g, rfl⟩ := loop
        exact openFin_next S promptFunc v1 x xpl.j _ priv
      · obtain ⟨v, hv, rfl, cb, nonce, i, g, rfl⟩ := loop
        obtain ⟨ev, rfl⟩ := hv.err
        exact ⟨_, hv, openFin_ret S promptFunc v1 x xpl.j _ priv⟩
      · obtain ⟨⟨tm, b, td, tw'⟩, rfl, ew, ed⟩ := loop
        subst ew
        subst ed
        exact openFin_panic S promptFunc v1 _ priv x.hm x.j w _ tm b
      · obtain ⟨⟨tm, b, td, tw'⟩, rfl, ew⟩ := loop
        subst ew
        exact openFin_crash S promptFunc v1 _ priv x.hm x.j w _ tm b td
      · trivial
    subst hx
    exact out

theorem open_run (T : S.Tame) (p1 : v1.refers 2 = false) (priv : Private) (hm hw f : Nat)
    (contract : ∀ w got w', S.read hm 1 w = (.ok got, w') → got.length ≤ 1) (w : ω) {N : Nat} (hN : 2 ^ 64 + f + 100 ≤ N) :
    Agrees (openS S f hm hw (priv, w)) (·.2)
      (fun _ t r => r = .ok [.nil] (openDone v1 t hm))
      (fun er t r => ∃ v, Heard er v ∧ r = .ok [v] (openDone v1 t hm))
      ((interp (repo S) N).call id!"crypto" crypt.open (openArgs hw) ⟨[promptFunc, v1, privateVal priv, decoderVal hm], 4, [], w⟩) := by
  have p0 : promptFunc.refers 2 = false := rfl
  have up : ∀ {s : St ω} {r}, callC (repo S) (openC S (f + 60)) id!"crypto" crypt.open (openArgs hw) s = r → r ≠ .stuck →
      (interp (repo S) N).call id!"crypto" crypt.open (openArgs hw) s = r := fun h hr =>
    Le.eq (callC_le (repo S) (k := f + 60) (by omega) _ _ _) h hr
  have tb := privBox_in S T (s := ⟨openMem0 promptFunc v1 priv hm hw, 4, [], w⟩) (v1 := v1) ⟨rfl, rfl, p0, p1⟩ (lk := ⟨2, []⟩) (by simp) (priv := priv) rfl
    (n := f + 60) (by omega)
  have put : ∀ q, (⟨2, []⟩ : Loc).set (openMem0 promptFunc v1 priv hm hw) (privateVal q) = some (openMem0 promptFunc v1 q hm hw) := fun _ => rfl
  unfold openS openBox
  rw [Act.bind_eq]
  rcases ht : toBoxS S (priv, w) with ⟨sc | er | _ | _ | _, priv', w1⟩ <;> rw [show toBoxS S (priv, w) = _ from ht] at tb
  · obtain ⟨o, m, km, hT⟩ := tb
    cases (put priv').symm.trans km
    have hj := preLen_cases o
    have hsp : boxPre 7 ⟨2, []⟩ o = spread (preLen o) (boxPre 7 ⟨2, []⟩ o) := (spread_eq (boxPre_length _ _ _)).symm
    have hpl : Val.anyRefers (preLen o + 20) (spread (preLen o) (boxPre 7 ⟨2, []⟩ o)) = false := by
      rw [← hsp]
      exact boxPre_plain (by simp) (by rcases hj with e | e <;> rw [e] <;> omega)
    obtain ⟨z, hz⟩ : ∃ z, Val.arr (byteVals (List.replicate 64 0)) = z := ⟨_, rfl⟩
    have zpl : ∀ k, z.refers k = false := by subst hz; exact fun k => byteVals_plain _ _
    have hT : openC S (f + 60) id!"signify" key.Private.ToBox [.ptr ⟨2, []⟩] ⟨openMem0 promptFunc v1 priv hm hw, 4, [], w⟩ =
        .ok [.ptr ⟨preLen o + 7, []⟩, .nil] ⟨openMem1 promptFunc v1 priv' hm hw (preLen o) (boxPre 7 ⟨2, []⟩ o) sc z, 4, [], w1⟩ := by
      rw [Nat.add_comm (preLen o) 7]
      refine hT.trans ?_
      rw [openMem1, ← hsp, boxLeft, hz, List.append_assoc]
      rfl
    generalize preLen o = j at hj hpl hT
    generalize boxPre 7 ⟨2, []⟩ o = pre at hpl hT
    simp only
    rw [Act.bind_eq, Act.onSnd_apply]
    have rd := read_in S (s := ⟨openMem2 promptFunc v1 priv' hm hw j pre sc z zeroV, 4, [], w1⟩) (v0 := promptFunc) (v1 := v1) ⟨rfl, rfl, p0, p1⟩
      (l := ⟨3, []⟩) (a := ⟨j + 11, []⟩) (h := hm) (by simp) (by simp) (by rcases hj with e | e <;> rw [e] <;> rfl) rfl (ps := List.replicate 72 0)
      (header_get promptFunc v1 hj _) (off := 0) (len := 72) (cap := 72) (by omega) contract (f := f) (n := f + 60) (by omega)
    rcases hr : decRead f (S.read hm) headerSize w1 with ⟨got | er | _ | _ | _, w2⟩ <;> rw [show decRead f (S.read hm) 72 w1 = _ from hr] at rd
    · obtain ⟨m, km, hR⟩ := rd
      cases (header_set promptFunc v1 hj _ _).symm.trans km
      have h72 : got.length ≤ 72 := decRead_short hr
      simp only
      by_cases hl : got.length = 72
      · rw [if_neg (show ¬got.length ≠ headerSize from not_not.2 hl)]
        obtain ⟨hd, rfl⟩ : ∃ hd : Arr 72, got = hd.toList := ⟨⟨got.toArray, by simp [hl]⟩, by simp⟩
        have hR : openC S (f + 60) id!"base64" coding.Decoder.Read [.ptr ⟨3, []⟩, .slice ⟨j + 11, []⟩ 0 72 72]
              ⟨openMem2 promptFunc v1 priv' hm hw j pre sc z zeroV, 4, [], w1⟩ =
            .ok [.int .int 72, .nil] ⟨openMem2 promptFunc v1 priv' hm hw j pre sc z (headV hd), 4, [], w2⟩ := by
          refine hR.trans ?_
          rw [hl, headV_eq, List.take_zero, List.nil_append, List.drop_eq_nil_of_le (by simp), List.append_nil]
          rfl
        have c64 := chunks_lt hd
        exact (open_tail S v1 p1 contract hj hpl zpl hT hR).more
          ((interp_mono (.refl (repo S)) (show beVal (headL hd 0 8) + (f + 60 + 20) + 2 ≤ N by omega)).call _ _ _)
          (fun _ _ h => by cases h) (fun _ _ ⟨_, _, h⟩ => by cases h)
      · rw [if_pos (show got.length ≠ headerSize from hl)]
        rw [up (open3_short S promptFunc v1 _ hj hT (by omega) hR) (by simp)]
        exact ⟨_, .inr rfl, rfl⟩
    · rw [up (open2_err S promptFunc v1 _ hj hT rd) (by simp)]
      exact ⟨_, .inl (.inr (.inl rfl)), rfl⟩
    · obtain ⟨⟨tm, b, td, tw⟩, hR, ew, ed⟩ := rd
      subst ew
      subst ed
      obtain ⟨t', h, ew', ed'⟩ := open2_panic S promptFunc v1 _ hj hT hR
      rw [up h (by simp)]
      exact ⟨t', rfl, ew', ed'⟩
    · obtain ⟨⟨tm, b, td, tw⟩, hR, ew⟩ := rd
      subst ew
      obtain ⟨t', h, ew'⟩ := open2_crash S promptFunc v1 _ hj hT hR
      rw [up h (by simp)]
      exact ⟨t', rfl, ew'⟩
    · trivial
  · obtain ⟨v, m, hv, km, hT⟩ := tb
    cases (put priv').symm.trans km
    obtain ⟨x, rfl⟩ := hv.err
    rw [up (open1_err S promptFunc v1 _ hT) (by simp)]
    exact ⟨_, .inl (.inl hv), rfl⟩
  · obtain ⟨⟨tm, b, td, tw⟩, hT, ew, ed⟩ := tb
    subst ew
    subst ed
    obtain ⟨t', h, ew', ed'⟩ := open1_panic S promptFunc v1 _ hT
    rw [up h (by simp)]
    exact ⟨t', rfl, ew', ed'⟩
  · obtain ⟨⟨tm, b, td, tw⟩, hT, ew⟩ := tb
    subst ew
    obtain ⟨t', h, ew'⟩ := open1_crash S promptFunc v1 _ hT
    rw [up h (by simp)]
    exact ⟨t', rfl, ew'⟩
  · trivial

/-- `open(priv *signify.Private, message io.Reader, w io.Writer) error`, crypto.go:159-208, for a decoder on an open file and an open file. -/
theorem open_in (T : S.Tame) {s : St ω} {v1 : Val} (G : Globals s promptFunc v1) {lk ld : Loc} {hm hw f : Nat} {priv : Private}
    (hk : 2 ≤ lk.blk) (hl : 2 ≤ ld.blk) (d : lk.disjoint ld = true) (Ek : lk.get s.mem = some (privateVal priv)) (Ed : ld.get s.mem = some (decoderVal hm))
    (contract : ∀ w got w', S.read hm 1 w = (.ok got, w') → got.length ≤ 1) {n : Nat} (hn : 2 ^ 64 + f + 100 ≤ n) :
    Ends s.defers (openS S f hm hw (priv, s.world)) (·.2)
      (fun _ t r => ∃ m, lk.set s.mem (privateVal t.1) = some m ∧ r = .ok [.nil] ⟨m, s.base, s.defers, t.2⟩)
      (fun er t r => ∃ v m, Heard er v ∧ lk.set s.mem (privateVal t.1) = some m ∧ r = .ok [v] ⟨m, s.base, s.defers, t.2⟩)
      ((interp (repo S) n).call id!"crypto" crypt.open [.ptr lk, .ptr ld, fileVal hw] s) := by
  have c := carry S (Nat.le_refl n) (ρ := [lk, ld]) (us := [privateVal priv, decoderVal hm]) G
    (by simp [hk, hl]) (by simp [d])
    (by simp only [getAll, Ek, Ed, Emb.renVs, Emb.renV_plain _ _ (privateVal_plain priv 0)]; rfl)
    (open_run S v1 T G.plain1 priv hm hw f contract s.world hn)
  have ea : (beside s [lk, ld]).renVs (openArgs hw) = [.ptr lk, .ptr ld, fileVal hw] := by
    simp only [openArgs, fileVal, Emb.renVs, Emb.renV]; rw [ren_two 0 lk rfl, ren_two 1 ld rfl]
  rw [ea] at c
  have fin : ∀ (t : Private × ω) (rs : List Val) (r : R ω (List Val)), Carried s [lk, ld] promptFunc v1 (.ok rs (openDone v1 t hm)) r →
      Val.anyRefers 0 rs = false → ∃ m, lk.set s.mem (privateVal t.1) = some m ∧ r = .ok rs ⟨m, s.base, s.defers, t.2⟩ := by
    intro t rs r k hr
    obtain ⟨m, k3, k4⟩ := k rs [privateVal t.1, decoderVal hm] [] _ _ _ rfl rfl
    simp only [Emb.renVs, List.zip_cons_cons, List.zip_nil_right, Emb.renV_plain _ _ (privateVal_plain t.1 0)] at k3
    obtain ⟨m1, c1, k3⟩ := writeAll_cons k3
    have keep : ld.get m1 = some (decoderVal hm) := by
      rw [← Ed]
      exact Loc.get_set_disjoint d c1
    rw [show (beside s [lk, ld]).renV (decoderVal hm) = decoderVal hm from rfl, writeAll, Loc.set_get keep] at k3
    cases k3
    refine ⟨_, c1, ?_⟩
    rw [k4, Emb.renVs_plain _ _ hr]
    simp [Emb.renVs]
  refine c.mono (fun a t hr => ?_) (fun a t hr => ?_)
  · obtain ⟨r0, rfl, k⟩ := hr
    exact fin t _ _ k rfl
  · obtain ⟨r0, ⟨v, hv, rfl⟩, k⟩ := hr
    obtain ⟨x, rfl⟩ := hv.err
    obtain ⟨m, h⟩ := fin t _ _ k rfl
    exact ⟨_, m, hv, h⟩

end Verif.Src
