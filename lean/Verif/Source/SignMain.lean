/-
The text of `Sign` of signify/key.go, with its deferred call, compared with the model.
-/
import Verif.Source.SignText

namespace Verif.Src

variable {ω : Type} (S : Sys ω) (v1 : Val)

theorem body_ok {P : Prog ω} {I : Interp ω} {p : Id} {f : Func} {vs rs : List Val} {s t : St ω} (h : inner I p f vs s = .ok rs t) :
    body P I p f vs s = (unwind P I >>= fun _ => pure rs) t := by
  unfold inner at h
  unfold body
  change M.bind _ _ _ = _ at h
  show M.bind _ _ _ = _
  unfold M.bind at h ⊢
  cases h1 : (params [] (f.recv.toList ++ f.params) vs : M ω Env) s with
  | ok a u =>
    rw [h1] at h
    simp only at h ⊢
    change M.bind _ _ _ = _ at h
    show M.bind _ _ _ = _
    unfold M.bind at h ⊢
    cases h2 : namedResults I ⟨p, a⟩ a f.results u with
    | ok e u' =>
      rw [h2] at h
      simp only at h ⊢
      show M.bind _ _ _ = _
      unfold M.bind onPanic
      rw [h]
    | panic u => rw [h2] at h; cases h
    | crash u => rw [h2] at h; cases h
    | stuck => rw [h2] at h; cases h
  | panic u => rw [h1] at h; cases h
  | crash u => rw [h1] at h; cases h
  | stuck => rw [h1] at h; cases h

theorem body_crash {P : Prog ω} {I : Interp ω} {p : Id} {f : Func} {vs : List Val} {s t : St ω} (h : inner I p f vs s = .crash t) :
    body P I p f vs s = .crash t := by
  unfold inner at h
  unfold body
  change M.bind _ _ _ = _ at h
  show M.bind _ _ _ = _
  unfold M.bind at h ⊢
  cases h1 : (params [] (f.recv.toList ++ f.params) vs : M ω Env) s with
  | ok a u =>
    rw [h1] at h
    simp only at h ⊢
    change M.bind _ _ _ = _ at h
    show M.bind _ _ _ = _
    unfold M.bind at h ⊢
    cases h2 : namedResults I ⟨p, a⟩ a f.results u with
    | ok e u' =>
      rw [h2] at h
      simp only at h ⊢
      show M.bind _ _ _ = _
      unfold M.bind onPanic
      rw [h]
    | panic u => rw [h2] at h; cases h
    | crash u => rw [h2] at h; exact h
    | stuck => rw [h2] at h; cases h
  | panic u => rw [h1] at h; cases h
  | crash u => rw [h1] at h; exact h
  | stuck => rw [h1] at h; cases h

theorem take_of_set {l : Loc} {m m' : List Val} {a : Val} {k : Nat} (hl : k ≤ l.blk) (h : l.set m a = some m') : m'.take k = m.take k := by
  obtain ⟨b, b', c, d, rfl⟩ := Loc.set_some h
  rw [List.take_set_of_le hl]

/-- A call that defers the wipe of the passphrase and then returns. -/
theorem call_wiped {n : Nat} (hn : 20 ≤ n) {p : Id} {f : Func} {vs : List Val} {mem : List Val} {w0 w : ω} {v0 x : Val} {pw : Bytes} {cap : Nat}
    (p0 : v0.refers 2 = false) (p1 : v1.refers 2 = false) (hx : x.refers 2 = false)
    (h : inner (interp (repo S) n) p f vs ⟨[v0, v1], 2, [], w0⟩ = .ok [x] ⟨v0 :: v1 :: mem, 2, wipe, w⟩)
    (eb : Loc.get (v0 :: v1 :: mem) ⟨30, []⟩ = some (.slice ⟨32, []⟩ 0 pw.length cap))
    (ep : Loc.get (v0 :: v1 :: mem) ⟨32, []⟩ = some (.arr (byteVals pw))) :
    (interp (repo S) (n + 1)).call p f vs ⟨[v0, v1], 2, [], w0⟩ = .ok [x] ⟨[v0, v1], 2, [], w⟩ := by
  obtain ⟨m, k1, k2⟩ := zero_in S (s := ⟨v0 :: v1 :: mem, 2, wipe, w⟩) (v0 := v0) (v1 := v1) ⟨rfl, rfl, p0, p1⟩ (lb := ⟨30, []⟩) (lp := ⟨32, []⟩)
    (by simp) (by simp) rfl eb ep hn
  show framed (body (repo S) (interp (repo S) n) p f vs) _ = _
  unfold framed
  have e := body_ok (P := repo S) h
  have u : (unwind (repo S) (interp (repo S) n) >>= fun _ => pure [x] : M ω (List Val)) ⟨v0 :: v1 :: mem, 2, wipe, w⟩ = .ok [x] ⟨m, 2, wipe, w⟩ := by
    refine (M.bind_ok (a := ()) (t := ⟨m, 2, wipe, w⟩) ?_).trans rfl
    unfold unwind
    refine (M.bind_ok (a := wipe) (t := ⟨v0 :: v1 :: mem, 2, wipe, w⟩) rfl).trans ?_
    unfold wipe runDefers
    exact (M.bind_ok k2).trans rfl
  rw [u] at e
  have t := take_of_set (k := 2) (by simp) k1
  simp only [List.length_cons, List.length_nil, e]
  rw [if_neg (by simp [Val.anyRefers, hx])]
  rw [t]
  rfl

theorem call_crashed {n : Nat} {p : Id} {f : Func} {vs : List Val} {v0 : Val} {w0 : ω} {t : St ω}
    (h : inner (interp (repo S) n) p f vs ⟨[v0, v1], 2, [], w0⟩ = .crash t) :
    ∃ t', (interp (repo S) (n + 1)).call p f vs ⟨[v0, v1], 2, [], w0⟩ = .crash t' ∧ t'.world = t.world := by
  refine ⟨⟨t.mem, 2, [], t.world⟩, ?_, rfl⟩
  show framed (body (repo S) (interp (repo S) n) p f vs) _ = _
  unfold framed
  have e := body_crash (P := repo S) h
  simp only [List.length_cons, List.length_nil, e]

/-- A system whose operations end with a result, an error or the end of the process. -/
structure Sys.Tame (S : Sys ω) : Prop where
  print : ∀ bs w, (S.print bs w).1 = .ok ()
  readFile : ∀ p w, (S.readFile p w).1 ≠ .panic
  writeFile : ∀ p bs k w, (S.writeFile p bs k w).1 ≠ .panic
  readPassword : ∀ w, (S.readPassword w).1 ≠ .panic

/-- The end of `Sign`, on any system. -/
def signRest (priv : Private) (p m s : Bytes) : Act ω Unit := do
  let msg ← S.readFile m
  S.writeFile s (DataFile.encode ⟨signComment p, B64.encode (priv.sign S.prims msg).encode⟩) 0o644

/-- `Sign` as the model says, on any system. -/
def signWithS (p m s : Bytes) : Act ω Unit := do
  let s' := if s = [] then m ++ b!".sig" else s
  let priv ← loadWith S readPrivateKeyData p
  if priv.isEncrypted then do
    S.print b!"Password: "
    let pw ← S.readPassword
    S.print [10]
    match Private.decrypt S.prims pw priv with
    | (r, priv') => do
      Act.ofRes r
      signRest S priv' p m s'
  else signRest S priv p m s'

theorem promptFunc_plain : promptFunc.refers 2 = false := rfl

/-- The file is read and the signature is written. -/
theorem sign_steps {s : St ω} {v0 v1 : Val} (G : Globals s v0 v1) (k : Nat) (hk : s.mem.length = k) (h25 : 25 < k) {priv : Private}
    (ek : Loc.get s.mem ⟨25, []⟩ = some (privateVal priv)) (p msg : Bytes) {n : Nat} (hn : 20 ≤ n) (w : ω) :
    callOf S n key.Private.sign [.ptr ⟨25, []⟩, .slice ⟨k, []⟩ 0 msg.length (byteVals msg).length] ⟨s.mem ++ msgOn k msg, s.base, s.defers, w⟩ =
        .ok [.ptr ⟨k + 4, []⟩, .nil] ⟨s.mem ++ msgOn k msg ++ sigOn k msg priv.key (priv.sign S.prims msg), s.base, s.defers, w⟩ ∧
      callOf S n signature.Signature.encode [.ptr ⟨k + 4, []⟩] ⟨s.mem ++ msgOn k msg ++ sigOn k msg priv.key (priv.sign S.prims msg) ++ nameOn k p, s.base, s.defers, w⟩ =
        .ok [.slice ⟨k + 16, []⟩ 0 74 (byteVals (priv.sign S.prims msg).encode).length]
          ⟨s.mem ++ msgOn k msg ++ sigOn k msg priv.key (priv.sign S.prims msg) ++ nameOn k p ++ bytesOn k (priv.sign S.prims msg), s.base, s.defers, w⟩ ∧
      ∀ s', Ends s.defers (S.writeFile s' (DataFile.encode ⟨signComment p, B64.encode (priv.sign S.prims msg).encode⟩) 0o644 w) id
        (fun _ w' r => r = .ok [.nil] ⟨s.mem ++ msgOn k msg ++ sigOn k msg priv.key (priv.sign S.prims msg) ++ nameOn k p ++ bytesOn k (priv.sign S.prims msg), s.base, s.defers, w'⟩)
        (fun e w' r => r = .ok [libErr e] ⟨s.mem ++ msgOn k msg ++ sigOn k msg priv.key (priv.sign S.prims msg) ++ nameOn k p ++ bytesOn k (priv.sign S.prims msg), s.base, s.defers, w'⟩)
        (callOf S n common.writeDataFile [.str s', .str (signComment p), .slice ⟨k + 16, []⟩ 0 74 (byteVals (priv.sign S.prims msg).encode).length]
          ⟨s.mem ++ msgOn k msg ++ sigOn k msg priv.key (priv.sign S.prims msg) ++ nameOn k p ++ bytesOn k (priv.sign S.prims msg), s.base, s.defers, w⟩) := by
  have h0 : s.mem[0]? = some v0 := G.first
  have h1 : s.mem[1]? = some v1 := G.second
  have gl : ∀ new : List Val, Globals (⟨s.mem ++ new, s.base, s.defers, w⟩ : St ω) v0 v1 := fun new =>
    ⟨by rw [List.getElem?_append_left (by omega)]; exact h0, by rw [List.getElem?_append_left (by omega)]; exact h1, G.plain0, G.plain1⟩
  have at' : ∀ (new : List Val) (i : Nat) (v : Val), new[i]? = some v → Loc.get (s.mem ++ new) ⟨k + i, []⟩ = some v := by
    intro new i v h
    unfold Loc.get
    rw [List.getElem?_append_right (by simp only; omega), show k + i - s.mem.length = i by omega, h]
    cases v <;> rfl
  have h25' : ∀ new : List Val, Loc.get (s.mem ++ new) ⟨25, []⟩ = some (privateVal priv) := fun new => by
    unfold Loc.get at ek ⊢
    rw [List.getElem?_append_left (by simp only; omega)]
    exact ek
  refine ⟨?_, ?_, fun s' => ?_⟩
  · refine (sign_in S (gl (msgOn k msg)) (lk := ⟨25, []⟩) (lm := ⟨k, []⟩) (by simp) (by simp only; omega) ?_ (h25' _)
      (at' _ 0 _ rfl) _ hn).trans ?_
    · unfold Loc.disjoint
      simp
      omega
    · simp only [List.length_append, hk, msgOn, List.length_cons, List.length_nil, sigOn, Nat.add_assoc, Nat.reduceAdd]
  · have e : s.mem ++ msgOn k msg ++ sigOn k msg priv.key (priv.sign S.prims msg) ++ nameOn k p =
        s.mem ++ (msgOn k msg ++ sigOn k msg priv.key (priv.sign S.prims msg) ++ nameOn k p) := by simp only [List.append_assoc]
    rw [e]
    refine (encode_in S (gl _) (l := ⟨k + 4, []⟩) (by simp only; omega) (at' _ 4 _ rfl) hn).trans ?_
    simp only [List.length_append, hk, msgOn, List.length_cons, List.length_nil, sigOn, nameOn, bytesOn, Nat.add_assoc, Nat.reduceAdd]
  · have e : s.mem ++ msgOn k msg ++ sigOn k msg priv.key (priv.sign S.prims msg) ++ nameOn k p ++ bytesOn k (priv.sign S.prims msg) =
        s.mem ++ (msgOn k msg ++ sigOn k msg priv.key (priv.sign S.prims msg) ++ nameOn k p ++ bytesOn k (priv.sign S.prims msg)) := by
      simp only [List.append_assoc]
    rw [e]
    have l : (priv.sign S.prims msg).encode.length = 74 := by
      simp [Signature.encode]
    have := writeData_in S (gl (msgOn k msg ++ sigOn k msg priv.key (priv.sign S.prims msg) ++ nameOn k p ++ bytesOn k (priv.sign S.prims msg)))
      (l := ⟨k + 16, []⟩) (by simp only; omega) s' (signComment p) (data := (priv.sign S.prims msg).encode) (at' _ 16 _ rfl)
      (byteVals (priv.sign S.prims msg).encode).length hn
    rw [l] at this
    exact this

theorem encrypted_iff (priv : Private) : priv.isEncrypted = true ↔ (priv.kdfRounds.toNat : Int) > 0 := by
  unfold Private.isEncrypted
  rw [decide_eq_true_iff]
  omega

theorem le_ok {x y : M ω (List Val)} (h : Le x y) {s t : St ω} {vs : List Val} (e : x s = .ok vs t) : y s = .ok vs t := by
  rcases h s with k | k
  · rw [e] at k; cases k
  · rw [k]; exact e

theorem le_panic {x y : M ω (List Val)} (h : Le x y) {s t : St ω} (e : x s = .panic t) : y s = .panic t := by
  rcases h s with k | k
  · rw [e] at k; cases k
  · rw [k]; exact e

theorem le_crash {x y : M ω (List Val)} (h : Le x y) {s t : St ω} (e : x s = .crash t) : y s = .crash t := by
  rcases h s with k | k
  · rw [e] at k; cases k
  · rw [k]; exact e

/-- `Sign(privatePath, messagePath, signaturePath string) error`, key.go:198-244. -/
theorem sign_text (T : S.Tame) (p1 : v1.refers 2 = false) (p m s : Bytes) (w : ω) {n : Nat} (hn : fuelFor (S.readFile p w) + 20 ≤ n) :
    Agrees (signWithS S p m s w) id
      (fun _ w' r => r = .ok [.nil] ⟨[promptFunc, v1], 2, [], w'⟩)
      (fun e w' r => ∃ v, Says e v ∧ r = .ok [v] ⟨[promptFunc, v1], 2, [], w'⟩)
      ((interp (repo S) n).call id!"signify" key.Sign [.str p, .str m, .str s] ⟨[promptFunc, v1], 2, [], w⟩) := by
  have hs : SigPath m s (if s = [] then m ++ b!".sig" else s) := by
    by_cases h : s = []
    · exact .inl ⟨h, if_pos h⟩
    · exact .inr ⟨h, if_neg h⟩
  unfold signWithS
  simp only
  generalize (if s = [] then m ++ b!".sig" else s) = s' at *
  have p0 := promptFunc_plain
  have fa := fuelFor_ge (S.readFile p w)
  obtain ⟨n, rfl⟩ : ∃ k, n = k + 1 := ⟨n - 1, by omega⟩
  have lei := (interpK_le (signK_sound S (n - 19)) 19).trans (interp_mono (.refl (repo S)) (show 19 + (n - 19) ≤ n by omega))
  have le := (interpK_le (signK_sound S (n - 19)) 20).trans (interp_mono (.refl (repo S)) (show 20 + (n - 19) ≤ n + 1 by omega))
  have cle := le.call id!"signify" key.Sign [.str p, .str m, .str s]
  have ile := inner_mono lei id!"signify" key.Sign [.str p, .str m, .str s]
  rw [Act.bind_eq]
  have hL := load_in S (fun a => privateVal_plain a 0) (s := ⟨startMem promptFunc v1 p m s', 2, [], w⟩) (v0 := promptFunc) (v1 := v1) ⟨rfl, rfl, p0, p1⟩
    (loadPrivate_run S promptFunc v1 p0 p1 p w (n := n - 19) (by omega) (fuelFor_ok (by omega)))
  rcases hl : loadWith S readPrivateKeyData p w with ⟨priv | e | _ | _ | _, w1⟩
  · rw [hl] at hL
    obtain ⟨new, h1, h2, h3, hL⟩ := hL
    obtain ⟨pre, post, rfl⟩ := pub_shape (k := 2) h1 h2
    simp only
    by_cases he : priv.isEncrypted = true
    · rw [if_pos he]
      replace he := (encrypted_iff priv).1 he
      rw [Act.bind_eq]
      have t1 := T.print b!"Password: " w1
      rcases ha : S.print b!"Password: " w1 with ⟨r, w2⟩
      rw [ha] at t1
      cases t1
      simp only
      rw [Act.bind_eq]
      have t2 := T.readPassword w2
      rcases hb : S.readPassword w2 with ⟨pw | e | _ | _ | _, w3⟩
      · simp only
        rw [Act.bind_eq]
        have t3 := T.print [10] w3
        rcases hc : S.print [10] w3 with ⟨r, w4⟩
        rw [hc] at t3
        cases t3
        simp only
        have hD := decrypt_in S (s := ⟨startMem promptFunc v1 p m s' ++ privMem priv pre post ++ askMem .nil .nil pw, 2, wipe, w4⟩)
          (v0 := promptFunc) (v1 := v1) ⟨rfl, rfl, p0, p1⟩ (lk := ⟨25, []⟩) (lp := ⟨32, []⟩) (by simp) (by simp) rfl
          (priv := priv) (pw := pw) rfl rfl (byteVals pw).length (n := n - 19) (by omega)
        unfold Decrypts at hD
        rcases hd : Private.decrypt S.prims pw priv with ⟨u | e | _ | _ | _, priv'⟩
        · rw [hd] at hD
          obtain ⟨mm, d1, hD⟩ := hD
          cases (show Loc.set _ _ _ = some (startMem promptFunc v1 p m s' ++ privMem priv' pre post ++ askMem .nil .nil pw) from rfl).symm.trans d1
          show Agrees (signRest S priv' p m s' w4) _ _ _ _
          unfold signRest
          rw [Act.bind_eq]
          have t4 := T.readFile m w4
          rcases hR : S.readFile m w4 with ⟨msg | e | _ | _ | _, w5⟩
          · simp only
            obtain ⟨hG, hE, hW⟩ := sign_steps S (s := ⟨startMem promptFunc v1 p m s' ++ privMem priv' pre post ++ askMem .nil .nil pw, 2, wipe, w5⟩)
              (v0 := promptFunc) (v1 := v1) ⟨rfl, rfl, p0, p1⟩ 36 rfl (by omega) (priv := priv') rfl p msg (n := n - 19) (by omega) w5
            replace hW := hW s'
            have t5 := T.writeFile s' (DataFile.encode ⟨signComment p, B64.encode (priv'.sign S.prims msg).encode⟩) 0o644 w5
            rcases hw : S.writeFile s' (DataFile.encode ⟨signComment p, B64.encode (priv'.sign S.prims msg).encode⟩) 0o644 w5 with ⟨u | e | _ | _ | _, w6⟩
            · rw [hw] at hW
              exact call_wiped S v1 (by omega) p0 p1 rfl (le_ok ile (enc3_ok S v1 _ _ _ _ _ hs hL he ha hb hc hD hR hG hE hW)) rfl rfl
            · rw [hw] at hW
              exact ⟨_, .inl rfl, call_wiped S v1 (by omega) p0 p1 rfl (le_ok ile (enc3_err S v1 _ _ _ _ _ hs hL he ha hb hc hD hR hG hE hW)) rfl rfl⟩
            · rw [hw] at t5
              exact absurd rfl t5
            · rw [hw] at hW
              obtain ⟨⟨l, b, df, w'⟩, k1, k2⟩ := hW
              cases k2
              obtain ⟨t, k3, k4⟩ := enc3_crash S v1 _ _ _ _ _ hs hL he ha hb hc hD hR hG hE k1
              obtain ⟨t', k5, k6⟩ := call_crashed S v1 (le_crash ile k3)
              exact ⟨t', k5, k6.trans k4⟩
            · trivial
          · exact ⟨_, .inl rfl, call_wiped S v1 (by omega) p0 p1 rfl (le_ok ile (enc2_err S v1 _ _ _ _ _ hs hL he ha hb hc hD hR)) rfl rfl⟩
          · rw [hR] at t4
            exact absurd rfl t4
          · obtain ⟨t, k3, k4⟩ := enc2_crash S v1 _ _ _ _ _ hs hL he ha hb hc hD hR
            obtain ⟨t', k5, k6⟩ := call_crashed S v1 (le_crash ile k3)
            exact ⟨t', k5, k6.trans k4⟩
          · trivial
        · rw [hd] at hD
          obtain ⟨v, m1, mm, d1, hD⟩ := hD
          cases (show Loc.set _ _ _ = some (startMem promptFunc v1 p m s' ++ privMem priv' pre post ++ askMem .nil .nil pw) from rfl).symm.trans d1
          obtain ⟨x, rfl⟩ := m1.err
          exact ⟨_, m1, call_wiped S v1 (by omega) p0 p1 rfl (le_ok ile (dec_err S v1 _ _ _ _ _ hs hL he ha hb hc hD)) rfl rfl⟩
        · rw [hd] at hD
          exact hD.elim
        · rw [hd] at hD
          exact hD.elim
        · rw [hd] at hD
          exact hD.elim
      · exact ⟨_, .inl rfl, le_ok cle (ask_err S v1 _ _ _ _ _ hs hL he ha hb)⟩
      · rw [hb] at t2
        exact absurd rfl t2
      · obtain ⟨t, k1, k2⟩ := ask_crash S v1 _ _ _ _ _ hs hL he ha hb
        exact ⟨t, le_crash cle k1, k2⟩
      · trivial
    · rw [if_neg he]
      replace he : ¬(priv.kdfRounds.toNat : Int) > 0 := fun h => he ((encrypted_iff priv).2 h)
      unfold signRest
      rw [Act.bind_eq]
      have t4 := T.readFile m w1
      rcases hR : S.readFile m w1 with ⟨msg | e | _ | _ | _, w2⟩
      · simp only
        obtain ⟨hG, hE, hW⟩ := sign_steps S (s := ⟨startMem promptFunc v1 p m s' ++ privMem priv pre post ++ [.ptr ⟨25, []⟩, .nil], 2, [], w2⟩)
          (v0 := promptFunc) (v1 := v1) ⟨rfl, rfl, p0, p1⟩ 30 rfl (by omega) (priv := priv) rfl p msg (n := n - 19) (by omega) w2
        replace hW := hW s'
        have t5 := T.writeFile s' (DataFile.encode ⟨signComment p, B64.encode (priv.sign S.prims msg).encode⟩) 0o644 w2
        rcases hw : S.writeFile s' (DataFile.encode ⟨signComment p, B64.encode (priv.sign S.prims msg).encode⟩) 0o644 w2 with ⟨u | e | _ | _ | _, w6⟩
        · rw [hw] at hW
          exact le_ok cle (plain3_ok S v1 _ _ _ _ _ hs hL he hR hG hE hW)
        · rw [hw] at hW
          exact ⟨_, .inl rfl, le_ok cle (plain3_err S v1 _ _ _ _ _ hs hL he hR hG hE hW)⟩
        · rw [hw] at t5
          exact absurd rfl t5
        · rw [hw] at hW
          obtain ⟨⟨l, b, df, w'⟩, k1, k2⟩ := hW
          cases k2
          obtain ⟨t, k3, k4⟩ := plain3_crash S v1 _ _ _ _ _ hs hL he hR hG hE k1
          exact ⟨t, le_crash cle k3, k4⟩
        · trivial
      · exact ⟨_, .inl rfl, le_ok cle (plain2_err S v1 _ _ _ _ _ hs hL he hR)⟩
      · rw [hR] at t4
        exact absurd rfl t4
      · obtain ⟨t, k1, k2⟩ := plain2_crash S v1 _ _ _ _ _ hs hL he hR
        exact ⟨t, le_crash cle k1, k2⟩
      · trivial
  · rw [hl] at hL
    obtain ⟨v, m1, hL⟩ := hL
    obtain ⟨x, rfl⟩ := m1.err
    exact ⟨_, m1, le_ok cle (sign1_err S v1 _ _ _ _ _ hs hL)⟩
  · rw [hl] at hL
    obtain ⟨⟨l, b, df, w'⟩, k1, k2, k3⟩ := hL
    cases k2
    cases k3
    obtain ⟨t, k4, k5, k6⟩ := sign1_panic S v1 _ _ _ _ _ hs k1
    exact ⟨t, le_panic cle k4, k5, k6⟩
  · rw [hl] at hL
    obtain ⟨⟨l, b, df, w'⟩, k1, k2⟩ := hL
    cases k2
    obtain ⟨t, k4, k5⟩ := sign1_crash S v1 _ _ _ _ _ hs k1
    exact ⟨t, le_crash cle k4, k5⟩
  · trivial

end Verif.Src
