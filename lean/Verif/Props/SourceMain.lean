/-
C113: the Go text of the command `psignify` does what the model does.
-/
import Verif.Source.CmdMain
import Verif.Props.SourceSeal
import Verif.Props.SourceOpen
import Verif.Props.SourcePrompt
import Verif.Props.CommandLine

namespace Verif.Src

open Verif.Props Spec World

/-! ### The parts of `main` put together -/

/-- A call: its parameters, the first statements, and the rest. -/
theorem call_split {ω : Type} {P : Prog ω} {I : Interp ω} {p : Id} {f : Func} {vs : List Val} {s s1 : St ω} {env : Env} {r : R ω Ctl}
    (h1 : (params [] (f.recv.toList ++ f.params) vs >>= fun env => namedResults I ⟨p, env⟩ env f.results)
      { s with base := s.mem.length, defers := [] } = .ok env s1)
    (e : execs I ⟨p, env⟩ f.body s1 = r) :
    (I.succ P).call p f vs s = finish P I f env s r := by
  show framed (body P I p f vs) s = _
  unfold finish framed
  have : body P I p f vs { s with base := s.mem.length, defers := [] } =
      (onPanic (unwind P I) ((fun _ => r : M ω Ctl) >>= fun x => results f env x) >>=
        fun rs => unwind P I >>= fun _ => pure rs) { s with base := s.mem.length, defers := [] } := by
    unfold body
    change M.bind _ _ _ = _ at h1
    show M.bind _ _ _ = _
    unfold M.bind at h1 ⊢
    cases e1 : (params [] (f.recv.toList ++ f.params) vs : M ω Env) { s with base := s.mem.length, defers := [] } with
    | ok a u =>
      rw [e1] at h1
      refine (M.bind_ok h1).trans ?_
      show M.bind _ _ _ = M.bind _ _ _
      unfold M.bind
      have : onPanic (unwind P I) (execs I ⟨p, env⟩ f.body >>= fun r => results f env r) s1 =
          onPanic (unwind P I) ((fun _ => r : M ω Ctl) >>= fun x => results f env x)
            { s with base := s.mem.length, defers := [] } := by
        unfold onPanic
        have : (execs I ⟨p, env⟩ f.body >>= fun r => results f env r) s1 =
          ((fun _ => r : M ω Ctl) >>= fun x => results f env x)
            { s with base := s.mem.length, defers := [] } := by
          show M.bind _ _ _ = M.bind _ _ _
          unfold M.bind
          rw [e]
        rw [this]
      erw [this]
    | panic u => rw [e1] at h1; cases h1
    | crash u => rw [e1] at h1; cases h1
    | stuck => rw [e1] at h1; cases h1
  rw [this]

section
variable (U : Cmd) (P : Prims) (n : Nat) (w : World)

/-- The path that `main` uses for the private key. -/
def privUsed : Bytes :=
  if (flagsOf U).privKeyFile = [] ∧ defaultKeyBase U.join U.user ≠ [] then defaultKeyBase U.join U.user ++ b!".sec" else (flagsOf U).privKeyFile

/-- The path that `main` uses for the public key. -/
def pubUsed : Bytes :=
  if (flagsOf U).pubKeyFile = [] ∧ defaultKeyBase U.join U.user ≠ [] then defaultKeyBase U.join U.user ++ b!".pub" else (flagsOf U).pubKeyFile

/-- Memory before the last statement. -/
noncomputable def memOf (f : Flags) (pub priv : Bytes) : List Val :=
  lastMem U promptF pub priv f.messageFile f.encryptedFile f.signatureFile (defaultKeyBase U.join U.user) f.noPass f.decrypt f.encrypt f.generate f.sign f.verify

theorem main_last : outcome (mainRun U P n w) =
    lastOut U (linked U P n) w (memOf U (flagsOf U) (pubUsed U) (privUsed U)) w mainVars := by
  have h1 := main_flags U (linked U P n) promptFunc defaultOpts (.arr [.str U.arg0]) w
  have h2 := main_paths U (linked U P n) promptFunc defaultOpts (.arr [.str U.arg0]) (.str (flagsOf U).messageFile) (.str (flagsOf U).encryptedFile)
    (.str (flagsOf U).signatureFile) (.bool (flagsOf U).noPass) (.bool (flagsOf U).decrypt) (.bool (flagsOf U).encrypt) (.bool (flagsOf U).generate)
    (.bool (flagsOf U).sign) (.bool (flagsOf U).verify) (defaultKeyBase U.join U.user) (flagsOf U).pubKeyFile (pubUsed U) (flagsOf U).privKeyFile (privUsed U)
    mainVars w (base_run U _ _ _ _ _ _ _ _ _ _ _ _ _ _ _ _) KeyPath.ite KeyPath.ite
  have h3 : execs (interpC (cmd U) (linked U P n) 19) ⟨id!"main", []⟩ cmdmain.main.body (startOf U w) = _ := execs_split 23 h1 (execs_split 3 h2 rfl)
  exact congrArg outcome (call_split (P := cmd U) (I := interpC (cmd U) (linked U P n) 19) (p := id!"main") (f := cmdmain.main) (vs := []) (s := startOf U w)
    (s1 := startOf U w) (env := []) rfl h3)

/-- What a call in the world of a process gives, from the call in the world. -/
def toProc (x : List (Bytes × Val × Loc) × Option Nat) : R World (List Val) → R Proc (List Val)
  | .ok a t => .ok a ⟨t.mem, t.base, t.defers, (t.world, x)⟩
  | .panic t => .panic ⟨t.mem, t.base, t.defers, (t.world, x)⟩
  | .crash t => .crash ⟨t.mem, t.base, t.defers, (t.world, x)⟩
  | .stuck => .stuck

theorem linked_eq {p : Id} (h : p ≠ id!"main") (f : Func) (vs : List Val) (m : List Val) (b : Nat) (d : List Deferred) (w : World)
    (x : List (Bytes × Val × Loc) × Option Nat) :
    linked U P n p f vs ⟨m, b, d, (w, x)⟩ = toProc x ((interp (repo (worldSys P)) n).call p f vs ⟨m, b, d, w⟩) := by
  unfold linked
  rw [if_neg h]
  unfold inProc
  rcases (interp (repo (worldSys P)) n).call p f vs ⟨m, b, d, w⟩ with ⟨_, _⟩ | _ | _ | _ <;> rfl

end

/-! ### Errors and their texts -/

/-- An error value that stands for an error of the model: one of those that the packages return. -/
def Told (e : GoErr) (v : Val) : Prop := Heard e v ∨ v = promptErrVal e

theorem Told.err {e : GoErr} {v : Val} (h : Told e v) : ∃ x, v = .err x := by
  rcases h with h | rfl
  · exact h.err
  · cases e <;> exact ⟨_, rfl⟩

theorem Told.lib (e : GoErr) : Told e (libErr e) := .inl (.inl (.inl (.inl rfl)))

/-- The error in a value. -/
def errIn : Val → EVal
  | .err x => x
  | _ => .lib .io

/-- The texts of the errors of the model are texts of error values that stand for them. -/
def Texts (U : Cmd) (T : GoErr → Bytes) : Prop := ∀ e, ∃ x, Told e (.err x) ∧ T e = U.errText x

theorem texts_default (U : Cmd) : Texts U fun e => U.errText (errIn (libErr e)) := fun e => by
  obtain ⟨x, hx⟩ := (Told.lib e).err
  refine ⟨x, hx ▸ Told.lib e, ?_⟩
  simp only [hx]
  rfl

theorem texts_at (U : Cmd) {e : GoErr} {x : EVal} (h : Told e (.err x)) : ∃ T, Texts U T ∧ T e = U.errText x := by
  classical
  refine ⟨fun e' => if e' = e then U.errText x else U.errText (errIn (libErr e')), fun e' => ?_, if_pos rfl⟩
  by_cases k : e' = e
  · subst k
    exact ⟨x, h, if_pos rfl⟩
  · simp only [if_neg k]
    exact texts_default U e'

/-- The outcome is that of the model, for some texts of errors, apart from what the model records of passphrases. -/
def Like (U : Cmd) (w : World) (o : Option (Exit × World)) (model : (GoErr → Bytes) → Exit × World) : Prop :=
  ∃ T, Texts U T ∧ ∃ v, o = some ((model T).1, v) ∧ recordOf w v = recordOf w (model T).2

theorem print_nil (w : World) : w.print [] = w := by simp [World.print]

theorem record_print {w v v' : World} (h : recordOf w v = recordOf w v') (m : Bytes) : recordOf w (v.print m) = recordOf w (v'.print m) :=
  congrArg (fun u : World => u.print m) h

theorem record_eprint {w v v' : World} (h : recordOf w v = recordOf w v') (m : Bytes) : recordOf w (v.eprint m) = recordOf w (v'.eprint m) :=
  congrArg (fun u : World => u.eprint m) h

theorem like_const {U : Cmd} {w v : World} {o : Option (Exit × World)} {x : Exit} {model : (GoErr → Bytes) → Exit × World} (h : o = some (x, v))
    (k : ∀ T, model T = (x, v)) : Like U w o model :=
  ⟨_, texts_default U, v, by rw [h, k], by rw [k]⟩

/-- The branches of `main` have the same form. -/
theorem like_op {U : Cmd} {w wm : World} {op : Act World Unit} {wd : World → World} (hwd : ∀ w', recordOf w (wd w') = recordOf w w') {r : R World (List Val)}
    {mem : List Val} (nohang : (op wm).1 ≠ .hang)
    (c : Ends [] (op wm) wd (fun _ w' r => r = .ok [.nil] ⟨mem, 3, [], wd w'⟩) (fun e w' r => ∃ v, Told e v ∧ r = .ok [v] ⟨mem, 3, [], wd w'⟩) r)
    {o : Option (Exit × World)} {okMsg : Bytes} {errMsg : Bytes → Bytes}
    (h1 : ∀ w', r = .ok [.nil] ⟨mem, 3, [], w'⟩ → o = some (.status 0, w'.print okMsg))
    (h2 : ∀ x w', r = .ok [.err x] ⟨mem, 3, [], w'⟩ → o = some (.status 1, w'.eprint (errMsg (U.errText x))))
    (h3 : ∀ m b w', r = .panic ⟨m, b, [], w'⟩ → o = some (.status 2, w'))
    (h4 : ∀ m b d w', r = .crash ⟨m, b, d, w'⟩ → o = some (.crash, w')) :
    Like U w o fun T => orExit op (fun e => errMsg (T e)) (done okMsg) wm := by
  unfold Like orExit
  rcases ho : op wm with ⟨a | e | _ | _ | _, w'⟩ <;> rw [ho] at c nohang
  · exact ⟨_, texts_default U, _, h1 _ c, record_print (hwd w') _⟩
  · obtain ⟨v, hv, c⟩ := c
    obtain ⟨x, rfl⟩ := hv.err
    obtain ⟨T, hT, hx⟩ := texts_at U hv
    refine ⟨T, hT, _, h2 x _ c, ?_⟩
    rw [← hx]
    exact record_eprint (hwd w') _
  · obtain ⟨⟨m, b, d, v⟩, c, e1, e2⟩ := c
    subst e1 e2
    exact ⟨_, texts_default U, _, h3 _ _ _ c, hwd w'⟩
  · obtain ⟨⟨m, b, d, v⟩, c, e1⟩ := c
    subst e1
    exact ⟨_, texts_default U, _, h4 _ _ _ _ c, hwd w'⟩
  · exact absurd rfl nohang

theorem returns_noHang {σ α : Type} {a : Act σ α} (h : a.Returns) (s : σ) : (a s).1 ≠ .hang := by
  intro k
  rcases h s with h | h
  · rw [k] at h
    simp [Res.Clean] at h
  · rw [k] at h
    cases h

theorem bind_noHang {σ α β : Type} {a : Act σ α} {f : α → Act σ β} (h : ∀ s, (a s).1 ≠ .hang) (k : ∀ x s, (f x s).1 ≠ .hang) (s : σ) : ((a >>= f) s).1 ≠ .hang := by
  rw [Act.bind_eq]
  have h := h s
  rcases hr : a s with ⟨x | e | _ | _ | _, t⟩ <;> rw [hr] at h
  · exact k x t
  · simp
  · simp
  · simp
  · exact absurd rfl h

theorem Verify_noHang (P : Prims) (p m s : Path) (w : World) : (Verify P p m s w).1 ≠ .hang := by
  unfold Verify
  refine bind_noHang (returns_noHang (loadPublicKey_returns p)) (fun pub => bind_noHang (returns_noHang (readFile_returns m)) fun msg => bind_noHang (fun w => ?_) fun sig w => ?_) w
  · unfold readSignaturePath
    refine bind_noHang (returns_noHang (readFile_returns _)) (fun bs w => ?_) w
    show readSignatureFile bs ≠ .hang
    unfold readSignatureFile
    rcases dataFile_clean bs with ⟨d, hd⟩ | ⟨e, hd⟩ <;> rw [hd]
    · rw [Res.bind_ok]
      unfold readSignatureData
      split <;> simp
    · simp
  · show pub.verify P msg sig ≠ .hang
    unfold Public.verify
    split
    · unfold Public.verifyEd25519
      repeat' split
      all_goals simp
    · simp

theorem Sees.entropy (n : Nat) : Sees (World.entropy n) (World.entropy n) := by
  intro u w
  unfold World.entropy recordOf
  simp only
  split <;> rfl

theorem Sees.GenerateKey (P : Prims) (base : Path) (pw : Bytes) (o : Option Int) : Sees (Verif.GenerateKey P base pw o) (Verif.GenerateKey P base pw o) := by
  unfold Verif.GenerateKey GenerateKeypair writeDataFile
  exact Sees.bind (Sees.bind (.entropy _) fun _ => Sees.bind (.entropy _) fun _ => Sees.bind (.entropy _) fun _ => .ofRes _) fun a =>
    Sees.bind (.writeFile _ _ _) fun _ => .writeFile _ _ _

/-! ### The branches -/

section
variable (U : Cmd) (P : Prims) (w : World) (pub priv msg enc sig kb : Bytes) (n d e g s v : Bool)

theorem globals_last (w : World) (m : List Val) : Globals (⟨lastMem U promptF pub priv msg enc sig kb n d e g s v ++ m, 3, [], w⟩ : St World) promptFunc defaultOpts :=
  ⟨rfl, rfl, rfl, rfl⟩

/-- `-S`. -/
theorem like_sign : ∃ N, ∀ k, N ≤ k → Like U w (lastOut U (linked U P k) w (lastMem U promptF pub priv msg enc sig kb n d e false true v) w mainVars) fun T =>
    if priv = [] ∨ msg = [] then (.status 1, w.eprint b!"Signing requires a message and private key.\n")
    else orExit (Sign P priv msg sig) (fun er => b!"Signing " ++ msg ++ b!" failed: " ++ T er ++ b!"\n") (done []) w := by
  obtain ⟨N, hN⟩ := C108_Sign P (globals_last U pub priv msg enc sig kb n d e false true v w []) priv msg sig
  refine ⟨N, fun k hk => ?_⟩
  by_cases h1 : priv = []
  · exact like_const (main_sign_priv U _ _ _ _ _ _ _ _ _ _ _ _ _ _ _ h1) fun _ => if_pos (.inl h1)
  · by_cases h2 : msg = []
    · exact like_const (main_sign_msg U _ _ _ _ _ _ _ _ _ _ _ _ _ _ _ h1 h2) fun _ => if_pos (.inr h2)
    · simp only [h1, h2, or_self, if_false]
      have c := hN k hk
      refine like_op (errMsg := fun t => b!"Signing " ++ msg ++ b!" failed: " ++ t ++ b!"\n") (wd := recordOf w) (fun _ => rfl)
        (returns_noHang (Sign_returns P priv msg sig) w) (c.mono (fun _ _ h => h) fun er w' ⟨v, hv, h⟩ => ⟨v, .inl (.inl (.inl hv)), h⟩) ?_ ?_ ?_ ?_
      · intro w' hr
        rw [print_nil]
        refine main_sign_ok U _ _ _ _ _ _ _ _ _ _ _ _ _ _ w' _ h1 h2 ?_
        rw [linked_eq U P k (by decide)]
        exact congrArg (toProc _) hr
      · intro x w' hr
        refine (main_sign_err U _ _ _ _ _ _ _ _ _ _ _ _ _ _ w' _ h1 h2 x ?_).trans ?_
        · rw [linked_eq U P k (by decide)]
          exact congrArg (toProc _) hr
        · simp only [List.append_assoc]
      · intro m b w' hr
        refine main_sign_panic U _ _ _ _ _ _ _ _ _ _ _ _ _ _ w' _ h1 h2 m b ?_
        rw [linked_eq U P k (by decide)]
        exact congrArg (toProc _) hr
      · intro m b d' w' hr
        refine main_sign_crash U _ _ _ _ _ _ _ _ _ _ _ _ _ _ w' _ h1 h2 m b d' ?_
        rw [linked_eq U P k (by decide)]
        exact congrArg (toProc _) hr

/-- `-V`. -/
theorem like_verify : ∃ N, ∀ k, N ≤ k → Like U w (lastOut U (linked U P k) w (lastMem U promptF pub priv msg enc sig kb n d e false false true) w mainVars) fun _ =>
    orExit (Verify P pub msg sig) (fun _ => msg ++ b!": invalid signature\n") (done (msg ++ b!": OK\n")) w := by
  obtain ⟨N, hN⟩ := C107_Verify P (globals_last U pub priv msg enc sig kb n d e false false true w []) pub msg sig
  refine ⟨N, fun k hk => ?_⟩
  refine like_op (errMsg := fun _ => msg ++ b!": invalid signature\n") (wd := id) (fun _ => rfl)
    (Verify_noHang P pub msg sig w) ((hN k hk).mono (fun _ _ h => h) fun er w' ⟨v, hv, h⟩ => ⟨v, .inl (.inl (.inl hv)), h⟩) ?_ ?_ ?_ ?_
  · intro w' hr
    refine main_verify_ok (w' := w') (hC := ?_) ..
    rw [linked_eq U P k (by decide)]
    exact congrArg (toProc _) hr
  · intro x w' hr
    refine main_verify_err (w' := w') (x := x) (hC := ?_) ..
    rw [linked_eq U P k (by decide)]
    exact congrArg (toProc _) hr
  · intro m b w' hr
    refine main_verify_panic (w' := w') (m' := m) (b' := b) (hC := ?_) ..
    rw [linked_eq U P k (by decide)]
    exact congrArg (toProc _) hr
  · intro m b d' w' hr
    refine main_verify_crash (w' := w') (m' := m) (b' := b) (d' := d') (hC := ?_) ..
    rw [linked_eq U P k (by decide)]
    exact congrArg (toProc _) hr

/-- `-E`. -/
theorem like_seal (hm : sizeOf w msg < 2 ^ 62) :
    ∃ N, ∀ k, N ≤ k → Like U w (lastOut U (linked U P k) w (lastMem U promptF pub priv msg enc sig kb n d true false false false) w mainVars) fun T =>
    orExit (Seal P pub msg enc) (fun er => T er ++ b!"\n") (done (msg ++ b!": OK\n")) w := by
  refine ⟨sealFuel w pub msg, fun k hk => ?_⟩
  have c := C110_Seal P (globals_last U pub priv msg enc sig kb n d true false false false w []) pub msg enc hm hk
  refine like_op (errMsg := fun t => t ++ b!"\n") (wd := id) (fun _ => rfl)
    (returns_noHang (Seal_returns P pub msg enc) w) (c.mono (fun _ _ h => h) fun er w' ⟨v, hv, h⟩ => ⟨v, .inl (.inl hv), h⟩) ?_ ?_ ?_ ?_
  · intro w' hr
    refine main_seal_ok (w' := w') (hC := ?_) ..
    rw [linked_eq U P k (by decide)]
    exact congrArg (toProc _) hr
  · intro x w' hr
    refine main_seal_err (w' := w') (x := x) (hC := ?_) ..
    rw [linked_eq U P k (by decide)]
    exact congrArg (toProc _) hr
  · intro m b w' hr
    refine main_seal_panic (w' := w') (m' := m) (b' := b) (hC := ?_) ..
    rw [linked_eq U P k (by decide)]
    exact congrArg (toProc _) hr
  · intro m b d' w' hr
    refine main_seal_crash (w' := w') (m' := m) (b' := b) (d' := d') (hC := ?_) ..
    rw [linked_eq U P k (by decide)]
    exact congrArg (toProc _) hr

/-- `-D`. -/
theorem like_open : ∃ N, ∀ k, N ≤ k → Like U w (lastOut U (linked U P k) w (lastMem U promptF pub priv msg enc sig kb n true false false false false) w mainVars) fun T =>
    orExit (Open P (readsFor w enc) priv enc msg) (fun er => T er ++ b!"\n") (done (enc ++ b!": OK\n")) w := by
  refine ⟨openFuel w priv enc, fun k hk => ?_⟩
  have c := C111_Open P (globals_last U pub priv msg enc sig kb n true false false false false w []) priv enc msg hk
  have hq := Open_returns P (readsFor w enc) priv enc msg w readsFor_ok
  refine like_op (errMsg := fun t => t ++ b!"\n") (wd := recordOf w) (fun _ => rfl)
    (fun h => ?_) (c.mono (fun _ _ h => h) fun er w' ⟨v, hv, h⟩ => ⟨v, .inl hv, h⟩) ?_ ?_ ?_ ?_
  · rw [h] at hq
    rcases hq with hq | hq
    · simp [Res.Clean] at hq
    · cases hq
  · intro w' hr
    refine main_open_ok (w' := w') (hC := ?_) ..
    rw [linked_eq U P k (by decide)]
    exact congrArg (toProc _) hr
  · intro x w' hr
    refine main_open_err (w' := w') (x := x) (hC := ?_) ..
    rw [linked_eq U P k (by decide)]
    exact congrArg (toProc _) hr
  · intro m b w' hr
    refine main_open_panic (w' := w') (m' := m) (b' := b) (hC := ?_) ..
    rw [linked_eq U P k (by decide)]
    exact congrArg (toProc _) hr
  · intro m b d' w' hr
    refine main_open_crash (w' := w') (m' := m) (b' := b) (d' := d') (hC := ?_) ..
    rw [linked_eq U P k (by decide)]
    exact congrArg (toProc _) hr

/-- No operation. -/
theorem like_none (k : Nat) : Like U w (lastOut U (linked U P k) w (lastMem U promptF pub priv msg enc sig kb n false false false false false) w mainVars) fun _ =>
    (.status 1, w.eprint (usageText U.arg0)) := by
  refine like_const (main_none (hC := ?_) ..) fun _ => rfl
  exact usage_run U _ _ _ _ _ _ _ _ _ _ _ _ _ _ _ _ _

/-- `-G` with `-n`. -/
theorem like_generate (h : ¬pub = []) (k : Nat) (hk : 40 ≤ k) :
    Like U w (lastOut U (linked U P k) w (lastMem U promptF pub priv msg enc sig kb true d e true s v) w mainVars) fun T =>
    orExit (GenerateKey P pub [] none) (fun er => b!"Failed to generate keypair: " ++ T er ++ b!"\n") (done []) w := by
  have c := C109_GenerateKey P (globals_last U pub priv msg enc sig kb true d e true s v w [.nil, .nil]) .none pub hk
  refine like_op (errMsg := fun t => b!"Failed to generate keypair: " ++ t ++ b!"\n") (wd := id) (fun _ => rfl)
    (returns_noHang (GenerateKey_returns P pub [] none) w) (c.mono (fun _ _ h => h) fun er w' h => ⟨_, Told.lib er, h⟩) ?_ ?_ ?_ ?_
  · intro w' hr
    rw [print_nil]
    refine main_gen_ok (w' := w') (h := h) (hC := ?_) ..
    rw [linked_eq U P k (by decide)]
    exact congrArg (toProc _) hr
  · intro x w' hr
    refine (main_gen_err (w' := w') (h := h) (x := x) (hC := ?_) ..).trans ?_
    · rw [linked_eq U P k (by decide)]
      exact congrArg (toProc _) hr
    · simp only [List.append_assoc]
  · intro m b w' hr
    refine main_gen_panic (w' := w') (h := h) (m' := m) (b' := b) (hC := ?_) ..
    rw [linked_eq U P k (by decide)]
    exact congrArg (toProc _) hr
  · intro m b d' w' hr
    refine main_gen_crash (w' := w') (h := h) (m' := m) (b' := b) (d' := d') (hC := ?_) ..
    rw [linked_eq U P k (by decide)]
    exact congrArg (toProc _) hr

theorem get_same {m m' : List Val} {l : Loc} (h : m[l.blk]? = m'[l.blk]?) : l.get m = l.get m' := by
  unfold Loc.get
  rw [h]

/-- `-G` without `-n`. -/
theorem like_ask (h : ¬pub = []) (k : Nat) (hk : 40 ≤ k) :
    Like U w (lastOut U (linked U P k) w (lastMem U promptF pub priv msg enc sig kb false d e true s v) w mainVars) fun T =>
    orExit (passphrasePrompt true) (fun er => T er ++ b!"\n") (fun buf w => orExit (GenerateKey P pub (w.bufs.getD buf []) none)
      (fun er => b!"Failed to generate keypair: " ++ T er ++ b!"\n") (done []) w) w := by
  have c := C112_prompt P (globals_last U pub priv msg enc sig kb false d e true s v w [.nil, .nil]) true hk
  have hq := passphrasePrompt_returns true w
  have link := linked_eq U P k (p := id!"signify") (by decide) promptF [.bool true] (lastMem U promptF pub priv msg enc sig kb false d e true s v ++ [.nil, .nil]) 3 [] w
    (mainVars, none)
  rcases ho : passphrasePrompt true w with ⟨i | er | _ | _ | _, w1⟩ <;> rw [ho] at hq
  · rw [show passphrasePrompt true (St.world ⟨lastMem U promptF pub priv msg enc sig kb false d e true s v ++ [.nil, .nil], 3, [], w⟩) = _ from ho] at c
    obtain ⟨l, new, hl, hg, -, c⟩ := c
    have hA := link.trans (congrArg (toProc _) c)
    generalize hpw : w1.bufs.getD i [] = pw at c hA hg
    have hlen : (lastMem U promptF pub priv msg enc sig kb false d e true s v ++ [Val.nil, Val.nil]).length = 17 := rfl
    rw [hlen] at hl
    have hg' : l.get (lastMem U promptF pub priv msg enc sig kb false d e true s v ++ [.slice l 0 pw.length pw.length, .nil] ++ new) = some (.arr (byteVals pw)) := by
      refine Eq.trans (get_same ?_) hg
      rw [hl, List.getElem?_append_right (show 17 ≤ 17 + 1 by omega), List.getElem?_append_right (show 17 ≤ 17 + 1 by omega)]
      rfl
    have G2 : Globals (⟨lastMem U promptF pub priv msg enc sig kb false d e true s v ++ [.slice l 0 pw.length pw.length, .nil] ++ new, 3, [], recordOf w w1⟩ : St World)
      promptFunc defaultOpts := ⟨rfl, rfl, rfl, rfl⟩
    have c2 := C109_GenerateKey P G2 (.pass pw.length (by omega) hg') pub hk
    have e2 := Sees.GenerateKey P pub pw none w w1
    suffices H : Like U w (lastOut U (linked U P k) w (lastMem U promptF pub priv msg enc sig kb false d e true s v) w mainVars) fun T =>
        orExit (GenerateKey P pub pw none) (fun er => b!"Failed to generate keypair: " ++ T er ++ b!"\n") (done []) w1 by
      simpa only [orExit, ho, hpw] using H
    refine like_op (errMsg := fun t => b!"Failed to generate keypair: " ++ t ++ b!"\n") (wd := recordOf w) (fun _ => rfl)
      (returns_noHang (GenerateKey_returns P pub pw none) w1)
      (r := (interp (repo (worldSys P)) k).call id!"signify" key.GenerateKey [.str pub, .slice l 0 pw.length pw.length, .nil]
        ⟨lastMem U promptF pub priv msg enc sig kb false d e true s v ++ [.slice l 0 pw.length pw.length, .nil] ++ new, 3, [], recordOf w w1⟩)
      (mem := lastMem U promptF pub priv msg enc sig kb false d e true s v ++ [.slice l 0 pw.length pw.length, .nil] ++ new) ?_ ?_ ?_ ?_ ?_
    · simp only at c2
      rw [e2] at c2
      rcases hr : GenerateKey P pub pw none w1 with ⟨a | er | _ | _ | _, w2⟩ <;> rw [hr] at c2
      · exact c2
      · exact ⟨_, Told.lib er, c2⟩
      · exact c2
      · exact c2
      · trivial
    · intro w' hr
      rw [print_nil]
      refine main_use_ok (w' := w') (hA := hA) (h := h) (hC := ?_) ..
      rw [linked_eq U P k (by decide)]
      exact congrArg (toProc _) hr
    · intro x w' hr
      refine (main_use_err (w' := w') (hA := hA) (h := h) (x := x) (hC := ?_) ..).trans ?_
      · rw [linked_eq U P k (by decide)]
        exact congrArg (toProc _) hr
      · simp only [List.append_assoc]
    · intro m b w' hr
      refine main_use_panic (w' := w') (hA := hA) (h := h) (m' := m) (b' := b) (hC := ?_) ..
      rw [linked_eq U P k (by decide)]
      exact congrArg (toProc _) hr
    · intro m b d' w' hr
      refine main_use_crash (w' := w') (hA := hA) (h := h) (m' := m) (b' := b) (d' := d') (hC := ?_) ..
      rw [linked_eq U P k (by decide)]
      exact congrArg (toProc _) hr
  · rw [show passphrasePrompt true (St.world ⟨lastMem U promptF pub priv msg enc sig kb false d e true s v ++ [.nil, .nil], 3, [], w⟩) = _ from ho] at c
    obtain ⟨x, hx⟩ := (show Told er (promptErrVal er) from .inr rfl).err
    obtain ⟨T, hT, ht⟩ := texts_at U (e := er) (x := x) (hx ▸ .inr rfl)
    refine ⟨T, hT, (recordOf w w1).eprint (U.errText x ++ b!"\n"), ?_, ?_⟩
    · rw [show (orExit (passphrasePrompt true) _ _ w).1 = .status 1 by simp only [orExit, ho]]
      refine main_ask_err (h := h) (x := x) (hC := ?_) ..
      rw [← hx]
      exact link.trans (congrArg (toProc _) c)
    · simp only [orExit, ho, ht]
      rfl
  · simp [Res.Clean] at hq
  · rw [show passphrasePrompt true (St.world ⟨lastMem U promptF pub priv msg enc sig kb false d e true s v ++ [.nil, .nil], 3, [], w⟩) = _ from ho] at c
    obtain ⟨⟨m, b, d', w'⟩, c, ew⟩ := c
    subst ew
    refine ⟨_, texts_default U, recordOf w w1, ?_, ?_⟩
    · rw [show (orExit (passphrasePrompt true) _ _ w).1 = .crash by simp only [orExit, ho]]
      exact main_ask_crash (h := h) (m' := m) (b' := b) (d' := d') (hC := link.trans (congrArg (toProc _) c)) ..
    · simp only [orExit, ho]
      rfl
  · simp [Res.Clean] at hq

end

/-- The surroundings of the model. -/
def envOf (U : Cmd) (T : GoErr → Bytes) : CliEnv := ⟨U.arg0, U.user, U.join, T⟩

/-- C113: a run of the text of `main`, with the texts of the packages for what it calls, on the system of the model under any schedule of faults, for any
options, ends the process as the model says: with the same exit status, with the same text on standard output and on standard error, and in the same world
(apart from what the model records of passphrases). The text of an error is the text of an error value that stands for the error of the model. -/
theorem C113_main (P : Prims) (U : Cmd) (w : World) (hm : (flagsOf U).encrypt = true → sizeOf w (flagsOf U).messageFile < 2 ^ 62) :
    ∃ N, ∀ n, N ≤ n → ∃ T, Texts U T ∧ ∃ v, outcome (mainRun U P n w) =
      some ((cliMain P (readsFor w (flagsOf U).encryptedFile) (envOf U T) (flagsOf U) w).1, v) ∧
      recordOf w v = recordOf w (cliMain P (readsFor w (flagsOf U).encryptedFile) (envOf U T) (flagsOf U) w).2 := by
  suffices H : ∃ N, ∀ n, N ≤ n → Like U w (lastOut U (linked U P n) w (memOf U (flagsOf U) (pubUsed U) (privUsed U)) w mainVars)
      fun T => cliMain P (readsFor w (flagsOf U).encryptedFile) (envOf U T) (flagsOf U) w by
    obtain ⟨N, h⟩ := H
    exact ⟨N, fun n hn => by rw [main_last]; exact h n hn⟩
  have key : ∀ T, cliMain P (readsFor w (flagsOf U).encryptedFile) (envOf U T) (flagsOf U) w = (
      if (flagsOf U).generate then cliGenerate P (envOf U T) (flagsOf U).noPass (pubUsed U) w
      else if (flagsOf U).sign then
        if privUsed U = [] ∨ (flagsOf U).messageFile = [] then (.status 1, w.eprint b!"Signing requires a message and private key.\n")
        else orExit (Sign P (privUsed U) (flagsOf U).messageFile (flagsOf U).signatureFile)
          (fun e => b!"Signing " ++ (flagsOf U).messageFile ++ b!" failed: " ++ T e ++ b!"\n") (done []) w
      else if (flagsOf U).verify then
        orExit (Verify P (pubUsed U) (flagsOf U).messageFile (flagsOf U).signatureFile) (fun _ => (flagsOf U).messageFile ++ b!": invalid signature\n")
          (done ((flagsOf U).messageFile ++ b!": OK\n")) w
      else if (flagsOf U).encrypt then
        orExit (Seal P (pubUsed U) (flagsOf U).messageFile (flagsOf U).encryptedFile) (fun e => T e ++ b!"\n") (done ((flagsOf U).messageFile ++ b!": OK\n")) w
      else if (flagsOf U).decrypt then
        orExit (Open P (readsFor w (flagsOf U).encryptedFile) (privUsed U) (flagsOf U).encryptedFile (flagsOf U).messageFile) (fun e => T e ++ b!"\n")
          (done ((flagsOf U).encryptedFile ++ b!": OK\n")) w
      else (.status 1, w.eprint (usageText U.arg0))) := fun T => rfl
  simp only [key]
  unfold memOf
  generalize flagsOf U = f at *
  obtain ⟨enc, msg, noPass, pub0, priv0, sig, d, e, g, s, v⟩ := f
  generalize pubUsed U = pub, privUsed U = priv, defaultKeyBase U.join U.user = kb
  simp only at hm ⊢
  cases g
  · cases s
    · cases v
      · cases e
        · cases d
          · exact ⟨0, fun n _ => like_none U P w pub priv msg enc sig kb noPass n⟩
          · exact like_open U P w pub priv msg enc sig kb noPass
        · exact like_seal U P w pub priv msg enc sig kb noPass d (hm rfl)
      · exact like_verify U P w pub priv msg enc sig kb noPass d e
    · exact like_sign U P w pub priv msg enc sig kb noPass d e v
  · refine ⟨40, fun n hn => ?_⟩
    simp only [cliGenerate, if_true]
    by_cases h : pub = []
    · simp only [h, if_true]
      exact like_const (main_gen_base (h := rfl) ..) fun _ => rfl
    · simp only [h, if_false]
      cases noPass
      · exact like_ask U P w pub priv msg enc sig kb d e s v h n hn
      · exact like_generate U P w pub priv msg enc sig kb d e s v h n hn

/-! ### More fuel changes nothing -/

theorem interpC_mono {ω : Type} (Q : Prog ω) {C D : Id → Func → List Val → M ω (List Val)} (h : ∀ p f vs, Le (C p f vs) (D p f vs)) (k : Nat) :
    (interpC Q C k).Le (interpC Q D k) := by
  induction k with
  | zero => exact { Interp.none_le (interpC Q D 0) with call := h }
  | succ k ih => exact { succ_mono (.refl Q) ih with call := h }

theorem linked_mono (U : Cmd) (P : Prims) {n m : Nat} (h : n ≤ m) (p : Id) (f : Func) (vs : List Val) : Le (linked U P n p f vs) (linked U P m p f vs) := by
  unfold linked
  by_cases k : p = id!"main"
  · rw [if_pos k, if_pos k]
    exact .refl _
  · rw [if_neg k, if_neg k]
    intro s
    unfold inProc
    rcases (interp_mono (.refl (repo (worldSys P))) h).call p f vs ⟨s.mem, s.base, s.defers, s.world.1⟩ with e | e
    · left
      rw [e]
    · right
      rw [e]

theorem mainRun_mono (U : Cmd) (P : Prims) {n m : Nat} (h : n ≤ m) (w : World) : mainRun U P n w = .stuck ∨ mainRun U P m w = mainRun U P n w :=
  (succ_mono (.refl (cmd U)) (interpC_mono (cmd U) (linked_mono U P h) 19)).call _ _ _ _

/-- C113: every run of the text that comes to an end is the one of the model. -/
theorem C113_ends (P : Prims) (U : Cmd) (w : World) (hm : (flagsOf U).encrypt = true → sizeOf w (flagsOf U).messageFile < 2 ^ 62) {n : Nat} {x : Exit}
    {v : World} (h : outcome (mainRun U P n w) = some (x, v)) :
    ∃ T, Texts U T ∧ x = (cliMain P (readsFor w (flagsOf U).encryptedFile) (envOf U T) (flagsOf U) w).1 ∧
      recordOf w v = recordOf w (cliMain P (readsFor w (flagsOf U).encryptedFile) (envOf U T) (flagsOf U) w).2 := by
  obtain ⟨N, hN⟩ := C113_main P U w hm
  obtain ⟨T, hT, v', e, k⟩ := hN (max n N) (Nat.le_max_right _ _)
  rcases mainRun_mono U P (Nat.le_max_left n N) w with c | c
  · rw [c] at h
    cases h
  · rw [← c, e] at h
    cases h
    exact ⟨T, hT, rfl, k⟩

/-- C113: for every sequence of properly used options, followed by anything that ends the options, the text of `main`, run with the values that the options
say, ends the process as the model of the whole command does for these arguments. -/
theorem C113_options (P : Prims) (U : Cmd) (w : World) (text : FlagText) (items : List Item) (h : ∀ i ∈ items, i.Proper) (rest : List Bytes)
    (hrest : EndsOptions rest) (hU : flagsOf U = settings items) (hm : (settings items).encrypt = true → sizeOf w (settings items).messageFile < 2 ^ 62) :
    ∃ N, ∀ n, N ≤ n → ∃ T, Texts U T ∧ ∃ v, outcome (mainRun U P n w) =
      some ((psignify P (readsFor w (settings items).encryptedFile) (envOf U T) text ((items.map Item.args).flatten ++ rest) w).1, v) ∧
      recordOf w v = recordOf w (psignify P (readsFor w (settings items).encryptedFile) (envOf U T) text ((items.map Item.args).flatten ++ rest) w).2 := by
  obtain ⟨N, hN⟩ := C113_main P U w (by rw [hU]; exact hm)
  refine ⟨N, fun n hn => ?_⟩
  obtain ⟨T, hT, v, e, k⟩ := hN n hn
  rw [hU] at e k
  refine ⟨T, hT, v, ?_, ?_⟩ <;> rw [C75_options P _ (envOf U T) text items h rest hrest w]
  · exact e
  · exact k

/-! ### What the exit status says -/

theorem flagsOp_verify {f : Flags} (h1 : f.generate = false) (h2 : f.sign = false) (h3 : f.verify = true) : Flags.op f = some .verify := by
  simp [Flags.op, h1, h2, h3]

/-- C113: with no faults, some run of the text with `-V` ends with status 0 exactly if the three files hold a signature that is to be accepted. -/
theorem C113_verify (P : Prims) (U : Cmd) (w : World) (hq : w.Quiet) (hm : (flagsOf U).encrypt = true → sizeOf w (flagsOf U).messageFile < 2 ^ 62)
    (h1 : (flagsOf U).generate = false) (h2 : (flagsOf U).sign = false) (h3 : (flagsOf U).verify = true) :
    (∃ n v, outcome (mainRun U P n w) = some (.status 0, v)) ↔
      ∃ fp fm fs, w.fs (pubUsed U) = some fp ∧ w.fs (flagsOf U).messageFile = some fm ∧
        w.fs (sigPath (flagsOf U).messageFile (flagsOf U).signatureFile) = some fs ∧ Accepts P fp.data fm.data fs.data := by
  have ho := flagsOp_verify h1 h2 h3
  constructor
  · rintro ⟨n, v, h⟩
    obtain ⟨T, -, e, -⟩ := C113_ends P U w hm h
    exact (C56_verify_exact P _ (envOf U T) (flagsOf U) w ho hq).1 e.symm
  · intro h
    obtain ⟨N, hN⟩ := C113_main P U w hm
    obtain ⟨T, -, v, e, -⟩ := hN N (Nat.le_refl N)
    rw [(C56_verify_exact P _ (envOf U T) (flagsOf U) w ho hq).2 h] at e
    exact ⟨N, v, e⟩

/-- C113: whatever fails, a run of the text with `-V` that ends with status 0 has printed the name of the message and OK and changed no file; with any other
end it has printed nothing on standard output. -/
theorem C113_verify_output (P : Prims) (U : Cmd) (w : World) (hm : (flagsOf U).encrypt = true → sizeOf w (flagsOf U).messageFile < 2 ^ 62)
    (h1 : (flagsOf U).generate = false) (h2 : (flagsOf U).sign = false) (h3 : (flagsOf U).verify = true) {n : Nat} {x : Exit} {v : World}
    (h : outcome (mainRun U P n w) = some (x, v)) :
    v.fs = w.fs ∧ v.stdout = if x = .status 0 then w.stdout ++ (flagsOf U).messageFile ++ b!": OK\n" else w.stdout := by
  obtain ⟨T, -, e, k⟩ := C113_ends P U w hm h
  obtain ⟨-, c1, c2, c3⟩ := C56_verify P (readsFor w (flagsOf U).encryptedFile) (envOf U T) (flagsOf U) w (flagsOp_verify h1 h2 h3)
  refine ⟨(congrArg World.fs k).trans c3, (congrArg World.stdout k).trans (c2.trans ?_)⟩
  rw [e]
  by_cases y : (Verify P (Props.pubPath (envOf U T) (flagsOf U)) (flagsOf U).messageFile (flagsOf U).signatureFile w).1 = .ok ()
  · rw [if_pos y, if_pos (c1.2 y)]
  · rw [if_neg y, if_neg fun h => y (c1.1 h)]

/-- C113: a run of the text with `-G` and without `-n` that ends with status 0 has made the keys from a passphrase that the user typed twice, and the files
are as `GenerateKey` leaves them; unless the user types a passphrase twice, no file is changed. -/
theorem C113_generate (P : Prims) (U : Cmd) (w : World) (hm : (flagsOf U).encrypt = true → sizeOf w (flagsOf U).messageFile < 2 ^ 62)
    (h1 : (flagsOf U).generate = true) (h2 : (flagsOf U).noPass = false) {n : Nat} {x : Exit} {v : World} (h : outcome (mainRun U P n w) = some (x, v)) :
    (x = .status 0 → ∃ pw rest, w.tty = some pw :: some pw :: rest ∧ (GenerateKey P (pubUsed U) pw none (typedTwice w pw pw rest)).1 = .ok () ∧
      v.fs = (GenerateKey P (pubUsed U) pw none (typedTwice w pw pw rest)).2.fs) ∧
    ((∀ pw rest, w.tty ≠ some pw :: some pw :: rest) → x = .status 1 ∧ v.fs = w.fs) := by
  obtain ⟨T, -, e, k⟩ := C113_ends P U w hm h
  obtain ⟨c1, -, c3, c4⟩ := C56_generate P (readsFor w (flagsOf U).encryptedFile) (envOf U T) (flagsOf U) w (by simp [Flags.op, h1])
  refine ⟨fun hx => ?_, fun ht => ⟨e.trans (c4 h2 ht).1, (congrArg World.fs k).trans (c4 h2 ht).2⟩⟩
  by_cases ht : ∃ pw rest, w.tty = some pw :: some pw :: rest
  · obtain ⟨pw, rest, ht⟩ := ht
    by_cases hp : Props.pubPath (envOf U T) (flagsOf U) = []
    · have := (c1 hp).1
      rw [← e, hx] at this
      cases this
    · obtain ⟨-, d1, d2⟩ := c3 hp h2 pw rest ht
      exact ⟨pw, rest, ht, d1.1 (e.symm.trans hx), (congrArg World.fs k).trans d2⟩
  · have := (c4 h2 fun pw rest h => ht ⟨pw, rest, h⟩).1
    rw [← e, hx] at this
    cases this

/-! ### The assumptions can be met -/

/-- Surroundings with these options. -/
def cmdOf (f : Flags) (arg0 : Bytes) (user : Option User) (join : Bytes → Bytes → Bytes → Bytes) (errText : EVal → Bytes) : Cmd where
  str name _ := if name = b!"c" then f.encryptedFile else if name = b!"m" then f.messageFile else if name = b!"p" then f.pubKeyFile
    else if name = b!"s" then f.privKeyFile else f.signatureFile
  bool name _ := if name = b!"n" then f.noPass else if name = b!"D" then f.decrypt else if name = b!"E" then f.encrypt
    else if name = b!"G" then f.generate else if name = b!"S" then f.sign else f.verify
  arg0 := arg0
  user := user
  join := join
  errText := errText

/-- Any options. -/
example (f : Flags) (a : Bytes) (u : Option User) (j : Bytes → Bytes → Bytes → Bytes) (t : EVal → Bytes) : flagsOf (cmdOf f a u j t) = f := rfl

/-- The options of `psignify -V -p k.pub -m message`. -/
example : ∃ (items : List Item), (∀ i ∈ items, i.Proper) ∧ (items.map Item.args).flatten = [b!"-V", b!"-p", b!"k.pub", b!"-m", b!"message"] ∧
    (settings items).verify = true :=
  ⟨[.switch false 86, .pair false 112 b!"k.pub", .pair false 109 b!"message"], by simp [Item.Proper, switchLetters, valueLetters], rfl, rfl⟩

/-- Without an operation, the text prints its usage and ends with status 1. -/
example (w : World) (U : Cmd) (hU : U = cmdOf {} b!"psignify" none (fun a _ _ => a) fun _ => []) :
    ∃ n v, outcome (mainRun U flat n w) = some (.status 1, v) ∧ v.stderr = w.stderr ++ usageText b!"psignify" := by
  subst hU
  obtain ⟨N, hN⟩ := C113_main flat (cmdOf {} b!"psignify" none (fun a _ _ => a) fun _ => []) w (fun h => by cases h)
  obtain ⟨T, -, v, e, k⟩ := hN N (Nat.le_refl N)
  exact ⟨N, v, e, congrArg World.stderr k⟩

end Verif.Src
