/-
C108: the Go text of Sign, and of the functions that it calls, does what the model does.
-/
import Verif.Source.Seen
import Verif.Props.SourceKeys

namespace Verif.Src

open Verif.Props

variable {ω : Type} (S : Sys ω)

/-- `zero` run as text: every byte of the slice becomes zero and nothing else changes. -/
theorem C108_zero {s : St ω} {v0 v1 : Val} (G : Globals s v0 v1) {lb lp : Loc} (hb : 2 ≤ lb.blk) (hp : 2 ≤ lp.blk) (d : lb.disjoint lp = true)
    {pw : Bytes} {cap : Nat} (eb : lb.get s.mem = some (.slice lp 0 pw.length cap)) (ep : lp.get s.mem = some (.arr (byteVals pw)))
    {n : Nat} (hn : 20 ≤ n) :
    ∃ m, lp.set s.mem (.arr (byteVals (List.replicate pw.length 0))) = some m ∧
      (interp (repo S) n).call id!"signify" common.zero [.ptr lb] s = .ok [] { s with mem := m } :=
  zero_in S G hb hp d eb ep hn

/-- `Private.Check` run as text. -/
theorem C108_Check {s : St ω} {v0 v1 : Val} (G : Globals s v0 v1) {l : Loc} (hl : 2 ≤ l.blk) {priv : Private}
    (E : l.get s.mem = some (privateVal priv)) {n : Nat} (hn : 20 ≤ n) :
    Ends s.defers (priv.check S.prims, s.world) id
      (fun _ w' r => r = .ok [.nil] ⟨s.mem, s.base, s.defers, w'⟩)
      (fun e w' r => ∃ v, Means e v ∧ r = .ok [v] ⟨s.mem, s.base, s.defers, w'⟩)
      ((interp (repo S) n).call id!"signify" key.Private.Check [.ptr l] s) :=
  check_in S G hl E hn

/-- `Private.decrypt` run as text: it returns, with the error and the key that the model says. -/
theorem C108_decrypt {s : St ω} {v0 v1 : Val} (G : Globals s v0 v1) {lk lp : Loc} (hk : 2 ≤ lk.blk) (hp : 2 ≤ lp.blk) (d : lk.disjoint lp = true)
    {priv : Private} {pw : Bytes} (ek : lk.get s.mem = some (privateVal priv)) (ep : lp.get s.mem = some (.arr (byteVals pw))) (cap : Nat)
    {n : Nat} (hn : 40 ≤ n) :
    Decrypts S pw priv fun v priv' => ∃ m, lk.set s.mem (privateVal priv') = some m ∧
      (interp (repo S) n).call id!"signify" key.Private.decrypt [.ptr lk, .slice lp 0 pw.length cap] s = .ok [v] { s with mem := m } :=
  decrypt_in S G hk hp d ek ep cap hn

/-- `LoadPrivateKey` run as text on the system of the model. -/
theorem C108_LoadPrivateKey (P : Prims) {s : St World} {v0 v1 : Val} (G : Globals s v0 v1) (path : Path) :
    ∃ N, ∀ n, N ≤ n → Ends s.defers (loadPrivateKey path s.world) id
      (fun priv w r => ∃ new : List Val, new[20]? = some (privateVal priv) ∧ Val.anyRefers (s.mem.length + new.length) new = false ∧
        r = .ok [.ptr ⟨s.mem.length + 20, []⟩, .nil] ⟨s.mem ++ new, s.base, s.defers, w⟩)
      (fun e w r => ∃ v, Says e v ∧ r = .ok [.nil, v] ⟨s.mem, s.base, s.defers, w⟩)
      ((interp (repo (worldSys P)) n).call id!"signify" key.LoadPrivateKey [.str path] s) := by
  refine ⟨fuelFor (World.readFile path s.world), fun n hn => ?_⟩
  have := fuelFor_ge (World.readFile path s.world)
  refine (load_in (worldSys P) (fun a => privateVal_plain a 0) G
    (loadPrivate_run (worldSys P) v0 v1 G.plain0 G.plain1 path s.world (by omega) (fuelFor_ok hn))).mono ?_ (fun _ _ h => h)
  rintro a t ⟨new, h1, h2, h3, h4⟩
  exact ⟨new, h2, h1 ▸ h3, h4⟩

/-- `Sign` run as text from the start of a program. -/
theorem Sign_start (P : Prims) {v1 : Val} (p1 : v1.refers 2 = false) (p m s : Path) (w : World) {n : Nat}
    (hn : fuelFor (World.readFile p w) + 20 ≤ n) :
    Agrees (Sign P p m s w) (recordOf w)
      (fun _ w' r => r = .ok [.nil] ⟨[promptFunc, v1], 2, [], recordOf w w'⟩)
      (fun e w' r => ∃ v, Says e v ∧ r = .ok [v] ⟨[promptFunc, v1], 2, [], recordOf w w'⟩)
      ((interp (repo (worldSys P)) n).call id!"signify" key.Sign [.str p, .str m, .str s] ⟨[promptFunc, v1], 2, [], w⟩) := by
  have c := sign_text (worldSys P) v1 (worldSys_tame P) p1 p m s w hn
  have e : signWithS (worldSys P) p m s w = _ := Sees.Sign P p m s w w
  rw [e] at c
  rcases ho : Sign P p m s w with ⟨a | er | _ | _ | _, w'⟩ <;> rw [ho] at c <;> exact c

/-- C108: the text of `Sign`, run in any memory on the system of the model under any schedule of faults, ends as the model says and with
the world that the model says, and leaves memory as it was. (What a world records of passphrases is kept by the model of the program,
so the text does not change it.) -/
theorem C108_Sign (P : Prims) {st : St World} {v1 : Val} (G : Globals st promptFunc v1) (p m s : Path) :
    ∃ N, ∀ n, N ≤ n → Ends st.defers (Sign P p m s st.world) (recordOf st.world)
      (fun _ w' r => r = .ok [.nil] ⟨st.mem, st.base, st.defers, recordOf st.world w'⟩)
      (fun e w' r => ∃ v, Says e v ∧ r = .ok [v] ⟨st.mem, st.base, st.defers, recordOf st.world w'⟩)
      ((interp (repo (worldSys P)) n).call id!"signify" key.Sign [.str p, .str m, .str s] st) := by
  refine ⟨fuelFor (World.readFile p st.world) + 20, fun n hn => ?_⟩
  have c := carry_keep (worldSys P) (Nat.le_refl n) (ρ := []) (us := []) (args := [.str p, .str m, .str s]) (f := key.Sign) (p := id!"signify")
    (o := Sign P p m s st.world) (world := recordOf st.world) (Q := fun _ rs new => rs = [.nil] ∧ new = [])
    (Q' := fun e rs new => new = [] ∧ ∃ v, Says e v ∧ rs = [v]) G (by simp) (by simp) rfl
    ((Sign_start P G.plain1 p m s st.world hn).mono (fun _ w' h => ⟨_, [], ⟨rfl, rfl⟩, h⟩)
      (fun e w' ⟨v, hv, h⟩ => ⟨_, [], ⟨rfl, v, hv, rfl⟩, h⟩))
  refine c.mono ?_ ?_
  · rintro a t ⟨rs, new, ⟨rfl, rfl⟩, k⟩
    refine k.trans ?_
    simp only [Emb.renVs, Emb.renV, List.append_nil]
  · rintro e t ⟨rs, new, ⟨rfl, v, hv, rfl⟩, k⟩
    refine ⟨v, hv, k.trans ?_⟩
    simp only [Emb.renVs, hv.ren, List.append_nil]

/-- A run has come to an end, in a world. -/
def EndsIn {ω α : Type} (r : R ω α) (w : ω) : Prop := ∃ t : St ω, t.world = w ∧ ((∃ a, r = .ok a t) ∨ r = .panic t ∨ r = .crash t)

/-- Every run that comes to an end is the one of the model. -/
theorem Sign_ends (P : Prims) {st : St World} {v1 : Val} (G : Globals st promptFunc v1) (p m s : Path) {n : Nat} {w : World}
    (h : EndsIn ((interp (repo (worldSys P)) n).call id!"signify" key.Sign [.str p, .str m, .str s] st) w) :
    w = recordOf st.world (Sign P p m s st.world).2 := by
  obtain ⟨N, hN⟩ := C108_Sign P G p m s
  have c := hN (max n N) (Nat.le_max_right _ _)
  have ne : (interp (repo (worldSys P)) n).call id!"signify" key.Sign [.str p, .str m, .str s] st ≠ .stuck := by
    obtain ⟨t, -, ⟨a, k⟩ | k | k⟩ := h <;> simp [k]
  rw [((interp_mono (Prog.Le.refl _) (Nat.le_max_left n N)).call _ _ _).eq rfl ne] at c
  obtain ⟨t, rfl, h⟩ := h
  have hq := Sign_returns P p m s st.world
  rcases ho : Sign P p m s st.world with ⟨a | er | _ | _ | _, w'⟩ <;> rw [ho] at c hq
  · obtain ⟨a, k⟩ | k | k := h <;> cases (k.symm.trans c)
    rfl
  · obtain ⟨v, hv, c⟩ := c
    obtain ⟨a, k⟩ | k | k := h <;> cases (k.symm.trans c)
    rfl
  · obtain ⟨t', c, e, -⟩ := c
    obtain ⟨a, k⟩ | k | k := h <;> cases (k.symm.trans c)
    exact e
  · obtain ⟨t', c, e⟩ := c
    obtain ⟨a, k⟩ | k | k := h <;> cases (k.symm.trans c)
    exact e
  · rcases hq with hq | hq
    · exact absurd hq (by simp [Res.Clean])
    · cases hq

/-- The text returns nil, given enough steps, exactly if the model does. -/
theorem Sign_nil_iff (P : Prims) {st : St World} {v1 : Val} (G : Globals st promptFunc v1) (p m s : Path) :
    (∃ n st', (interp (repo (worldSys P)) n).call id!"signify" key.Sign [.str p, .str m, .str s] st = .ok [.nil] st') ↔
      (Sign P p m s st.world).1 = .ok () := by
  obtain ⟨N, hN⟩ := C108_Sign P G p m s
  constructor
  · rintro ⟨n, st', e⟩
    have c := hN (max n N) (Nat.le_max_right _ _)
    rw [((interp_mono (Prog.Le.refl _) (Nat.le_max_left n N)).call _ _ _).eq e (by simp)] at c
    have hq := Sign_returns P p m s st.world
    rcases ho : Sign P p m s st.world with ⟨a | er | _ | _ | _, w'⟩ <;> rw [ho] at c hq
    · obtain ⟨v, hv, k⟩ := c
      obtain ⟨x, rfl⟩ := hv.err
      cases k
    · obtain ⟨t, k, -⟩ := c
      cases k
    · obtain ⟨t, k, -⟩ := c
      cases k
    · rcases hq with hq | hq
      · exact absurd hq (by simp [Res.Clean])
      · cases hq
  · intro h
    have c := hN N (Nat.le_refl N)
    rcases ho : Sign P p m s st.world with ⟨r, w'⟩
    rw [ho] at h c
    cases h
    exact ⟨N, _, c⟩

/-- C108: however a run of the text of `Sign` ends, no file but the signature file has changed. -/
theorem C108_frame (P : Prims) {st : St World} {v1 : Val} (G : Globals st promptFunc v1) (p m s : Path) {n : Nat} {w : World}
    (h : EndsIn ((interp (repo (worldSys P)) n).call id!"signify" key.Sign [.str p, .str m, .str s] st) w) (q : Path) (hq : q ≠ sigPath m s) :
    w.fs q = st.world.fs q := by
  rw [Sign_ends P G p m s h]
  exact C21_frame P p m s st.world q hq

/-- C108: when the text of `Sign` returns nil, the signature file names the public key file and carries the key's tags and the signature over
the message file's bytes, made with the key that the typed passphrase opens. -/
theorem C108_content (P : Prims) {st st' : St World} {v1 : Val} (G : Globals st promptFunc v1) (p m s : Path) (dir name : Path)
    (hs : Splits p dir (name ++ b!".sec")) {n : Nat}
    (h : (interp (repo (worldSys P)) n).call id!"signify" key.Sign [.str p, .str m, .str s] st = .ok [.nil] st') :
    ∃ fk fm priv priv' f, st.world.fs p = some fk ∧ readPrivateKeyFile fk.data = .ok priv ∧ st.world.fs m = some fm ∧
      Usable P st.world.tty priv priv' ∧ st'.world.fs (sigPath m s) = some f ∧ f.data = signatureFile P priv' (name ++ b!".pub") fm.data := by
  have e := Sign_ends P G p m s ⟨st', rfl, .inl ⟨_, h⟩⟩
  obtain ⟨fk, fm, priv, priv', f, h1, h2, h3, h4, h5, h6⟩ := C24_content P p m s st.world dir name hs ((Sign_nil_iff P G p m s).1 ⟨n, st', h⟩)
  refine ⟨fk, fm, priv, priv', f, h1, h2, h3, h4, ?_, h6⟩
  rw [e]
  exact h5

/-- C108: with an encrypted key, a file changes or the text of `Sign` returns nil only if the typed passphrase opens the key. -/
theorem C108_checked (P : Prims) {st : St World} {v1 : Val} (G : Globals st promptFunc v1) (p m s : Path) (fk : Verif.File) (priv : Private)
    (hk : st.world.fs p = some fk) (hparse : readPrivateKeyFile fk.data = .ok priv) (he : priv.kdfRounds ≠ 0) {n : Nat} {w : World}
    (h : EndsIn ((interp (repo (worldSys P)) n).call id!"signify" key.Sign [.str p, .str m, .str s] st) w) (hw : w.fs ≠ st.world.fs) :
    ∃ pw rest priv', st.world.tty = some pw :: rest ∧ Unlocks P pw priv priv' := by
  refine C25_checked P p m s st.world fk priv hk hparse he (.inl fun k => hw ?_)
  rw [Sign_ends P G p m s h]
  exact k

/-- The first half of C18. -/
theorem Sign_generated (P : Prims) (base : Path) (pw : Bytes) (opts : Option Int) (w0 : World) (hgen : (GenerateKey P base pw opts w0).1 = .ok ())
    (m s : Path) (fm : Verif.File) (w1 : World) (hq1 : w1.Quiet)
    (hsec : w1.fs (base ++ b!".sec") = (GenerateKey P base pw opts w0).2.fs (base ++ b!".sec"))
    (hmsg : w1.fs m = some fm) (htty : pw ≠ [] → ∃ rest, w1.tty = some pw :: rest) : (Sign P (base ++ b!".sec") m s w1).1 = .ok () := by
  obtain ⟨priv, pub, gen, k, hfsec⟩ : ∃ priv pub, Generated P pw opts (draw w0 w0.rngPos 32)
      (draw w0 (w0.rngPos + 32) 16) (draw w0 (w0.rngPos + 48) 8) priv pub ∧
      (∃ k, w1.fs (base ++ b!".sec") = some ⟨secretFile priv, k⟩) := by
    rcases GenerateKey_spec P base pw opts w0 with ⟨-, h⟩ | ⟨priv, pub, gen, h⟩
    · exact absurd hgen h
    · refine ⟨priv, pub, gen, ?_⟩
      cases h with
      | nothing _ hr => exact absurd hgen hr
      | secret _ _ hr => exact absurd hgen hr
      | both k h hr =>
        rw [hr hgen, secText_eq, pubText_eq] at h
        rw [hsec, h, World.setFile_other _ _ (sec_ne_pub base), World.setFile_self]
        exact ⟨_, rfl⟩
  obtain ⟨priv', hu, -⟩ := gen.usable w1.tty htty
  exact Sign_quiet P hq1 hfsec (readPrivateKeyFile_secret priv) hmsg hu

/-- C108: the text of `Verify` accepts what the text of `Sign` has written, with a key pair of `GenerateKey`, whatever memories they run in and
whatever else has changed in between. -/
theorem C108_sign_verify (P : Prims) (hed : EdCorrect P) (base dir name : Path) (pw : Bytes) (opts : Option Int)
    (w0 : World) (hgen : (GenerateKey P base pw opts w0).1 = .ok ())
    (hsplit : Splits base dir name) (hnl : 10 ∉ name) (hlen : name.length < 64000)
    (m s : Path) (fm : Verif.File) {st1 st2 : St World} {v1 v0' v1' : Val} (G1 : Globals st1 promptFunc v1) (G2 : Globals st2 v0' v1')
    (hq1 : st1.world.Quiet) (hsec : st1.world.fs (base ++ b!".sec") = (GenerateKey P base pw opts w0).2.fs (base ++ b!".sec"))
    (hmsg : st1.world.fs m = some fm) (htty : pw ≠ [] → ∃ rest, st1.world.tty = some pw :: rest) :
    ∃ n st1', (interp (repo (worldSys P)) n).call id!"signify" key.Sign [.str (base ++ b!".sec"), .str m, .str s] st1 = .ok [.nil] st1' ∧
      (st2.world.Quiet → st2.world.fs (base ++ b!".pub") = (GenerateKey P base pw opts w0).2.fs (base ++ b!".pub") →
        st2.world.fs m = some fm → st2.world.fs (sigPath m s) = st1'.world.fs (sigPath m s) →
        ∃ n' st2', (interp (repo (worldSys P)) n').call id!"signify" key.Verify [.str (base ++ b!".pub"), .str m, .str s] st2 = .ok [.nil] st2') := by
  have all := fun w2 a b c d => C18_sign_verify P hed base dir name pw opts w0 hgen hsplit hnl hlen m s fm st1.world hq1 hsec hmsg htty w2 a b c d
  have ok : (Sign P (base ++ b!".sec") m s st1.world).1 = .ok () :=
    Sign_generated P base pw opts w0 hgen m s fm st1.world hq1 hsec hmsg htty
  obtain ⟨n, st1', h⟩ := (Sign_nil_iff P G1 _ m s).2 ok
  refine ⟨n, st1', h, fun hq2 hpub hmsg2 hsig => ?_⟩
  refine (Verify_nil_iff P G2 _ m s).2 (all st2.world hq2 hpub hmsg2 (hsig.trans ?_)).2
  rw [Sign_ends P G1 _ m s ⟨st1', rfl, .inl ⟨_, h⟩⟩]
  rfl

/-! ### The assumptions can be met -/

/-- A machine with a key that is locked with "A", a message and a user who types `pw`. -/
def lockedWorld (pw : Bytes) : World :=
  { calm with
    fs := fun q => if q = b!"k.sec" then some ⟨secretFile lockedKey, 0o600⟩ else if q = b!"m" then some ⟨b!"hello", 0o644⟩ else none
    tty := [some pw] }

noncomputable def lockedState (pw : Bytes) : St World := ⟨[promptFunc, defaultOpts, .arr (byteVals b!"zz")], 0, [], lockedWorld pw⟩

theorem lockedGlobals (pw : Bytes) : Globals (lockedState pw) promptFunc defaultOpts := ⟨rfl, rfl, rfl, rfl⟩

/-- The text signs if the passphrase is right. -/
example : ∃ n st', (interp (repo (worldSys toy)) n).call id!"signify" key.Sign [.str b!"k.sec", .str b!"m", .str []] (lockedState b!"A") = .ok [.nil] st' := by
  refine (Sign_nil_iff toy (lockedGlobals _) _ _ _).2 ?_
  exact Sign_quiet toy (w := lockedWorld b!"A") (fun _ _ => rfl) rfl (readPrivateKeyFile_secret lockedKey) rfl
    (.inr ⟨by decide, b!"A", [], rfl, by decide +kernel, by decide, rfl, by decide +kernel⟩)

/-- With a wrong one, no run of it changes a file. -/
example {n : Nat} {w : World}
    (h : EndsIn ((interp (repo (worldSys toy)) n).call id!"signify" key.Sign [.str b!"k.sec", .str b!"m", .str []] (lockedState b!"B")) w) :
    w.fs = (lockedWorld b!"B").fs := by
  by_contra hw
  obtain ⟨pw, rest, priv', h1, h2⟩ := C108_checked toy (lockedGlobals b!"B") _ _ _ _ lockedKey rfl (readPrivateKeyFile_secret lockedKey) (by decide) h hw
  cases h1
  obtain ⟨-, -, h, h2⟩ := h2
  subst h
  revert h2; decide +kernel

end Verif.Src
