/-
Properties C77 to C80: entropy, termination, terminal.
-/
import Verif.Spec.History
import Verif.Spec.Toy
import Verif.Lemmas.Effects
import Verif.Lemmas.Total
import Verif.Props.Cli
import Verif.Props.Sign
import Verif.Lemmas.ZeroKey

namespace Verif.Props
open World Spec

/-! ### C77 -/

/-- C77: `Sign`, `Verify` and `Open` never read entropy: they are deterministic functions of the files, the terminal and the
system's decisions. -/
theorem C77_none (P : Prims) (fuel : Nat) (w : World) :
    (∀ k m s, (Sign P k m s w).2.rngPos = w.rngPos) ∧ (∀ p m s, (Verify P p m s w).2.rngPos = w.rngPos) ∧
    (∀ k e m, (Open P fuel k e m w).2.rngPos = w.rngPos) := by
  refine ⟨fun k m s => ?_, fun p m s => ?_, fun k e m => ?_⟩
  · exact (Sign_asked P k m s w).elim (·.rngPos) (·.rngPos)
  · rw [Verify_onlyTick P p m s w]
  · exact (Open_asked P fuel k e m w).elim (·.rngPos) (·.rngPos)

/-- C77: `Seal` reads 32 bytes or none; 32 if it reports success for a message that is not empty. -/
theorem C77_seal (P : Prims) (pp mp ep : Path) (w : World) :
    ((Seal P pp mp ep w).2.rngPos = w.rngPos + 32 ∨ (Seal P pp mp ep w).2.rngPos = w.rngPos) ∧
    (∀ f, w.fs mp = some f → f.data ≠ [] → (Seal P pp mp ep w).1 = .ok () → (Seal P pp mp ep w).2.rngPos = w.rngPos + 32) :=
  ⟨(Seal_drew P pp mp ep w).imp (·.rngPos) (·.rngPos), fun f hf hne hok => (Seal_drew_ok P pp mp ep w f hf hne hok).rngPos⟩

/-- C77: `GenerateKey` reads at most 56 bytes, 56 if it reports success. -/
theorem C77_generate (P : Prims) (base : Path) (pw : Bytes) (opts : Option Int) (w : World) :
    w.rngPos ≤ (GenerateKey P base pw opts w).2.rngPos ∧ (GenerateKey P base pw opts w).2.rngPos ≤ w.rngPos + 56 ∧
    ((GenerateKey P base pw opts w).1 = .ok () → (GenerateKey P base pw opts w).2.rngPos = w.rngPos + 56) := by
  obtain ⟨⟨n, hn, h⟩, hok⟩ := GenerateKey_drew P base pw opts w
  have := h.rngPos
  exact ⟨by omega, by omega, fun h => (hok h).rngPos⟩

/-- No call changes the entropy stream or rewinds it. -/
theorem call_rng (P : Prims) (fuel : Nat) (c : Call) (w : World) :
    (c.act P fuel w).2.rng = w.rng ∧ w.rngPos ≤ (c.act P fuel w).2.rngPos := by
  cases c with
  | generate base pw rounds =>
    obtain ⟨⟨n, -, h⟩, -⟩ := GenerateKey_drew P base pw rounds w
    exact ⟨h.rng, by rw [Call.act, h.rngPos]; exact Nat.le_add_right _ _⟩
  | sign k m s =>
    exact (Sign_asked P k m s w).elim (fun h => ⟨h.rng, Nat.le_of_eq h.rngPos.symm⟩) fun h => ⟨h.rng, Nat.le_of_eq h.rngPos.symm⟩
  | verify p m s =>
    rw [Call.act, Verify_onlyTick P p m s w]
    exact ⟨rfl, Nat.le_refl _⟩
  | encrypt p m e =>
    refine (Seal_drew P p m e w).elim (fun h => ⟨h.rng, ?_⟩) fun h => ⟨h.rng, Nat.le_of_eq h.rngPos.symm⟩
    rw [Call.act, h.rngPos]; exact Nat.le_add_right _ _
  | decrypt k e m =>
    exact (Open_asked P fuel k e m w).elim (fun h => ⟨h.rng, Nat.le_of_eq h.rngPos.symm⟩) fun h => ⟨h.rng, Nat.le_of_eq h.rngPos.symm⟩

/-- C77: in every history, under every schedule, no byte of entropy is used by two calls: the parts of the stream that the calls
use follow one another. -/
theorem C77_history (P : Prims) (fuel : Nat) {w w' : World} {spans : List (Nat × Nat)} (h : History P fuel w spans w') :
    spans.Pairwise (fun a b => a.2 ≤ b.1) ∧ (∀ a ∈ spans, w.rngPos ≤ a.1 ∧ a.1 ≤ a.2 ∧ a.2 ≤ w'.rngPos) ∧ w'.rng = w.rng ∧
      w.rngPos ≤ w'.rngPos := by
  induction h with
  | start => exact ⟨.nil, by simp, rfl, Nat.le_refl _⟩
  | @call spans w' c _ ih =>
    obtain ⟨h1, h2, h3, h4⟩ := ih
    obtain ⟨h5, h6⟩ := call_rng P fuel c w'
    refine ⟨List.pairwise_append.mpr ⟨h1, List.pairwise_singleton _ _, ?_⟩, ?_, h5.trans h3, Nat.le_trans h4 h6⟩
    · intro a ha b hb
      rw [List.mem_singleton.mp hb]
      exact (h2 a ha).2.2
    · intro a ha
      rcases List.mem_append.mp ha with ha | ha
      · exact ⟨(h2 a ha).1, (h2 a ha).2.1, Nat.le_trans (h2 a ha).2.2 h6⟩
      · rw [List.mem_singleton.mp ha]; exact ⟨h4, h6, Nat.le_refl _⟩
  | @other spans w' w'' e1 e2 _ ih =>
    obtain ⟨h1, h2, h3, h4⟩ := ih
    exact ⟨h1, fun a ha => ⟨(h2 a ha).1, (h2 a ha).2.1, Nat.le_trans (h2 a ha).2.2 e2⟩, e1.trans h3, Nat.le_trans h4 e2⟩

/-- C77: the secret of a sealed file is drawn from the part of the stream that this call uses, so two files sealed in one history
have secrets from disjoint parts of the stream, also for the same message and the same recipient. -/
theorem C77_two_seals (P : Prims) (fuel : Nat) {w w' : World} {spans : List (Nat × Nat)} (pp mp ep pp' mp' ep' : Path)
    {fp fm fp' fm' : File} {pub pub' : Public} {ed ed' : Arr 32} (hq : w.Quiet) (hq' : w'.Quiet)
    (h1 : w.fs pp = some fp) (h2 : readPublicKeyFile fp.data = .ok pub) (h3 : pub.toBox = .ok ed) (h4 : w.fs mp = some fm)
    (h5 : mp ≠ encPath mp ep) (h6 : fm.data.length < 2 ^ 63) (h7 : fm.data ≠ [])
    (g1 : w'.fs pp' = some fp') (g2 : readPublicKeyFile fp'.data = .ok pub') (g3 : pub'.toBox = .ok ed') (g4 : w'.fs mp' = some fm')
    (g5 : mp' ≠ encPath mp' ep') (g6 : fm'.data.length < 2 ^ 63) (g7 : fm'.data ≠ [])
    (hist : History P fuel (Seal P pp mp ep w).2 spans w') :
    ∃ i j, i + 32 ≤ j ∧
      ((Seal P pp mp ep w).2.fs (encPath mp ep)).map (·.data) = some (encryptedComment ++ encodedText
        (sealedStream P (P.precompute ed (draw w i 32)) (P.x25519Base (draw w i 32)) (pieces 16385 (by decide) fm.data))) ∧
      ((Seal P pp' mp' ep' w').2.fs (encPath mp' ep')).map (·.data) = some (encryptedComment ++ encodedText
        (sealedStream P (P.precompute ed' (draw w j 32)) (P.x25519Base (draw w j 32)) (pieces 16385 (by decide) fm'.data))) := by
  obtain ⟨a1, a2⟩ := Seal_quiet P pp mp ep hq h1 h2 (fun _ => h3) h4 h5 h6
  obtain ⟨b1, b2⟩ := Seal_quiet P pp' mp' ep' hq' g1 g2 (fun _ => g3) g4 g5 g6
  have hd := Seal_drew_ok P pp mp ep w fm h4 h7 a1
  obtain ⟨-, -, c3, c4⟩ := C77_history P fuel hist
  refine ⟨w.rngPos, w'.rngPos, by rw [hd.rngPos] at c4; exact c4, ?_, ?_⟩
  · rw [a2, if_neg h7, World.setFile_self]; rfl
  · have hr : ∀ n, draw w' w'.rngPos n = draw w w'.rngPos n := by
      intro n; unfold draw; rw [c3, hd.rng]
    rw [b2, if_neg g7, World.setFile_self, hr 32]; rfl

example : ∃ spans w', History toy 100 calm spans w' ∧ spans.length = 2 ∧ spans ≠ [(0, 0), (0, 0)] := by
  refine ⟨_, _, .call (.generate b!"alice" [] none) (.call (.generate b!"bob" [] none) (.start calm)), rfl, ?_⟩
  decide +kernel

/-- The hypotheses of `C77_two_seals` can be met: the same message sealed twice for the same recipient, into two files. -/
example : let w := (calm.setFile b!"p" ⟨publicFile zeroKey, 0⟩).setFile b!"m" ⟨b!"hi", 0⟩
    let w' := { w with rngPos := 40 }
    w.Quiet ∧ w'.Quiet ∧ w.fs b!"p" = some ⟨publicFile zeroKey, 0⟩ ∧ readPublicKeyFile (publicFile zeroKey) = .ok zeroKey ∧
    zeroKey.toBox = .ok (copyZ 32 [1]) ∧ w.fs b!"m" = some ⟨b!"hi", 0⟩ ∧ b!"m" ≠ encPath b!"m" b!"e1" ∧ b!"m" ≠ encPath b!"m" b!"e2" ∧
    History toy 100 (Seal toy b!"p" b!"m" b!"e1" w).2 [] w' := by
  intro w w'
  have hr : (Seal toy b!"p" b!"m" b!"e1" w).2.rng = w.rng := (call_rng toy 100 (.encrypt b!"p" b!"m" b!"e1") w).1
  have hp : (Seal toy b!"p" b!"m" b!"e1" w).2.rngPos ≤ 40 := by
    have h0 : w.rngPos = 0 := rfl
    rcases (C77_seal toy b!"p" b!"m" b!"e1" w).1 with h | h <;> omega
  generalize (Seal toy b!"p" b!"m" b!"e1" w).2 = v at hr hp
  exact ⟨fun _ _ => rfl, fun _ _ => rfl, by decide +kernel, readPublicKeyFile_public zeroKey, zeroKey_toBox, by decide +kernel,
    by decide +kernel, by decide +kernel, .other _ hr.symm hp (.start _)⟩

/-! ### C78 -/

/-- The file holds a data line with fewer than 10 bytes of data (for example an empty file). -/
def ShortData (w : World) (p : Path) : Prop := ∃ f d, w.fs p = some f ∧ readDataFileBytes f.data = .ok d ∧ d.data.length < 10

/-- C78 is false: with no faults, and files that exist, `Verify` panics on every signature file with too little data. -/
theorem C78_negation (P : Prims) (pp mp sp : Path) (w : World) (hq : w.Quiet) (pub : Public) (m1 : Nat) (fm : File)
    (h1 : w.fs pp = some ⟨publicFile pub, m1⟩) (h2 : w.fs mp = some fm) (h3 : ShortData w (sigPath mp sp)) :
    (Verify P pp mp sp w).1 = .panic := by
  obtain ⟨f, d, hf, hd, hl⟩ := h3
  exact (C27_panic_iff_partial P pp mp sp w hq _ _ _ h1 h2 hf).1.mpr ⟨⟨pub, readPublicKeyFile_public pub⟩, d, hd, hl⟩

/-- Such files: an empty signature file, and one with three bytes of data. -/
example : let w := ((calm.setFile b!"p" ⟨publicFile zeroKey, 0⟩).setFile b!"m" ⟨b!"hi", 0⟩).setFile b!"s" ⟨b!"untrusted comment: \nQUJD\n", 0⟩
    (Verify toy b!"p" b!"m" b!"s" w).1 = .panic ∧ ShortData (w.setFile b!"s" ⟨[], 0⟩) b!"s" := by
  intro w
  refine ⟨C78_negation toy b!"p" b!"m" b!"s" w (fun _ _ => rfl) zeroKey 0 ⟨b!"hi", 0⟩ ?_ ?_
    ⟨⟨b!"untrusted comment: \nQUJD\n", 0⟩, ⟨[], b!"ABC"⟩, ?_, by decide +kernel, by decide⟩,
    ⟨[], 0⟩, ⟨[], []⟩, setFile_self _ _ _, by decide +kernel, by decide⟩
  · show _ = _
    rw [World.setFile_other _ _ (by decide), World.setFile_other _ _ (by decide), World.setFile_self]
  · rw [World.setFile_other _ _ (by decide), World.setFile_self]
  · exact World.setFile_self _ _ _

/-- C78: apart from that no call of the library panics, and none runs forever: from every state, for all contents of all files, all
entries at the terminal and under every schedule of failures and short reads, each call ends with nil or an error, unless the
process is killed. For `Open`, whose loops read the encrypted file byte by byte, the fuel has to exceed the length of that file (see
`C78_fuel`). Not claimed, because false: the same for `Verify` with too short a signature. -/
theorem C78_returns_partial (P : Prims) (fuel : Nat) (c : Call) (w : World)
    (hv : ∀ p m s, c = .verify p m s → ¬ ShortData w (sigPath m s))
    (hf : ∀ k e m, c = .decrypt k e m → ∀ f, w.fs e = some f → f.data.length < fuel) :
    (c.act P fuel w).1 = .ok () ∨ (∃ e, (c.act P fuel w).1 = .err e) ∨ (c.act P fuel w).1 = .crash := by
  have key : ∀ {r : Res Unit}, r.Clean ∨ r = .crash → r = .ok () ∨ (∃ e, r = .err e) ∨ r = .crash := by
    rintro r ((⟨x, rfl⟩ | ⟨e, rfl⟩) | rfl)
    · exact .inl rfl
    · exact .inr (.inl ⟨e, rfl⟩)
    · exact .inr (.inr rfl)
  apply key
  cases c with
  | generate base pw rounds => exact GenerateKey_returns P base pw rounds w
  | sign k m s => exact Sign_returns P k m s w
  | verify p m s =>
    exact Verify_returns P p m s w fun f d h1 h2 => Nat.not_lt.mp fun h => hv p m s rfl ⟨f, d, h1, h2, h⟩
  | encrypt p m e => exact Seal_returns P p m e w
  | decrypt k e m => exact Open_returns P fuel k e m w (hf k e m rfl)

/-- C78: every two amounts of fuel that exceed the length of the encrypted file give the same run of `Open`: the fuel is not a
restriction of the model. -/
theorem C78_fuel (P : Prims) (fuel fuel' : Nat) (kp ep mp : Path) (w : World)
    (hf : ∀ f, w.fs ep = some f → f.data.length < fuel ∧ f.data.length < fuel') : Open P fuel kp ep mp w = Open P fuel' kp ep mp w := by
  have key : ∀ a b, a ≤ b → (∀ f, w.fs ep = some f → f.data.length < a) → Open P b kp ep mp w = Open P a kp ep mp w := by
    intro a b hab ha
    apply Open_mono P hab kp ep mp w
    intro h
    have := Open_returns P a kp ep mp w ha
    rw [h] at this
    simp [Res.Clean] at this
  rcases Nat.le_total fuel fuel' with h | h
  · exact (key fuel fuel' h fun f hf' => (hf f hf').1).symm
  · exact key fuel' fuel h fun f hf' => (hf f hf').2

theorem orExit_status {α : Type} {op : Act World α} {errMsg : GoErr → Bytes} {rest : α → World → Exit × World} {w : World}
    (h : (op w).1.Clean ∨ (op w).1 = .crash)
    (hr : ∀ x w', (rest x w').1 = .status 0 ∨ (rest x w').1 = .status 1 ∨ (rest x w').1 = .crash) :
    (orExit op errMsg rest w).1 = .status 0 ∨ (orExit op errMsg rest w).1 = .status 1 ∨ (orExit op errMsg rest w).1 = .crash := by
  unfold orExit
  rcases ho : op w with ⟨r, w'⟩
  rw [ho] at h
  cases r with
  | ok x => exact hr x w'
  | err e => exact .inr (.inl rfl)
  | crash => exact .inr (.inr rfl)
  | panic => simp [Res.Clean] at h
  | hang => simp [Res.Clean] at h

/-- C78: the process always ends with status 0 or 1, unless it is killed: never with the status 2 of a Go panic, never not at all.
Excepted is the verification of too short a signature. -/
theorem C78_process_partial (P : Prims) (fuel : Nat) (env : CliEnv) (f : Flags) (w : World)
    (hs : Flags.op f = some .verify → ¬ ShortData w (sigPath f.messageFile f.signatureFile))
    (hf : ∀ fe, w.fs f.encryptedFile = some fe → fe.data.length < fuel) :
    (cliMain P fuel env f w).1 = .status 0 ∨ (cliMain P fuel env f w).1 = .status 1 ∨ (cliMain P fuel env f w).1 = .crash := by
  have hd : ∀ m (x : Unit) (w' : World), (done m x w').1 = .status 0 ∨ (done m x w').1 = .status 1 ∨ (done m x w').1 = .crash :=
    fun _ _ _ => .inl rfl
  unfold cliMain
  dsimp only
  generalize (if f.privKeyFile = [] ∧ defaultKeyBase env.join env.user ≠ [] then
        defaultKeyBase env.join env.user ++ b!".sec" else f.privKeyFile) = sec
  generalize (if f.pubKeyFile = [] ∧ defaultKeyBase env.join env.user ≠ [] then
        defaultKeyBase env.join env.user ++ b!".pub" else f.pubKeyFile) = pub
  by_cases hg : f.generate = true
  · rw [if_pos hg]
    unfold cliGenerate
    by_cases hp : pub = []
    · rw [if_pos hp]; exact .inr (.inl rfl)
    · rw [if_neg hp]
      dsimp only
      split
      · exact orExit_status (passphrasePrompt_returns true w) fun b w' =>
          orExit_status (GenerateKey_returns P pub _ none w') (hd _)
      · exact orExit_status (GenerateKey_returns P pub _ none w) (hd _)
  rw [if_neg hg]
  by_cases hs' : f.sign = true
  · rw [if_pos hs']
    split
    · exact .inr (.inl rfl)
    · exact orExit_status (Sign_returns P _ _ _ w) (hd _)
  rw [if_neg hs']
  by_cases hv : f.verify = true
  · rw [if_pos hv]
    refine orExit_status (Verify_returns P _ _ _ w fun g d h1 h2 => Nat.not_lt.mp fun h => ?_) (hd _)
    refine hs ?_ ⟨g, d, h1, h2, h⟩
    simp only [Flags.op, hg, hs', hv, Bool.false_eq_true, if_false, if_true]
  rw [if_neg hv]
  by_cases he : f.encrypt = true
  · rw [if_pos he]; exact orExit_status (Seal_returns P _ _ _ w) (hd _)
  rw [if_neg he]
  by_cases hx : f.decrypt = true
  · rw [if_pos hx]; exact orExit_status (Open_returns P fuel _ _ _ w hf) (hd _)
  · rw [if_neg hx]; exact .inr (.inl rfl)

example : ∀ f, calm.fs b!"m.enc" = some f → f.data.length < 100000 := by
  intro f h
  have : calm.fs b!"m.enc" = none := by decide +kernel
  rw [this] at h; cases h

/-! ### C79 -/

/-- C79: `GenerateKey`, `Verify` and `Seal` do not use the terminal at all: they ask for nothing and print nothing. -/
theorem C79_silent (P : Prims) (w : World) (a : Act World Unit)
    (ha : (∃ base pw rounds, a = GenerateKey P base pw rounds) ∨ (∃ p m s, a = Verify P p m s) ∨ ∃ p m e, a = Seal P p m e) :
    (a w).2.stdout = w.stdout ∧ (a w).2.stderr = w.stderr ∧ (a w).2.tty = w.tty ∧ (a w).2.prompts = w.prompts := by
  rcases ha with ⟨base, pw, rounds, rfl⟩ | ⟨p, m, s, rfl⟩ | ⟨p, m, e, rfl⟩
  · obtain ⟨⟨n, -, h⟩, -⟩ := GenerateKey_drew P base pw rounds w
    exact ⟨h.stdout, h.stderr, h.tty, h.prompts⟩
  · rw [Verify_onlyTick P p m s w]; exact ⟨rfl, rfl, rfl, rfl⟩
  · rcases Seal_drew P p m e w with h | h
    · exact ⟨h.stdout, h.stderr, h.tty, h.prompts⟩
    · exact ⟨h.stdout, h.stderr, h.tty, h.prompts⟩

/-- The text on standard output while a passphrase is asked for: nothing yet, the prompt, the prompt and the end of the line. -/
def promptTexts : List Bytes := [[], b!"Password: ", b!"Password: \n"]

/-- C79: `Sign` and `Open` ask for at most one passphrase, without confirmation, and take at most one entry from the terminal; what
they print is one of three fixed texts, whatever was typed and whatever the files contain; nothing goes to standard error. -/
theorem C79_one_prompt (P : Prims) (fuel : Nat) (w : World) (a : Act World Unit)
    (ha : (∃ k m s, a = Sign P k m s) ∨ ∃ k e m, a = Open P fuel k e m) :
    (∃ t ∈ promptTexts, (a w).2.stdout = w.stdout ++ t) ∧ (a w).2.stderr = w.stderr ∧
    ((a w).2.prompts = w.prompts ∨ (a w).2.prompts = w.prompts ++ [false]) ∧
    ((a w).2.tty = w.tty ∨ ∃ x, w.tty = x :: (a w).2.tty) ∧
    ((a w).2.prompts = w.prompts → (a w).2.tty = w.tty ∧ (a w).2.stdout = w.stdout) := by
  have h : AskedAtMostOnce w (a w).2 := by
    rcases ha with ⟨k, m, s, rfl⟩ | ⟨k, e, m, rfl⟩
    · exact Sign_asked P k m s w
    · exact Open_asked P fuel k e m w
  rcases h with h | h
  · exact ⟨⟨[], by simp [promptTexts], by rw [h.stdout, List.append_nil]⟩, h.stderr, .inl h.prompts, .inl h.tty,
      fun _ => ⟨h.tty, h.stdout⟩⟩
  · refine ⟨?_, h.stderr, .inr h.prompts, ?_, fun hp => ?_⟩
    · rcases h.answer with ⟨-, -, h⟩ | ⟨-, h⟩ | ⟨pw, -, h⟩
      · exact ⟨b!"Password: ", by simp [promptTexts], h⟩
      · exact ⟨b!"Password: ", by simp [promptTexts], h⟩
      · exact ⟨b!"Password: \n", by simp [promptTexts], by rw [h, List.append_assoc]; rfl⟩
    · rcases h.answer with ⟨h1, h2, -⟩ | ⟨h, -⟩ | ⟨pw, h, -⟩
      · exact .inl (h2.trans h1.symm)
      · exact .inr ⟨_, h⟩
      · exact .inr ⟨_, h⟩
    · rw [h.prompts] at hp
      exact absurd hp (by simp)

example : (Sign toy b!"k" b!"m" [] ({ calm with tty := [some b!"A"] }.setFile b!"k" ⟨secretFile lockedKey, 0⟩)).2.stdout =
    b!"Password: \n" := by decide +kernel

/-! ### C80 -/

/-- The line printed on success. -/
def okLine (f : Flags) : Bytes :=
  match Flags.op f with
  | some .verify => f.messageFile ++ b!": OK\n"
  | some .encrypt => f.messageFile ++ b!": OK\n"
  | some .decrypt => f.encryptedFile ++ b!": OK\n"
  | _ => []

/-- What `-G` may additionally show while it asks for the confirmation. -/
def confirmTexts : List Bytes :=
  promptTexts ++ [b!"Password: \nConfirm password: ", b!"Password: \nConfirm password: \n"]

theorem Ends.stdout {r : Res Unit × World} {msg : Bytes} {x : Exit × World} (h : Ends r msg x) :
    x.2.stdout = r.2.stdout ++ (if x.1 = .status 0 then msg else []) := by
  rcases r with ⟨r, w'⟩
  cases r with
  | ok a => rw [show _ = _ from h]; simp
  | err e => obtain ⟨h0, m, -, h⟩ := h; rw [h, h0]; simp
  | panic => rw [show _ = _ from h]; simp
  | crash => rw [show _ = _ from h]; simp
  | hang => rw [show _ = _ from h]; simp

theorem passphrasePrompt_texts (w : World) : ∃ t ∈ confirmTexts, (passphrasePrompt true w).2.stdout = w.stdout ++ t := by
  by_cases h : ∃ a b rest, w.tty = some a :: some b :: rest
  · obtain ⟨a, b, rest, ht⟩ := h
    rw [passphrasePrompt_twice ht]
    exact ⟨b!"Password: \nConfirm password: \n", by simp [confirmTexts], by simp [typedTwice]⟩
  · match ht : w.tty with
    | [] => exact ⟨b!"Password: ", by simp [confirmTexts, promptTexts], by simp [passphrasePrompt, Act.bind_eq, Act.modify, readPassword, World.print, ht]⟩
    | none :: rest => exact ⟨b!"Password: ", by simp [confirmTexts, promptTexts], by simp [passphrasePrompt, Act.bind_eq, Act.modify, readPassword, World.print, ht]⟩
    | [some a] => exact ⟨b!"Password: \nConfirm password: ", by simp [confirmTexts], by simp [passphrasePrompt, Act.bind_eq, Act.modify, readPassword, World.print, ht]⟩
    | some a :: none :: rest => exact ⟨b!"Password: \nConfirm password: ", by simp [confirmTexts], by simp [passphrasePrompt, Act.bind_eq, Act.modify, readPassword, World.print, ht]⟩
    | some a :: some b :: rest => exact absurd ⟨a, b, rest, ht⟩ h

/-- C80: what the process writes to standard output is one of five fixed texts (the prompts), followed, exactly if it ends with
status 0, by the line that names the file, for `-V`, `-E` and `-D`. So neither passphrases nor keys nor messages appear there, and
`OK` is never shown for a failed operation. -/
theorem C80_stdout (P : Prims) (fuel : Nat) (env : CliEnv) (f : Flags) (w : World) :
    ∃ t ∈ confirmTexts, (cliMain P fuel env f w).2.stdout =
      w.stdout ++ t ++ (if (cliMain P fuel env f w).1 = .status 0 then okLine f else []) := by
  have hmem : ∀ {t}, t ∈ promptTexts → t ∈ confirmTexts := fun h => List.mem_append_left _ h
  have hnil : ([] : Bytes) ∈ confirmTexts := by simp [confirmTexts, promptTexts]
  match hop : Flags.op f with
  | none =>
    refine ⟨[], hnil, ?_⟩
    rw [C56_none P fuel env f w hop]
    simp
  | some .verify =>
    have hx := (C56_verify P fuel env f w hop).1
    refine ⟨[], hnil, ?_⟩
    rw [hx.stdout, (C79_silent P w _ (.inr (.inl ⟨_, _, _, rfl⟩))).1]
    simp [okLine, hop]
  | some .encrypt =>
    have hx := (C56_encrypt P fuel env f w hop).1
    refine ⟨[], hnil, ?_⟩
    rw [hx.stdout, (C79_silent P w _ (.inr (.inr ⟨_, _, _, rfl⟩))).1]
    simp [okLine, hop]
  | some .decrypt =>
    have hx := (C56_decrypt P fuel env f w hop).1
    obtain ⟨⟨t, ht, h⟩, -⟩ := C79_one_prompt P fuel w _ (.inr ⟨secPath env f, f.encryptedFile, f.messageFile, rfl⟩)
    refine ⟨t, hmem ht, ?_⟩
    rw [hx.stdout, h]
    simp [okLine, hop]
  | some .sign =>
    by_cases hn : secPath env f = [] ∨ f.messageFile = []
    · obtain ⟨h1, -, h3⟩ := (C56_sign P fuel env f w hop).2 hn
      exact ⟨[], hnil, by rw [h3, h1]; simp⟩
    · obtain ⟨hs, hm⟩ := not_or.mp hn
      have hx := ((C56_sign P fuel env f w hop).1 hs hm).1
      obtain ⟨⟨t, ht, h⟩, -⟩ := C79_one_prompt P fuel w _ (.inl ⟨secPath env f, f.messageFile, f.signatureFile, rfl⟩)
      refine ⟨t, hmem ht, ?_⟩
      rw [hx.stdout, h]
      simp [okLine, hop]
  | some .generate =>
    have hok : okLine f = [] := by simp [okLine, hop]
    have hm : cliMain P fuel env f w = cliGenerate P env f.noPass (pubPath env f) w := by
      simp only [cliMain, op_generate hop, if_true]; rfl
    rw [hm, hok]
    have hgen : ∀ pw w', (orExit (GenerateKey P (pubPath env f) pw none)
        (fun e => b!"Failed to generate keypair: " ++ env.errText e ++ b!"\n") (done []) w').2.stdout = w'.stdout := by
      intro pw w'
      have hx := orExit_ends (GenerateKey P (pubPath env f) pw none)
        (fun e => b!"Failed to generate keypair: " ++ env.errText e ++ b!"\n") [] w' (fun _ => append_ne (by simp)) id
      rw [hx.stdout, (C79_silent P w' _ (.inl ⟨_, _, _, rfl⟩)).1]
      simp
    unfold cliGenerate
    by_cases hp : pubPath env f = []
    · rw [if_pos hp]; exact ⟨[], hnil, by simp [World.eprint]⟩
    · rw [if_neg hp]
      dsimp only
      split
      · obtain ⟨t, ht, h⟩ := passphrasePrompt_texts w
        refine ⟨t, ht, ?_⟩
        simp only [ite_self, List.append_nil]
        rw [← h]
        unfold orExit
        rcases hr : passphrasePrompt true w with ⟨r, w'⟩
        cases r with
        | ok b => exact hgen _ _
        | _ => rfl
      · exact ⟨[], hnil, by rw [hgen]; simp⟩

end Verif.Props
