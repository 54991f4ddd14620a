/-
C93: nothing but the files named in a call matters.
-/
import Verif.Lemmas.Footprint
import Verif.Props.Cli

namespace Verif.Props
open World Spec

/-- At the start of a call there are no newly opened files. -/
theorem SameFor.foot {S : Path → Prop} {w w' : World} (h : SameFor S w w') : Foot S w.handles.length w w' :=
  ⟨h, Nat.le_refl _, fun k hd hk hkd => by rw [List.getElem?_eq_none hk] at hkd; cases hkd⟩

theorem onSame {α : Type} {S : Path → Prop} {a : Act World α} (h : ∀ n, On S n a) {w w' : World} (hw : SameFor S w w') :
    (a w).1 = (a w').1 ∧ SameFor S (a w).2 (a w').2 := by
  obtain ⟨h1, h2⟩ := h _ w w' (SameFor.foot hw)
  exact ⟨h1, h2.1⟩

/-- C93: on two machines that differ only in files other than public key, message and signature, under every schedule, `Verify` gives
the same result, and the machines still differ only in those other files. -/
theorem C93_verify (P : Prims) (pp mp sp : Path) (w w' : World)
    (h : SameFor (fun p => p = pp ∨ p = mp ∨ p = sigPath mp sp) w w') :
    (Verify P pp mp sp w).1 = (Verify P pp mp sp w').1 ∧
    SameFor (fun p => p = pp ∨ p = mp ∨ p = sigPath mp sp) (Verify P pp mp sp w).2 (Verify P pp mp sp w').2 :=
  onSame (fun _ => Verify_on P pp mp sp (.inl rfl) (.inr (.inl rfl)) (.inr (.inr rfl))) h

/-- C93: the same for `Sign`; in particular the same signature file is written. -/
theorem C93_sign (P : Prims) (kp mp sp : Path) (w w' : World)
    (h : SameFor (fun p => p = kp ∨ p = mp ∨ p = sigPath mp sp) w w') :
    (Sign P kp mp sp w).1 = (Sign P kp mp sp w').1 ∧
    SameFor (fun p => p = kp ∨ p = mp ∨ p = sigPath mp sp) (Sign P kp mp sp w).2 (Sign P kp mp sp w').2 :=
  onSame (fun _ => Sign_on P kp mp sp (.inl rfl) (.inr (.inl rfl)) (.inr (.inr rfl))) h

/-- C93: the same for `Seal`; in particular the same encrypted file is written. -/
theorem C93_seal (P : Prims) (pp mp ep : Path) (w w' : World)
    (h : SameFor (fun p => p = pp ∨ p = mp ∨ p = encPath mp ep) w w') :
    (Seal P pp mp ep w).1 = (Seal P pp mp ep w').1 ∧
    SameFor (fun p => p = pp ∨ p = mp ∨ p = encPath mp ep) (Seal P pp mp ep w).2 (Seal P pp mp ep w').2 :=
  onSame (fun _ => Seal_on P pp mp ep (.inl rfl) (.inr (.inl rfl)) (.inr (.inr rfl))) h

/-- C93: the same for `Open`; in particular the same plaintext is written. -/
theorem C93_open (P : Prims) (fuel : Nat) (kp ep mp : Path) (w w' : World)
    (h : SameFor (fun p => p = kp ∨ p = ep ∨ p = mp) w w') :
    (Open P fuel kp ep mp w).1 = (Open P fuel kp ep mp w').1 ∧
    SameFor (fun p => p = kp ∨ p = ep ∨ p = mp) (Open P fuel kp ep mp w).2 (Open P fuel kp ep mp w').2 :=
  onSame (fun _ => Open_on P fuel kp ep mp (.inl rfl) (.inr (.inl rfl)) (.inr (.inr rfl))) h

/-- C93: the same for `GenerateKey`. -/
theorem C93_generate (P : Prims) (base : Path) (pw : Bytes) (opts : Option Int) (w w' : World)
    (h : SameFor (fun p => p = base ++ b!".sec" ∨ p = base ++ b!".pub") w w') :
    (GenerateKey P base pw opts w).1 = (GenerateKey P base pw opts w').1 ∧
    SameFor (fun p => p = base ++ b!".sec" ∨ p = base ++ b!".pub") (GenerateKey P base pw opts w).2 (GenerateKey P base pw opts w').2 :=
  onSame (fun _ => GenerateKey_on P base pw opts (.inl rfl) (.inr rfl)) h

/-- The files that a run of the program may look at or write, for the given settings. -/
def Concerns (env : CliEnv) (f : Flags) (p : Path) : Prop :=
  if f.generate then p = pubPath env f ++ b!".sec" ∨ p = pubPath env f ++ b!".pub"
  else if f.sign then p = secPath env f ∨ p = f.messageFile ∨ p = sigPath f.messageFile f.signatureFile
  else if f.verify then p = pubPath env f ∨ p = f.messageFile ∨ p = sigPath f.messageFile f.signatureFile
  else if f.encrypt then p = pubPath env f ∨ p = f.messageFile ∨ p = encPath f.messageFile f.encryptedFile
  else if f.decrypt then p = secPath env f ∨ p = f.encryptedFile ∨ p = f.messageFile
  else False

theorem cliMain_on (P : Prims) (fuel : Nat) (env : CliEnv) (f : Flags) (n : Nat) :
    ExitOn (Concerns env f) n (cliMain P fuel env f) := by
  unfold cliMain
  dsimp only
  have hp : (if f.pubKeyFile = [] ∧ defaultKeyBase env.join env.user ≠ [] then defaultKeyBase env.join env.user ++ b!".pub" else f.pubKeyFile) =
    pubPath env f := rfl
  have hs : (if f.privKeyFile = [] ∧ defaultKeyBase env.join env.user ≠ [] then defaultKeyBase env.join env.user ++ b!".sec" else f.privKeyFile) =
    secPath env f := rfl
  rw [hp, hs]
  generalize hC : Concerns env f = C
  intro w w' hw
  by_cases h1 : f.generate = true
  · simp only [h1, if_true]
    refine cliGenerate_on P env f.noPass (pubPath env f) ?_ ?_ w w' hw <;> subst hC <;> simp [Concerns, h1]
  by_cases h2 : f.sign = true
  · simp only [h1, h2, if_true]
    simp only [Bool.false_eq_true, if_false]
    split
    · exact eprint_on _ _ w w' hw
    · refine orExit_on (Sign_on P _ _ _ ?_ ?_ ?_) _ (done_on []) w w' hw <;> subst hC <;> simp [Concerns, h1, h2, sigPath]
  by_cases h3 : f.verify = true
  · simp only [h1, h2, h3, if_true]
    simp only [Bool.false_eq_true, if_false]
    refine orExit_on (Verify_on P _ _ _ ?_ ?_ ?_) _ (done_on _) w w' hw <;> subst hC <;> simp [Concerns, h1, h2, h3, sigPath]
  by_cases h4 : f.encrypt = true
  · simp only [h1, h2, h3, h4, if_true]
    simp only [Bool.false_eq_true, if_false]
    refine orExit_on (Seal_on P _ _ _ ?_ ?_ ?_) _ (done_on _) w w' hw <;> subst hC <;> simp [Concerns, h1, h2, h3, h4]
  by_cases h5 : f.decrypt = true
  · simp only [h1, h2, h3, h4, h5, if_true]
    simp only [Bool.false_eq_true, if_false]
    refine orExit_on (Open_on P fuel _ _ _ ?_ ?_ ?_) _ (done_on _) w w' hw <;> subst hC <;> simp [Concerns, h1, h2, h3, h4, h5]
  · simp only [h1, h2, h3, h4, h5]
    exact eprint_on _ _ w w' hw

/-- C93: the process. With the same settings, on two machines that differ only in files that are not named (directly or by the defaults),
the exit status, all output and the named files are the same. -/
theorem C93_process (P : Prims) (fuel : Nat) (env : CliEnv) (f : Flags) (w w' : World) (h : SameFor (Concerns env f) w w') :
    (cliMain P fuel env f w).1 = (cliMain P fuel env f w').1 ∧
    (cliMain P fuel env f w).2.stdout = (cliMain P fuel env f w').2.stdout ∧
    (cliMain P fuel env f w).2.stderr = (cliMain P fuel env f w').2.stderr ∧
    SameFor (Concerns env f) (cliMain P fuel env f w).2 (cliMain P fuel env f w').2 := by
  obtain ⟨h1, h2⟩ := cliMain_on P fuel env f _ w w' (SameFor.foot h)
  refine ⟨h1, ?_, ?_, h2.1⟩ <;> rw [h2.1.1]

/-- Machines that differ in other files. -/
example : SameFor (fun p => p = b!"k" ∨ p = b!"m" ∨ p = sigPath b!"m" []) calm (calm.setFile b!"other" ⟨b!"x", 0⟩) ∧
    calm.fs b!"other" ≠ (calm.setFile b!"other" ⟨b!"x", 0⟩).fs b!"other" := by
  refine ⟨⟨rfl, ?_⟩, by decide⟩
  rintro p (rfl | rfl | rfl) <;> decide

end Verif.Props
