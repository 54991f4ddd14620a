/-
C90: the documented session. A user makes a key pair, signs a file, checks it, encrypts it and decrypts it, each time by running
the program with the command lines of the usage text. Each run starts on a machine with the files that the run before left; nothing
else about the machines (open files, random source, terminal, clock of system calls) has to be related.
-/
import Verif.Props.Matching
import Verif.Props.Scalar
import Verif.Props.CommandLine
import Verif.Props.Overwrite

namespace Verif.Props

open World Spec Ed

/-- Key generation succeeds if no system call fails. -/
theorem GenerateKey_ok (P : Prims) (base : Path) {pw : Bytes} {opts : Option Int} (hr : GoodRounds pw opts) {w : World} (hq : w.Quiet) :
    (GenerateKey P base pw opts w).1 = .ok () := by
  obtain ⟨priv, pub, -, -, he⟩ := GenerateKey_sec P base hr w (fun i h _ => hq i h)
  have hq2 : (afterSec w base priv).Quiet := fun i h => hq i (by simp only [afterSec] at h; omega)
  rw [he, writeFile_quiet _ _ _ _ hq2]

/-- The command lines of the five runs. -/
def runG (noPass : Bool) (base : Path) : List Bytes := if noPass then [b!"-G", b!"-n", b!"-p", base] else [b!"-G", b!"-p", base]
def runS (base mp : Path) : List Bytes := [b!"-S", b!"-s", base ++ b!".sec", b!"-m", mp]
def runV (base mp : Path) : List Bytes := [b!"-V", b!"-p", base ++ b!".pub", b!"-m", mp]
def runE (base mp : Path) : List Bytes := [b!"-E", b!"-p", base ++ b!".pub", b!"-m", mp]
def runD (base mp out : Path) : List Bytes := [b!"-D", b!"-s", base ++ b!".sec", b!"-c", mp ++ b!".enc", b!"-m", out]

variable (P : Prims) (fuel : Nat) (env : CliEnv) (text : FlagText)

theorem runG_eq (noPass : Bool) (base : Path) (w : World) :
    psignify P fuel env text (runG noPass base) w =
      cliMain P fuel env { generate := true, noPass := noPass, pubKeyFile := base } w := by
  cases noPass
  · exact C75_options P fuel env text [.switch false 71, .pair false 112 base]
      (by simp [Item.Proper, switchLetters, valueLetters]) [] trivial w
  · exact C75_options P fuel env text [.switch false 71, .switch false 110, .pair false 112 base]
      (by simp [Item.Proper, switchLetters, valueLetters]) [] trivial w

theorem runS_eq (base mp : Path) (w : World) :
    psignify P fuel env text (runS base mp) w =
      cliMain P fuel env { sign := true, privKeyFile := base ++ b!".sec", messageFile := mp } w :=
  C75_options P fuel env text [.switch false 83, .pair false 115 (base ++ b!".sec"), .pair false 109 mp]
    (by simp [Item.Proper, switchLetters, valueLetters]) [] trivial w

theorem runV_eq (base mp : Path) (w : World) :
    psignify P fuel env text (runV base mp) w =
      cliMain P fuel env { verify := true, pubKeyFile := base ++ b!".pub", messageFile := mp } w :=
  C75_options P fuel env text [.switch false 86, .pair false 112 (base ++ b!".pub"), .pair false 109 mp]
    (by simp [Item.Proper, switchLetters, valueLetters]) [] trivial w

theorem runE_eq (base mp : Path) (w : World) :
    psignify P fuel env text (runE base mp) w =
      cliMain P fuel env { encrypt := true, pubKeyFile := base ++ b!".pub", messageFile := mp } w :=
  C75_options P fuel env text [.switch false 69, .pair false 112 (base ++ b!".pub"), .pair false 109 mp]
    (by simp [Item.Proper, switchLetters, valueLetters]) [] trivial w

theorem runD_eq (base mp out : Path) (w : World) :
    psignify P fuel env text (runD base mp out) w =
      cliMain P fuel env { decrypt := true, privKeyFile := base ++ b!".sec", encryptedFile := mp ++ b!".enc", messageFile := out } w :=
  C75_options P fuel env text [.switch false 68, .pair false 115 (base ++ b!".sec"), .pair false 99 (mp ++ b!".enc"), .pair false 109 out]
    (by simp [Item.Proper, switchLetters, valueLetters]) [] trivial w

/-- The paths of the session do not collide: the message, its signature and its encryption are not the key files, and the result
is not written over the encrypted file. (It may be written over the message.) -/
structure Apart (base mp out : Path) : Prop where
  msgSec : mp ≠ base ++ b!".sec"
  msgPub : mp ≠ base ++ b!".pub"
  sigSec : mp ++ b!".sig" ≠ base ++ b!".sec"
  sigPub : mp ++ b!".sig" ≠ base ++ b!".pub"
  encSec : mp ++ b!".enc" ≠ base ++ b!".sec"
  encOut : mp ++ b!".enc" ≠ out

/-- C90: the whole session works, with and without a passphrase, for every key name, message and file system, if the libraries
implement the RFCs, no system call fails and the user types the same passphrase each time. All five runs end with status 0; the
check says so on standard output; the output of the decryption is the message; and files other than the two
key files, the signature, the encrypted file and the output are as before. -/
theorem C90_session (hS : Signs P) (hC : Conforms P) (base dir name mp out : Path)
    (hb : base ≠ []) (hsplit : Splits base dir name) (hnl : 10 ∉ name) (hlen : name.length < 64000) (hmp : mp ≠ [])
    (hap : Apart base mp out)
    (noPass : Bool) (pw : Bytes) (w0 w1 w2 w3 w4 : World)
    (hq0 : w0.Quiet) (hq1 : w1.Quiet) (hq2 : w2.Quiet) (hq3 : w3.Quiet) (hq4 : w4.Quiet)
    (fm : File) (hmsg : w0.fs mp = some fm) (hne : fm.data ≠ []) (hml : fm.data.length < 2 ^ 63)
    (ht0 : if noPass then pw = [] else ∃ rest, w0.tty = some pw :: some pw :: rest)
    (hf1 : w1.fs = (psignify P fuel env text (runG noPass base) w0).2.fs)
    (ht1 : pw ≠ [] → ∃ rest, w1.tty = some pw :: rest)
    (hf2 : w2.fs = (psignify P fuel env text (runS base mp) w1).2.fs)
    (hf3 : w3.fs = (psignify P fuel env text (runV base mp) w2).2.fs)
    (hf4 : w4.fs = (psignify P fuel env text (runE base mp) w3).2.fs)
    (ht4 : pw ≠ [] → ∃ rest, w4.tty = some pw :: rest)
    (hluck : pw ≠ [] → ∀ fk priv, w4.fs (base ++ b!".sec") = some fk → readPrivateKeyFile fk.data = .ok priv →
      (P.sha512 priv.key.toList).toList.take 8 ≠ priv.checksum.toList)
    (hfuel : ∀ fe, w4.fs (mp ++ b!".enc") = some fe → fe.data.length < fuel) :
    (psignify P fuel env text (runG noPass base) w0).1 = .status 0 ∧
    (psignify P fuel env text (runS base mp) w1).1 = .status 0 ∧
    (psignify P fuel env text (runV base mp) w2).1 = .status 0 ∧
    (psignify P fuel env text (runE base mp) w3).1 = .status 0 ∧
    (psignify P fuel env text (runD base mp out) w4).1 = .status 0 ∧
    (psignify P fuel env text (runV base mp) w2).2.stdout = w2.stdout ++ mp ++ b!": OK\n" ∧
    (∃ mode, (psignify P fuel env text (runD base mp out) w4).2.fs out = some ⟨fm.data, mode⟩) ∧
    ∀ q, q ≠ base ++ b!".sec" → q ≠ base ++ b!".pub" → q ≠ mp ++ b!".sig" → q ≠ mp ++ b!".enc" → q ≠ out →
      (psignify P fuel env text (runD base mp out) w4).2.fs q = w0.fs q := by
  simp only [runG_eq, runS_eq, runV_eq, runE_eq, runD_eq] at *
  -- the key pair
  have e0 : pubPath env { generate := true, noPass := noPass, pubKeyFile := base } = base := by simp [pubPath, orDefault, hb]
  have hgood : GoodRounds pw none := by right; decide
  obtain ⟨w0', hfs0, hok0, hst0, hfsG⟩ : ∃ w0' : World, w0'.fs = w0.fs ∧ (GenerateKey P base pw none w0').1 = .ok () ∧
      (cliMain P fuel env { generate := true, noPass := noPass, pubKeyFile := base } w0).1 = .status 0 ∧
      (cliMain P fuel env { generate := true, noPass := noPass, pubKeyFile := base } w0).2.fs = (GenerateKey P base pw none w0').2.fs := by
    obtain ⟨-, h2, h3, -⟩ := C56_generate P fuel env { generate := true, noPass := noPass, pubKeyFile := base } w0 rfl
    rw [e0] at h2 h3
    cases noPass with
    | true =>
      simp only [if_true] at ht0
      subst ht0
      obtain ⟨-, a, b⟩ := h2 hb rfl
      exact ⟨w0, rfl, GenerateKey_ok P base hgood hq0, a.mpr (GenerateKey_ok P base hgood hq0), b⟩
    | false =>
      simp only [Bool.false_eq_true, if_false] at ht0
      obtain ⟨rest, ht0⟩ := ht0
      obtain ⟨-, a, b⟩ := h3 hb rfl pw rest ht0
      have hq' : (typedTwice w0 pw pw rest).Quiet := hq0
      exact ⟨typedTwice w0 pw pw rest, rfl, GenerateKey_ok P base hgood hq', a.mpr (GenerateKey_ok P base hgood hq'), b⟩
  rw [hfsG] at hf1
  -- signing
  have e1 : secPath env { sign := true, privKeyFile := base ++ b!".sec", messageFile := mp } = base ++ b!".sec" := by
    simp [secPath, orDefault]
  obtain ⟨-, s1, s2⟩ := (C56_sign P fuel env { sign := true, privKeyFile := base ++ b!".sec", messageFile := mp } w1 rfl).1
    (by rw [e1]; simp) hmp
  rw [e1] at s1 s2
  dsimp only at s1 s2
  rw [s2] at hf2
  have esig : sigPath mp [] = mp ++ b!".sig" := by simp [sigPath]
  have eenc : encPath mp [] = mp ++ b!".enc" := by simp [encPath]
  -- verifying
  have e2 : pubPath env { verify := true, pubKeyFile := base ++ b!".pub", messageFile := mp } = base ++ b!".pub" := by
    simp [pubPath, orDefault]
  obtain ⟨-, v1, v2, v3⟩ := C56_verify P fuel env { verify := true, pubKeyFile := base ++ b!".pub", messageFile := mp } w2 rfl
  rw [e2] at v1 v2
  dsimp only at v1 v2
  rw [v3] at hf3
  -- encrypting
  have e3 : pubPath env { encrypt := true, pubKeyFile := base ++ b!".pub", messageFile := mp } = base ++ b!".pub" := by
    simp [pubPath, orDefault]
  obtain ⟨-, c1, c2⟩ := C56_encrypt P fuel env { encrypt := true, pubKeyFile := base ++ b!".pub", messageFile := mp } w3 rfl
  rw [e3] at c1 c2
  dsimp only at c1 c2
  rw [c2] at hf4
  -- decrypting
  have e4 : secPath env { decrypt := true, privKeyFile := base ++ b!".sec", encryptedFile := mp ++ b!".enc", messageFile := out } =
      base ++ b!".sec" := by
    simp [secPath, orDefault]
  obtain ⟨-, d1, d2⟩ := C56_decrypt P fuel env
    { decrypt := true, privKeyFile := base ++ b!".sec", encryptedFile := mp ++ b!".enc", messageFile := out } w4 rfl
  rw [e4] at d1 d2
  dsimp only at d1 d2
  -- the files that each run finds
  have m1 : w1.fs mp = some fm := by rw [hf1, C32_frame _ _ _ _ _ _ hap.msgSec hap.msgPub, hfs0, hmsg]
  have hself : mp ≠ mp ++ b!".sig" := by
    intro h'
    have := congrArg List.length h'
    simp at this
  have hself2 : mp ≠ mp ++ b!".enc" := by
    intro h'
    have := congrArg List.length h'
    simp at this
  have g2 : ∀ q, q ≠ mp ++ b!".sig" → w2.fs q = w1.fs q := by
    intro q h; rw [hf2, C21_frame _ _ _ _ _ _ (by rw [esig]; exact h)]
  have g4 : ∀ q, q ≠ mp ++ b!".enc" → w4.fs q = w3.fs q := by
    intro q h; rw [hf4, C43_frame _ _ _ _ _ _ (by rw [eenc]; exact h)]
  have m2 : w2.fs mp = some fm := by rw [g2 _ hself, m1]
  have k2 : w2.fs (base ++ b!".pub") = (GenerateKey P base pw none w0').2.fs (base ++ b!".pub") := by
    rw [g2 _ hap.sigPub.symm, hf1]
  obtain ⟨a, b⟩ := C18_rfc P hS base dir name pw none w0' hok0 hsplit hnl hlen mp [] fm w1 hq1 (by rw [hf1]) m1 ht1 w2 hq2 k2 m2
    (by rw [hf2])
  have k4 : w4.fs (base ++ b!".sec") = (GenerateKey P base pw none w0').2.fs (base ++ b!".sec") := by
    rw [g4 _ hap.encSec.symm, hf3, g2 _ hap.sigSec.symm, hf1]
  obtain ⟨c, d, e⟩ := C36_roundtrip_rfc P hC base pw none w0' hok0 mp [] out fm hne hml w3 hq3 (by rw [hf3, k2]) (by rw [hf3, m2])
    (by rw [eenc]; exact hself2) w4 hq4 k4 (by rw [hf4]) (by rw [eenc]; exact hap.encOut) ht4 hluck fuel (by rw [eenc]; exact hfuel)
  rw [eenc] at d e
  refine ⟨hst0, s1.mpr a, v1.mpr b, c1.mpr c, d1.mpr d, ?_, ?_, ?_⟩
  · rw [v2, if_pos b]
  · rw [d2]; exact e
  · intro q h1 h2 h3 h4 h5
    rw [d2, (C48_frame_partial _ _ _ _ _ _).1 _ h5, g4 _ h4, hf3, g2 _ h3, hf1, C32_frame _ _ _ _ _ _ h1 h2, hfs0]

/-- The machine on which the next run starts in the example below: all as in `calm` but the files. -/
def nextRun (fs : FS) : World := { calm with fs := fs }

/-- The hypotheses of C90 can be met for every implementation of the RFCs, e.g. with a key named `u` and a message of one byte. -/
theorem session_possible (P : Prims) (env : CliEnv) (text : FlagText) : ∃ (fuel : Nat) (w0 w1 w2 w3 w4 : World),
    Splits b!"k/u" b!"k/" b!"u" ∧ Apart b!"k/u" b!"m" b!"o" ∧ w0.Quiet ∧ w1.Quiet ∧ w2.Quiet ∧ w3.Quiet ∧ w4.Quiet ∧
    w0.fs b!"m" = some ⟨b!"x", 0o644⟩ ∧
    w1.fs = (psignify P fuel env text (runG true b!"k/u") w0).2.fs ∧
    w2.fs = (psignify P fuel env text (runS b!"k/u" b!"m") w1).2.fs ∧
    w3.fs = (psignify P fuel env text (runV b!"k/u" b!"m") w2).2.fs ∧
    w4.fs = (psignify P fuel env text (runE b!"k/u" b!"m") w3).2.fs ∧
    ∀ fe, w4.fs (b!"m" ++ b!".enc") = some fe → fe.data.length < fuel := by
  have next : ∀ fs : FS, ∃ w : World, w.Quiet ∧ w.fs = fs := fun fs => ⟨nextRun fs, fun _ _ => rfl, rfl⟩
  obtain ⟨w0, q0, f0⟩ := next (calm.setFile b!"m" ⟨b!"x", 0o644⟩).fs
  obtain ⟨w1, q1, f1⟩ := next (psignify P 0 env text (runG true b!"k/u") w0).2.fs
  obtain ⟨w2, q2, f2⟩ := next (psignify P 0 env text (runS b!"k/u" b!"m") w1).2.fs
  obtain ⟨w3, q3, f3⟩ := next (psignify P 0 env text (runV b!"k/u" b!"m") w2).2.fs
  obtain ⟨w4, q4, f4⟩ := next (psignify P 0 env text (runE b!"k/u" b!"m") w3).2.fs
  -- only decryption uses the bound
  have e : ∀ fuel w, psignify P fuel env text (runG true b!"k/u") w = psignify P 0 env text (runG true b!"k/u") w ∧
      psignify P fuel env text (runS b!"k/u" b!"m") w = psignify P 0 env text (runS b!"k/u" b!"m") w ∧
      psignify P fuel env text (runV b!"k/u" b!"m") w = psignify P 0 env text (runV b!"k/u" b!"m") w ∧
      psignify P fuel env text (runE b!"k/u" b!"m") w = psignify P 0 env text (runE b!"k/u" b!"m") w := by
    intro fuel w
    simp only [runG_eq, runS_eq, runV_eq, runE_eq, cliMain, if_true, Bool.false_eq_true, if_false, and_self]
  refine ⟨(match w4.fs (b!"m" ++ b!".enc") with | some f => f.data.length | none => 0) + 1, w0, w1, w2, w3, w4,
    ⟨rfl, .inr rfl, by decide⟩, ⟨by decide, by decide, by decide, by decide, by decide, by decide⟩,
    q0, q1, q2, q3, q4, by rw [f0]; rfl, ?_, ?_, ?_, ?_, ?_⟩
  · rw [(e _ _).1, f1]
  · rw [(e _ _).2.1, f2]
  · rw [(e _ _).2.2.1, f3]
  · rw [(e _ _).2.2.2, f4]
  · intro fe h
    rw [h]
    exact Nat.lt_succ_self _

/-- A session that does run, and whose hypotheses about the libraries hold too (`Real/Instance.lean`: `real_signs`,
`real_conforms`). -/
theorem C90_example (hS : Signs P) (hC : Conforms P) : ∃ (fuel : Nat) (w4 : World) (mode : Nat),
    (psignify P fuel env text (runD b!"k/u" b!"m" b!"o") w4).1 = .status 0 ∧
    (psignify P fuel env text (runD b!"k/u" b!"m" b!"o") w4).2.fs b!"o" = some ⟨b!"x", mode⟩ := by
  obtain ⟨fuel, w0, w1, w2, w3, w4, h1, h2, q0, q1, q2, q3, q4, hm, f1, f2, f3, f4, hf⟩ := session_possible P env text
  obtain ⟨-, -, -, -, h, -, ⟨mode, h'⟩, -⟩ := C90_session P fuel env text hS hC _ _ _ _ _ (by decide) h1 (by decide) (by decide)
    (by decide) h2 true [] w0 w1 w2 w3 w4 q0 q1 q2 q3 q4 _ hm (by decide) (by decide) rfl f1 (fun h => absurd rfl h) f2 f3 f4
    (fun h => absurd rfl h) (fun h => absurd rfl h) hf
  exact ⟨fuel, w4, mode, h, h'⟩

end Verif.Props
