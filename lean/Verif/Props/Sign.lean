/-
C18-C29: signing and verifying.
-/
import Verif.Lemmas.Files
import Verif.Lemmas.ToBox
import Verif.Model.Crypto
import Verif.Spec.Toy

namespace Verif.Props
open World Spec

/-- Ed25519 signs correctly: a signature made with a generated key is accepted under its public key. -/
def EdCorrect (P : Prims) : Prop :=
  ∀ (seed : Arr 32) (key : Arr 64) (m : Bytes), key.toList = seed.toList ++ (P.edPublic seed).toList →
    P.edVerify (P.edPublic seed) m (P.edSign key m) = true

theorem toy_correct : EdCorrect toy := by
  intro seed key m h
  simp only [toy, h, decide_eq_true_eq]
  rw [List.take_left' (by simp), copyZ_toList, List.take_take,
    List.take_left' (by simp)]

/-! ### C18 -/

/-- C18: a key pair made by `GenerateKey` (under any schedule) signs and verifies. Between the calls the rest of the
machine may change in any way; only the files that the next call reads have to stay. -/
theorem C18_sign_verify (P : Prims) (hed : EdCorrect P) (base dir name : Path) (pw : Bytes) (opts : Option Int)
    (w0 : World) (hgen : (GenerateKey P base pw opts w0).1 = .ok ())
    (hsplit : Splits base dir name) (hnl : 10 ∉ name) (hlen : name.length < 64000)
    (mp sp : Path) (fm : File) (w1 : World) (hq1 : w1.Quiet)
    (hsec : w1.fs (base ++ b!".sec") = (GenerateKey P base pw opts w0).2.fs (base ++ b!".sec"))
    (hmsg : w1.fs mp = some fm) (htty : pw ≠ [] → ∃ rest, w1.tty = some pw :: rest)
    (w2 : World) (hq2 : w2.Quiet)
    (hpub : w2.fs (base ++ b!".pub") = (GenerateKey P base pw opts w0).2.fs (base ++ b!".pub"))
    (hmsg2 : w2.fs mp = some fm)
    (hsig : w2.fs (sigPath mp sp) = (Sign P (base ++ b!".sec") mp sp w1).2.fs (sigPath mp sp)) :
    (Sign P (base ++ b!".sec") mp sp w1).1 = .ok () ∧ (Verify P (base ++ b!".pub") mp sp w2).1 = .ok () := by
  -- the two key files
  obtain ⟨priv, pub, gen, hfsec, hfpub⟩ : ∃ priv pub, Generated P pw opts (draw w0 w0.rngPos 32)
      (draw w0 (w0.rngPos + 32) 16) (draw w0 (w0.rngPos + 48) 8) priv pub ∧
      (∃ m, w1.fs (base ++ b!".sec") = some ⟨secretFile priv, m⟩) ∧
      (∃ m, w2.fs (base ++ b!".pub") = some ⟨publicFile pub, m⟩) := by
    rcases GenerateKey_spec P base pw opts w0 with ⟨-, h⟩ | ⟨priv, pub, gen, h⟩
    · exact absurd hgen h
    · refine ⟨priv, pub, gen, ?_⟩
      cases h with
      | nothing _ hr => exact absurd hgen hr
      | secret _ _ hr => exact absurd hgen hr
      | both k h hr =>
        rw [hr hgen, secText_eq, pubText_eq] at h
        rw [hsec, hpub, h]
        rw [setFile_other _ _ (sec_ne_pub base), setFile_self, setFile_self]
        exact ⟨⟨_, rfl⟩, ⟨_, rfl⟩⟩
  obtain ⟨m1, hfsec⟩ := hfsec
  obtain ⟨m2, hfpub⟩ := hfpub
  obtain ⟨priv', hu, ha, hn, hk⟩ := gen.usable w1.tty htty
  have hparse := readPrivateKeyFile_secret priv
  have hok : (Sign P (base ++ b!".sec") mp sp w1).1 = .ok () := Sign_quiet P hq1 hfsec hparse hmsg hu
  refine ⟨hok, ?_⟩
  -- the signature file
  have hs := (Sign_spec P (base ++ b!".sec") mp sp w1).fs
  rcases hs with ⟨-, h⟩ | ⟨fk, fm', priv2, priv2', k, h1, h2, h3, h4, h5, h6⟩
  · exact absurd hok h
  · rw [hfsec] at h1; cases h1
    rw [hparse] at h2; cases h2
    rw [hmsg] at h3; cases h3
    have := hu.unique h4; subst this
    have hsplit2 : Splits (base ++ b!".sec") dir (name ++ b!".sec") := by
      refine ⟨by rw [hsplit.eq, List.append_assoc], hsplit.dir, ?_⟩
      intro hm; rcases List.mem_append.mp hm with hm | hm
      · exact hsplit.name hm
      · revert hm; decide
    rw [h6 hok, signText_eq P priv' fm.data hsplit2] at h5
    rw [h5, setFile_self] at hsig
    rw [Verify_quiet P hq2 hfpub hmsg2 hsig]
    unfold verifyFiles
    rw [readPublicKeyFile_public, Res.bind_ok, readSignatureFile_signature P priv' _ _ (by
      intro hm; rcases List.mem_append.mp hm with hm | hm
      · exact hnl hm
      · revert hm; decide) (by rw [List.length_append]; simp only [List.length_cons, List.length_nil]; omega), Res.bind_ok]
    refine (verify_ok_iff _ _ _ _).mpr ⟨gen.pubAlgo, ?_, ?_, ?_⟩
    · simp only; rw [ha, gen.algo]
    · simp only; rw [hn, gen.numEq, gen.pubNum]
    · simp only; rw [gen.pubKey]; exact hed _ _ _ hk

/-- The hypotheses of C18 can be met, with and without passphrase. -/
example : EdCorrect toy ∧ (GenerateKey toy b!"d/k" b!"pw" none calm).1 = .ok () ∧
    (GenerateKey toy b!"d/k" [] (some (-5)) calm).1 = .ok () ∧ Splits b!"d/k" b!"d/" b!"k" ∧ calm.Quiet := by
  refine ⟨toy_correct, by rfl, by rfl, ⟨rfl, .inr rfl, by decide⟩, fun _ _ => rfl⟩

/-- The condition on the name in C18 is needed: with a newline in the key's file name, the signature file that `Sign` writes
cannot be read, so no public key whatever verifies it. -/
theorem C18_newline_needed (P : Prims) (priv : Private) (pub m m' : Bytes) :
    signText P priv b!"a\nb.sec" m = signatureFile P priv b!"a\nb.pub" m ∧
    ¬ Accepts P pub m' (signatureFile P priv b!"a\nb.pub" m) := by
  refine ⟨signText_eq P priv (name := b!"a\nb") m ⟨rfl, .inl rfl, by decide⟩, ?_⟩
  rintro ⟨dp, ds, -, h, -⟩
  revert h
  generalize hrest : [10] ++ base64 (priv.keyAlgo.toList ++ priv.keyNum.toList ++ (P.edSign priv.key m).toList) ++ [10] = rest
  have hr : ∃ t, rest = 10 :: t := ⟨_, hrest.symm⟩
  obtain ⟨t, rfl⟩ := hr
  have hfile : signatureFile P priv b!"a\nb.pub" m = b!"untrusted comment: verify with a" ++ 10 :: (b!"b.pub" ++ 10 :: t) := by
    rw [← hrest]; simp [signatureFile, commentTag]
  rw [hfile, readDataFileBytes,
    scanLoop_comment (tok := b!"verify with a") (scanLine_line (by decide) (by decide)),
    scanLoop_data (tok := b!"b.pub") (scanLine_line (by decide) (by decide)) (by decide)]
  have : B64.decodeString b!"b.pub" = .corrupt := by decide +kernel
  simp only [this]
  simp

/-! ### C19 -/

/-- C19: under every schedule, `Verify` returns nil only if the three files exist and the signature is to be accepted. -/
theorem C19_sound (P : Prims) (pp mp sp : Path) (w : World) (h : (Verify P pp mp sp w).1 = .ok ()) :
    ∃ fp fm fs, w.fs pp = some fp ∧ w.fs mp = some fm ∧ w.fs (sigPath mp sp) = some fs ∧
      Accepts P fp.data fm.data fs.data := by
  obtain ⟨fp, fm, fs, h1, h2, h3, h4⟩ := Verify_ok P pp mp sp w h
  exact ⟨fp, fm, fs, h1, h2, h3, (verifyFiles_ok_iff _ _ _ _).mp h4⟩

/-- C19: with no faults, exactly then. -/
theorem C19_exact (P : Prims) (pp mp sp : Path) (w : World) (hq : w.Quiet) :
    (Verify P pp mp sp w).1 = .ok () ↔ ∃ fp fm fs, w.fs pp = some fp ∧ w.fs mp = some fm ∧
      w.fs (sigPath mp sp) = some fs ∧ Accepts P fp.data fm.data fs.data := by
  refine ⟨C19_sound P pp mp sp w, ?_⟩
  rintro ⟨fp, fm, fs, h1, h2, h3, h4⟩
  rw [Verify_quiet P hq h1 h2 h3]
  exact (verifyFiles_ok_iff _ _ _ _).mpr h4

/-- There are files that are accepted. -/
theorem accepted : ∃ pub sig, Accepts toy pub b!"hello" sig := by
  let priv : Private :=
    { keyAlgo := copyZ 2 b!"Ed", kdfAlgo := copyZ 2 b!"BK", kdfRounds := 0, salt := copyZ 16 [], checksum := copyZ 8 [],
      keyNum := copyZ 8 b!"12345678", key := copyZ 64 b!"abc" }
  let pub : Public := { keyAlgo := copyZ 2 b!"Ed", keyNum := copyZ 8 b!"12345678", key := copyZ 32 b!"abc" }
  refine ⟨publicFile pub, signatureFile toy priv b!"k.pub" b!"hello", ?_⟩
  rw [← verifyFiles_ok_iff, verifyFiles, readPublicKeyFile_public, Res.bind_ok,
    readSignatureFile_signature _ _ _ _ (by decide) (by decide), Res.bind_ok, verify_ok_iff]
  decide +kernel

/-! ### C20 -/

/-- C20: under every schedule, however it ends, `Verify` changes nothing but the number of system calls made. -/
theorem C20_read_only (P : Prims) (pp mp sp : Path) (w : World) :
    (Verify P pp mp sp w).2 = { w with tick := (Verify P pp mp sp w).2.tick } := Verify_onlyTick P pp mp sp w

/-! ### C21 -/

/-- C21: no file but the signature file changes, under every schedule. -/
theorem C21_frame (P : Prims) (pk mp sp : Path) (w : World) (q : Path) (h : q ≠ sigPath mp sp) :
    (Sign P pk mp sp w).2.fs q = w.fs q := by
  rcases (Sign_spec P pk mp sp w).fs with ⟨h1, -⟩ | ⟨_, _, _, _, _, _, _, _, _, h1, -⟩
  · rw [h1]
  · rw [h1, setFile_other _ _ h]

/-- C21: if there is no readable key that the typed passphrase opens, or no message, nothing changes and the call fails. -/
theorem C21_nothing_before (P : Prims) (pk mp sp : Path) (w : World)
    (h : ¬ ∃ fk fm priv priv', w.fs pk = some fk ∧ readPrivateKeyFile fk.data = .ok priv ∧ w.fs mp = some fm ∧
      Usable P w.tty priv priv') :
    (Sign P pk mp sp w).2.fs = w.fs ∧ (Sign P pk mp sp w).1 ≠ .ok () := by
  rcases (Sign_spec P pk mp sp w).fs with h1 | ⟨fk, fm, priv, priv', _, h1, h2, h3, h4, -⟩
  · exact h1
  · exact absurd ⟨fk, fm, priv, priv', h1, h2, h3, h4⟩ h

/-- A call that does not go through. -/
def Faulty : Decision → Prop
  | .fail _ => True
  | .crash _ => True
  | _ => False

theorem readFile_faulty {p : Path} {w : World} (h : Faulty (w.sched w.tick)) : ∀ d, (readFile p w).1 ≠ .ok d := by
  intro d
  unfold readFile
  cases hs : w.sched w.tick <;> rw [hs] at h <;> simp [Faulty] at h ⊢

theorem signWith_faulty (P : Prims) (priv : Private) (pk mp sp : Path) (w : World) (h : Faulty (w.sched w.tick)) :
    (signWith P priv pk mp sp w).2.fs = w.fs ∧ (signWith P priv pk mp sp w).1 ≠ .ok () := by
  have h1 := readFile_faulty (p := mp) h
  have h2 := (readFile_spec mp w).1
  unfold signWith
  rw [Act.bind_eq]
  rcases hr : readFile mp w with ⟨r, w'⟩
  rw [hr] at h1 h2
  cases r with
  | ok d => exact absurd rfl (h1 d)
  | _ => refine ⟨?_, by simp⟩; change w' = _ at h2; rw [h2]

/-- C21: if the read of the key (the first system call) or of the message (the second) fails, nothing changes. -/
theorem C21_nothing_on_read_failure (P : Prims) (pk mp sp : Path) (w : World)
    (h : Faulty (w.sched w.tick) ∨ Faulty (w.sched (w.tick + 1))) :
    (Sign P pk mp sp w).2.fs = w.fs ∧ (Sign P pk mp sp w).1 ≠ .ok () := by
  by_cases hl : ∃ priv, (loadPrivateKey pk w).1 = .ok priv
  · obtain ⟨priv, hl⟩ := hl
    have h1 : Faulty (w.sched (w.tick + 1)) := by
      rcases h with h | h
      · exfalso
        unfold loadPrivateKey at hl
        rw [Act.bind_eq] at hl
        have h3 := readFile_faulty (p := pk) h
        rcases hr : readFile pk w with ⟨r, w'⟩
        rw [hr] at h3 hl
        cases r with
        | ok d => exact absurd rfl (h3 d)
        | _ => simp at hl
      · exact h
    by_cases he : priv.kdfRounds = 0
    · rw [Sign_unfold P pk mp sp w hl, if_neg (by rw [(not_isEncrypted_iff priv).mpr he]; decide)]
      exact signWith_faulty P priv pk mp _ { w with tick := w.tick + 1 } h1
    · cases ht : w.tty with
      | nil =>
        rw [Sign_unfold P pk mp sp w hl, if_pos ((isEncrypted_iff priv).mpr he), Act.bind_eq,
          passphrasePrompt_nil (w := { w with tick := w.tick + 1 }) ht]
        exact ⟨rfl, by simp⟩
      | cons x rest =>
        cases x with
        | none =>
          rw [Sign_unfold P pk mp sp w hl, if_pos ((isEncrypted_iff priv).mpr he), Act.bind_eq,
            passphrasePrompt_none (w := { w with tick := w.tick + 1 }) ht]
          exact ⟨rfl, by simp⟩
        | some pw =>
          have heq := Sign_typed P pk mp sp w hl he ht
          simp only at heq
          rw [heq]
          generalize hw1 : ({ w with
            tick := w.tick + 1, prompts := w.prompts ++ [false], tty := rest, bufs := w.bufs ++ [pw],
            stdout := w.stdout ++ b!"Password: " ++ b!"\n" } : World) = w1
          have hfa : Faulty (w1.sched w1.tick) := by rw [← hw1]; exact h1
          have hfs : w1.fs = w.fs := by rw [← hw1]
          rcases decrypt_clean P pw priv with hd | ⟨e, hd⟩
          · have hsf := signWith_faulty P (Private.decrypt P pw priv).2 pk mp (sigPath mp sp) w1 hfa
            rw [Act.deferring, hd, Act.bind_eq]
            simp only [Act.ofRes_apply]
            revert hsf
            rcases signWith P (Private.decrypt P pw priv).2 pk mp (sigPath mp sp) w1 with ⟨r, w2⟩
            intro hsf
            rw [← hfs]
            cases r <;> exact hsf
          · rw [Act.deferring, hd, Act.bind_eq]
            exact ⟨hfs, by simp⟩
  · obtain ⟨h1, h2⟩ := Sign_fail P pk mp sp w fun priv h => hl ⟨priv, h⟩
    exact ⟨by rw [h1], h2⟩

/-! ### C22 -/

/-- C22: under every schedule the signature path is untouched or holds a prefix of the complete signature file made with a
usable key over the message; if `Sign` returns nil it holds the complete file. (`C24_name` gives the name.) -/
theorem C22_prefix (P : Prims) (pk mp sp : Path) (w : World) (dir name : Path)
    (hs : Splits pk dir (name ++ b!".sec")) :
    ((Sign P pk mp sp w).2.fs (sigPath mp sp) = w.fs (sigPath mp sp) ∧ (Sign P pk mp sp w).1 ≠ .ok ()) ∨
    ∃ fk fm priv priv' f, w.fs pk = some fk ∧ readPrivateKeyFile fk.data = .ok priv ∧ w.fs mp = some fm ∧
      Usable P w.tty priv priv' ∧ (Sign P pk mp sp w).2.fs (sigPath mp sp) = some f ∧
      f.data <+: signatureFile P priv' (name ++ b!".pub") fm.data ∧
      ((Sign P pk mp sp w).1 = .ok () → f.data = signatureFile P priv' (name ++ b!".pub") fm.data) := by
  rcases (Sign_spec P pk mp sp w).fs with ⟨h1, h2⟩ | ⟨fk, fm, priv, priv', k, h1, h2, h3, h4, h5, h6⟩
  · exact .inl ⟨by rw [h1], h2⟩
  · right
    rw [signText_eq P priv' fm.data hs] at h5 h6
    exact ⟨fk, fm, priv, priv', _, h1, h2, h3, h4, by rw [h5, setFile_self], List.take_prefix _ _, h6⟩

/-! ### C23 -/

/-- C23: the default paths. -/
theorem C23_default_paths (P : Prims) (a mp : Path) (w : World) :
    Sign P a mp [] w = Sign P a mp (mp ++ b!".sig") w ∧ Verify P a mp [] w = Verify P a mp (mp ++ b!".sig") w ∧
    Seal P a mp [] w = Seal P a mp (mp ++ b!".enc") w := by
  have h1 : (if mp ++ b!".sig" = [] then mp ++ b!".sig" else mp ++ b!".sig") = mp ++ b!".sig" := by simp
  have h2 : (if mp ++ b!".enc" = [] then mp ++ b!".enc" else mp ++ b!".enc") = mp ++ b!".enc" := by simp
  refine ⟨?_, ?_, ?_⟩
  · simp only [Sign, h1, if_true]
  · simp only [Verify, h1, if_true]
  · simp only [Seal, h2, if_true]

/-! ### C24 -/

/-- C24: when `Sign` returns nil, the signature file names the public key file and carries algorithm tag, key number and the
signature over the message file's bytes. For a key path with the suffix `.sec`. -/
theorem C24_content (P : Prims) (pk mp sp : Path) (w : World) (dir name : Path) (hs : Splits pk dir (name ++ b!".sec"))
    (h : (Sign P pk mp sp w).1 = .ok ()) :
    ∃ fk fm priv priv' f, w.fs pk = some fk ∧ readPrivateKeyFile fk.data = .ok priv ∧ w.fs mp = some fm ∧
      Usable P w.tty priv priv' ∧ (Sign P pk mp sp w).2.fs (sigPath mp sp) = some f ∧
      f.data = signatureFile P priv' (name ++ b!".pub") fm.data := by
  rcases C22_prefix P pk mp sp w dir name hs with ⟨-, h1⟩ | ⟨fk, fm, priv, priv', f, h1, h2, h3, h4, h5, -, h6⟩
  · exact absurd h h1
  · exact ⟨fk, fm, priv, priv', f, h1, h2, h3, h4, h5, h6 h⟩

/-- C24: the same for a key path without that suffix; `.pub` is appended. -/
theorem C24_content_other (P : Prims) (pk mp sp : Path) (w : World) (dir name : Path) (hs : Splits pk dir name)
    (hn : ¬ b!".sec" <:+ name) (h : (Sign P pk mp sp w).1 = .ok ()) :
    ∃ fk fm priv priv' f, w.fs pk = some fk ∧ readPrivateKeyFile fk.data = .ok priv ∧ w.fs mp = some fm ∧
      Usable P w.tty priv priv' ∧ (Sign P pk mp sp w).2.fs (sigPath mp sp) = some f ∧
      f.data = signatureFile P priv' (name ++ b!".pub") fm.data := by
  rcases (Sign_spec P pk mp sp w).fs with ⟨-, h2⟩ | ⟨fk, fm, priv, priv', k, h1, h2, h3, h4, h5, h6⟩
  · exact absurd h h2
  · rw [signText_eq' P priv' fm.data hs hn] at h5 h6
    exact ⟨fk, fm, priv, priv', _, h1, h2, h3, h4, by rw [h5, setFile_self], h6 h⟩

/-- C24: the algorithm tag and key number of the key that signs are those stored in the key file. -/
theorem C24_tags (P : Prims) (tty : List (Option Bytes)) (priv priv' : Private) (h : Usable P tty priv priv') :
    priv'.keyAlgo = priv.keyAlgo ∧ priv'.keyNum = priv.keyNum := by
  rcases h with ⟨-, rfl⟩ | ⟨-, _, _, -, h⟩
  · exact ⟨rfl, rfl⟩
  · rw [h.result]; exact ⟨rfl, rfl⟩

/-- Every path has one of the two forms. -/
example : Splits b!"/home/me/k.sec" b!"/home/me/" (b!"k" ++ b!".sec") ∧ Splits b!"k" [] b!"k" ∧ ¬ b!".sec" <:+ b!"k" := by
  refine ⟨⟨rfl, .inr rfl, by decide⟩, ⟨rfl, .inl rfl, by decide⟩, by decide⟩

/-! ### C25 -/

/-- C25: with an encrypted key, a file changes or `Sign` returns nil only if the typed passphrase opens the key. -/
theorem C25_checked (P : Prims) (pk mp sp : Path) (w : World) (fk : File) (priv : Private) (hk : w.fs pk = some fk)
    (hparse : readPrivateKeyFile fk.data = .ok priv) (he : priv.kdfRounds ≠ 0)
    (h : (Sign P pk mp sp w).2.fs ≠ w.fs ∨ (Sign P pk mp sp w).1 = .ok ()) :
    ∃ pw rest priv', w.tty = some pw :: rest ∧ Unlocks P pw priv priv' := by
  rcases (Sign_spec P pk mp sp w).fs with ⟨h1, h2⟩ | ⟨fk', fm, priv2, priv', k, h1, h2, h3, h4, h5, h6⟩
  · rcases h with h | h
    · exact absurd h1 h
    · exact absurd h h2
  · rw [hk] at h1; cases h1
    rw [hparse] at h2; cases h2
    rcases h4 with ⟨h4, -⟩ | ⟨-, pw, rest, h4, h5⟩
    · exact absurd h4 he
    · exact ⟨pw, rest, priv', h4, h5⟩

/-- C25: with no faults, an encrypted key and a passphrase that does not open it, the result is an error (no panic) and no
file changes. -/
theorem C25_error (P : Prims) (pk mp sp : Path) (w : World) (hq : w.Quiet) (fk : File) (priv : Private)
    (hk : w.fs pk = some fk) (hparse : readPrivateKeyFile fk.data = .ok priv) (he : priv.kdfRounds ≠ 0) (pw : Bytes)
    (rest : List (Option Bytes)) (ht : w.tty = some pw :: rest) (hbad : ∀ priv', ¬ Unlocks P pw priv priv') :
    (∃ e, (Sign P pk mp sp w).1 = .err e) ∧ (Sign P pk mp sp w).2.fs = w.fs := by
  have hl : (loadPrivateKey pk w).1 = .ok priv := by rw [loadPrivateKey_quiet hq hk, hparse]
  have heq := Sign_typed P pk mp sp w hl he ht
  simp only at heq
  rcases decrypt_clean P pw priv with hd | ⟨e, hd⟩
  · exact absurd ((decrypt_ok_iff P pw he).mp (Prod.ext hd rfl)) (hbad _)
  · rw [heq, Act.deferring, hd, Act.bind_eq]
    exact ⟨⟨e, rfl⟩, rfl⟩

example : Unlocks toy b!"A" lockedKey { lockedKey with key := Vector.replicate 64 0 } ∧
    ∀ priv', ¬ Unlocks toy b!"B" lockedKey priv' := by
  refine ⟨⟨by decide +kernel, by decide, by decide +kernel, by decide +kernel⟩, ?_⟩
  rintro priv' ⟨-, -, h, h2⟩
  subst h
  revert h2; decide +kernel

/-! ### C26 -/

/-- C26, the true part: encrypted keys are checked by `Sign` (C25), and by `ToBox`. For unencrypted keys the claim is false, see
`C26_sign_negation` and `C26_toBox_negation`. -/
theorem C26_encrypted_partial (P : Prims) (priv : Private) (w : World) (he : priv.kdfRounds ≠ 0) (k : Arr 32)
    (h : (Private.toBox P (priv, w)).1 = .ok k) :
    (P.sha512 (Private.toBox P (priv, w)).2.1.key.toList).toList.take 8 = priv.checksum.toList := by
  by_cases hc : priv.check P = .ok ()
  · rw [toBox_checked P priv w hc]
    exact (check_ok_iff P priv).mp hc
  · cases ht : w.tty with
    | nil => rw [(toBox_noPrompt P priv w hc (.inl ht)).1] at h; simp at h
    | cons x rest =>
      cases x with
      | none => rw [(toBox_noPrompt P priv w hc (.inr ⟨rest, ht⟩)).1] at h; simp at h
      | some pw =>
        rw [toBox_typed P priv w hc ht] at h ⊢
        rcases decrypt_clean P pw priv with hd | ⟨e, hd⟩
        · exact ((decrypt_ok_iff P pw he).mp (Prod.ext hd rfl)).checksum
        · rw [hd] at h; simp at h

/-- C26 is false for `Sign`: with every unencrypted key, whatever its checksum and algorithm tag, it signs and returns nil. -/
theorem C26_sign_negation (P : Prims) (priv : Private) (he : priv.kdfRounds = 0)
    (_bad : (P.sha512 priv.key.toList).toList.take 8 ≠ priv.checksum.toList) (pk mp sp : Path) (w : World) (hq : w.Quiet)
    (mode : Nat) (fm : File) (hk : w.fs pk = some ⟨secretFile priv, mode⟩) (hm : w.fs mp = some fm) :
    (Sign P pk mp sp w).1 = .ok () :=
  Sign_quiet P hq hk (readPrivateKeyFile_secret priv) hm (.inl ⟨he, rfl⟩)

/-- C26 is false for `ToBox`: with every unencrypted key with a wrong checksum it asks for a passphrase and, whatever the
answer, returns a key. -/
theorem C26_toBox_negation (P : Prims) (priv : Private) (he : priv.kdfRounds = 0)
    (bad : (P.sha512 priv.key.toList).toList.take 8 ≠ priv.checksum.toList) (w : World) (pw : Bytes)
    (rest : List (Option Bytes)) (ht : w.tty = some pw :: rest) :
    ∃ k, (Private.toBox P (priv, w)).1 = .ok k ∧ (Private.toBox P (priv, w)).2.2.prompts = w.prompts ++ [false] := by
  have hc : priv.check P ≠ .ok () := fun h => bad ((check_ok_iff P priv).mp h)
  rw [toBox_typed P priv w hc ht, decrypt_plain P pw he]
  exact ⟨_, rfl, rfl⟩

/-- There are such keys. -/
example : ∃ priv : Private, priv.kdfRounds = 0 ∧ (toy.sha512 priv.key.toList).toList.take 8 ≠ priv.checksum.toList :=
  ⟨{ lockedKey with kdfRounds := 0 }, rfl, by decide +kernel⟩

/-! ### C27 -/

/-- C27, the true part: with no faults and the three files present, `Verify` returns normally unless the signature file
decodes to fewer than 10 bytes (and the public key is well-formed); exactly then it panics. -/
theorem C27_panic_iff_partial (P : Prims) (pp mp sp : Path) (w : World) (hq : w.Quiet) (fp fm fs : File)
    (h1 : w.fs pp = some fp) (h2 : w.fs mp = some fm) (h3 : w.fs (sigPath mp sp) = some fs) :
    ((Verify P pp mp sp w).1 = .panic ↔ (∃ pub, readPublicKeyFile fp.data = .ok pub) ∧
      ∃ ds, readDataFileBytes fs.data = .ok ds ∧ ds.data.length < 10) ∧
    ((Verify P pp mp sp w).1 ≠ .panic → (Verify P pp mp sp w).1.Clean) := by
  rw [Verify_quiet P hq h1 h2 h3]
  refine ⟨verifyFiles_panic_iff P _ _ _, ?_⟩
  intro hne
  have hiff := verifyFiles_panic_iff P fp.data fm.data fs.data
  unfold verifyFiles at hne hiff ⊢
  rcases publicFile_clean fp.data with ⟨pub, hp⟩ | ⟨e, hp⟩
  · rw [hp, Res.bind_ok] at hne hiff ⊢
    rcases dataFile_clean fs.data with ⟨ds, hd⟩ | ⟨e, hd⟩
    · by_cases hl : ds.data.length < 10
      · exact absurd (hiff.mpr ⟨⟨pub, rfl⟩, ds, hd, hl⟩) hne
      · obtain ⟨s, hs, -⟩ := readSignatureData_ok ds.data (by omega)
        rw [readSignatureFile, hd, Res.bind_ok, hs, Res.bind_ok]
        exact verify_clean P pub fm.data s
    · rw [readSignatureFile, hd]; exact .inr ⟨e, rfl⟩
  · rw [hp]; exact .inr ⟨e, rfl⟩

/-- C27 is false: an empty signature file makes `Verify` panic, whatever the public key and the message. -/
theorem C27_empty_negation (P : Prims) (pp mp sp : Path) (w : World) (hq : w.Quiet) (pub : Public) (m1 m2 : Nat) (fm : File)
    (h1 : w.fs pp = some ⟨publicFile pub, m1⟩) (h2 : w.fs mp = some fm) (h3 : w.fs (sigPath mp sp) = some ⟨[], m2⟩) :
    (Verify P pp mp sp w).1 = .panic := by
  refine ((C27_panic_iff_partial P pp mp sp w hq _ _ _ h1 h2 h3).1).mpr ⟨⟨pub, readPublicKeyFile_public pub⟩, ?_⟩
  exact ⟨{ comment := [], data := [] }, by show readDataFileBytes [] = _; decide +kernel, by decide⟩

/-! ### C28 -/

/-- C28: one prompt without confirmation if the key was loaded and is encrypted, under every schedule. -/
theorem C28_prompt_once (P : Prims) (pk mp sp : Path) (w : World) (priv : Private)
    (h : (loadPrivateKey pk w).1 = .ok priv) (he : priv.kdfRounds ≠ 0) :
    (Sign P pk mp sp w).2.prompts = w.prompts ++ [false] := by
  rw [(Sign_spec P pk mp sp w).prompts, h]
  simp only
  rw [if_neg he]

/-- C28: no prompt otherwise. -/
theorem C28_no_prompt (P : Prims) (pk mp sp : Path) (w : World)
    (h : ∀ priv, (loadPrivateKey pk w).1 = .ok priv → priv.kdfRounds = 0) :
    (Sign P pk mp sp w).2.prompts = w.prompts := by
  rw [(Sign_spec P pk mp sp w).prompts]
  cases hl : (loadPrivateKey pk w).1 with
  | ok priv => simp only; rw [if_pos (h priv hl), List.append_nil]
  | _ => simp

/-- What it means that the key was loaded: the file is there and parses, and (with no faults) conversely. -/
theorem C28_loaded (pk : Path) (w : World) (priv : Private) :
    ((loadPrivateKey pk w).1 = .ok priv → ∃ f, w.fs pk = some f ∧ readPrivateKeyFile f.data = .ok priv) ∧
    (w.Quiet → ∀ f, w.fs pk = some f → readPrivateKeyFile f.data = .ok priv → (loadPrivateKey pk w).1 = .ok priv) :=
  ⟨loadPrivateKey_ok, fun hq f h1 h2 => by rw [loadPrivateKey_quiet hq h1, h2]⟩

/-! ### C29 -/

/-- C29: unless the process dies, every passphrase buffer that `Sign` obtained holds only zeros afterwards. -/
theorem C29_wiped (P : Prims) (pk mp sp : Path) (w : World) (h1 : (Sign P pk mp sp w).1 ≠ .crash)
    (h2 : (Sign P pk mp sp w).1 ≠ .hang) :
    ∃ new, (Sign P pk mp sp w).2.bufs = w.bufs ++ new ∧ ∀ b ∈ new, ∀ x ∈ b, x = 0 := by
  obtain ⟨t, h3, h4, -⟩ := (Sign_spec P pk mp sp w).bufs
  exact ⟨t, h3, h4 h1 h2⟩

/-- C29: for an encrypted key there is exactly one such buffer, of the length of the passphrase. -/
theorem C29_one_buffer (P : Prims) (pk mp sp : Path) (w : World) (priv : Private)
    (h : (loadPrivateKey pk w).1 = .ok priv) (he : priv.kdfRounds ≠ 0) (pw : Bytes) (rest : List (Option Bytes))
    (ht : w.tty = some pw :: rest) :
    ∃ b, (Sign P pk mp sp w).2.bufs = w.bufs ++ [b] ∧ b.length = pw.length := by
  obtain ⟨t, h3, -, h4⟩ := (Sign_spec P pk mp sp w).bufs
  have h5 := h4 priv pw rest h he ht
  match t, h3, h5 with
  | [b], h3, h5 => exact ⟨b, h3, by simpa using h5⟩
  | [], _, h5 => simp at h5
  | _ :: _ :: _, _, h5 => simp at h5

/-- C29: `Sign` never panics or hangs, so only the death of the process prevents the wiping. -/
theorem C29_returns (P : Prims) (pk mp sp : Path) : Act.Returns (Sign P pk mp sp) := Sign_returns P pk mp sp

/-- C29, the exception: `ToBox` leaves the passphrase in its buffer. -/
theorem C29_toBox_leaves (P : Prims) (priv : Private) (w : World) (h : priv.check P ≠ .ok ()) (pw : Bytes)
    (rest : List (Option Bytes)) (ht : w.tty = some pw :: rest) :
    (Private.toBox P (priv, w)).2.2.bufs = w.bufs ++ [pw] := by
  rw [toBox_typed P priv w h ht]; rfl

end Verif.Props
