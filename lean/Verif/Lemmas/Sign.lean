/-
What `Sign`, `Verify` and the passphrase prompt do, under every schedule of the system.
-/
import Verif.Model.Keys
import Verif.Lemmas.World
import Verif.Lemmas.Keys
import Verif.Lemmas.Base64
import Verif.Spec.Key

namespace Verif
open World Spec

/-- The world after the prompt text is printed. -/
def prompted (w : World) (c : Bool) : World :=
  { w with prompts := w.prompts ++ [c], stdout := w.stdout ++ b!"Password: " }

theorem passphrasePrompt_nil {w : World} (h : w.tty = []) :
    passphrasePrompt false w = (.err .io, prompted w false) := by
  unfold passphrasePrompt
  simp only [Act.bind_eq, Act.modify_apply, readPassword, World.print, h, prompted]

theorem passphrasePrompt_none {w : World} {rest} (h : w.tty = none :: rest) :
    passphrasePrompt false w = (.err .io, { prompted w false with tty := rest }) := by
  unfold passphrasePrompt
  simp only [Act.bind_eq, Act.modify_apply, readPassword, World.print, h, prompted]

theorem passphrasePrompt_some {w : World} {pw rest} (h : w.tty = some pw :: rest) :
    passphrasePrompt false w = (.ok w.bufs.length,
      { prompted w false with tty := rest, bufs := w.bufs ++ [pw], stdout := w.stdout ++ b!"Password: " ++ b!"\n" }) := by
  unfold passphrasePrompt
  simp [Act.bind_eq, readPassword, World.print, h, prompted]

theorem zero_bytes (b : Bytes) : (zero (some b)).getD [] = List.replicate b.length 0 := by
  simp [zero, List.map_const']

theorem modify_last (bs : List Bytes) (b : Bytes) (f : Bytes → Bytes) :
    (bs ++ [b]).modify bs.length f = bs ++ [f b] := by
  induction bs with
  | nil => rfl
  | cons x xs ih => simpa using ih

theorem loadPrivateKey_world (p : Path) (w : World) : (loadPrivateKey p w).2 = { w with tick := w.tick + 1 } := by
  have h := (readFile_spec p w).1
  unfold loadPrivateKey
  rw [Act.bind_eq]
  rcases hr : readFile p w with ⟨r, w'⟩
  rw [hr] at h
  cases r <;> exact h

theorem loadPrivateKey_ok {p : Path} {w : World} {priv} (h : (loadPrivateKey p w).1 = .ok priv) :
    ∃ f, w.fs p = some f ∧ readPrivateKeyFile f.data = .ok priv := by
  unfold loadPrivateKey at h
  rw [Act.bind_eq] at h
  rcases hr : readFile p w with ⟨r, w'⟩
  rw [hr] at h
  cases r with
  | ok d =>
    obtain ⟨f, h1, h2, -⟩ := readFile_ok hr
    exact ⟨f, h1, by rw [h2]; exact h⟩
  | _ => simp at h

/-- The complete signature file. -/
def signText (P : Prims) (priv : Private) (pk : Path) (message : Bytes) : Bytes :=
  DataFile.encode { comment := signComment pk, data := B64.encode (priv.sign P message).encode }

/-- The part of `Sign` after the key is ready. -/
theorem signWith_spec (P : Prims) (priv : Private) (pk mp sp : Path) (w : World) :
    w.FrameFS (signWith P priv pk mp sp w).2 ∧
    (((signWith P priv pk mp sp w).2.fs = w.fs ∧ (signWith P priv pk mp sp w).1 ≠ .ok ()) ∨
      ∃ fm k, w.fs mp = some fm ∧
        (signWith P priv pk mp sp w).2.fs =
          (w.setFile sp ⟨(signText P priv pk fm.data).take k, (w.truncated sp 0o644).mode⟩).fs ∧
        ((signWith P priv pk mp sp w).1 = .ok () →
          (signText P priv pk fm.data).take k = signText P priv pk fm.data)) := by
  unfold signWith
  rw [Act.bind_eq]
  have hw := (readFile_spec mp w).1
  rcases hr : readFile mp w with ⟨r, w'⟩
  rw [hr] at hw
  cases r with
  | ok d =>
    obtain ⟨fm, h1, h2, -⟩ := readFile_ok hr
    subst h2
    have hs := writeFile_spec sp (signText P priv pk fm.data) 0o644 w'
    change w' = _ at hw
    subst hw
    refine ⟨hs.frame, ?_⟩
    rcases hs.fs with h3 | ⟨k, h3, h4⟩
    · exact .inl h3
    · exact .inr ⟨fm, k, h1, h3, h4⟩
  | _ =>
    change w' = _ at hw
    subst hw
    exact ⟨rfl, .inl ⟨rfl, by simp⟩⟩

theorem isEncrypted_iff (priv : Private) : priv.isEncrypted = true ↔ priv.kdfRounds ≠ 0 := by
  simp only [Private.isEncrypted, decide_eq_true_eq, ne_eq]
  constructor
  · intro h h0; rw [h0] at h; exact absurd h (by decide)
  · intro h
    apply Nat.pos_of_ne_zero
    intro h0
    exact h (BitVec.eq_of_toNat_eq (by simpa using h0))

theorem not_isEncrypted_iff (priv : Private) : priv.isEncrypted = false ↔ priv.kdfRounds = 0 := by
  have := isEncrypted_iff priv
  cases h : priv.isEncrypted <;> simp [h] at this ⊢ <;> exact this

theorem bcryptKey_eq (P : Prims) (pw : Bytes) (salt : Arr 16) (r : BitVec 32) (h : r ≠ 0) :
    P.bcryptKey pw salt r.toNat = if pw = [] then .err .kdf else .ok (P.bcrypt pw salt r.toNat) := by
  have hr : r.toNat ≠ 0 := fun h0 => h (BitVec.eq_of_toNat_eq (by simpa using h0))
  unfold Prims.bcryptKey
  rw [if_neg (by omega)]
  by_cases hp : pw = []
  · rw [if_pos (by simp [hp]), if_pos hp]
  · rw [if_neg (by simpa using hp), if_neg hp]; simp

/-- The four ways `decrypt` can go. -/
theorem decrypt_plain (P : Prims) (pw : Bytes) {priv : Private} (h : priv.kdfRounds = 0) :
    Private.decrypt P pw priv = (.ok (), priv) := by
  have := (not_isEncrypted_iff priv).mpr h
  simp [Private.decrypt, Act.bind_eq, this]

theorem decrypt_kdf (P : Prims) (pw : Bytes) {priv : Private} (h : priv.kdfRounds ≠ 0)
    (hk : priv.kdfAlgo.toList ≠ b!"BK") : Private.decrypt P pw priv = (.err .unsupportedKdf, priv) := by
  have := (isEncrypted_iff priv).mpr h
  unfold Private.decrypt
  rw [Act.bind_eq]
  simp only [Act.get_apply, this, Bool.not_true, Bool.false_eq_true, if_false]
  rw [if_pos hk]; rfl

theorem decrypt_empty (P : Prims) {priv : Private} (h : priv.kdfRounds ≠ 0)
    (hk : priv.kdfAlgo.toList = b!"BK") : Private.decrypt P [] priv = (.err .kdf, priv) := by
  have := (isEncrypted_iff priv).mpr h
  unfold Private.decrypt
  rw [Act.bind_eq]
  simp only [Act.get_apply, this, Bool.not_true, Bool.false_eq_true, if_false]
  rw [if_neg (by simpa using hk), Act.bind_eq, bcryptKey_eq _ _ _ _ h]
  rfl

theorem decrypt_try (P : Prims) {pw : Bytes} {priv : Private} (h : priv.kdfRounds ≠ 0)
    (hk : priv.kdfAlgo.toList = b!"BK") (hp : pw ≠ []) :
    Private.decrypt P pw priv =
      (Private.check P { priv with key := xorArr priv.key (P.bcrypt pw priv.salt priv.kdfRounds.toNat) },
        { priv with key := xorArr priv.key (P.bcrypt pw priv.salt priv.kdfRounds.toNat) }) := by
  have := (isEncrypted_iff priv).mpr h
  unfold Private.decrypt
  rw [Act.bind_eq]
  simp only [Act.get_apply, this, Bool.not_true, Bool.false_eq_true, if_false]
  rw [if_neg (by simpa using hk), Act.bind_eq, bcryptKey_eq _ _ _ _ h, if_neg hp]
  rfl

theorem check_ok_iff (P : Prims) (priv : Private) :
    priv.check P = .ok () ↔ (P.sha512 priv.key.toList).toList.take 8 = priv.checksum.toList := by
  unfold Private.check
  by_cases h : (P.sha512 priv.key.toList).toList.take 8 = priv.checksum.toList
  · rw [if_neg (by simpa using h)]; simp [h]
  · rw [if_pos h]; simp [h]

theorem check_cases (P : Prims) (priv : Private) : priv.check P = .ok () ∨ priv.check P = .err .badChecksum := by
  unfold Private.check; split <;> simp

theorem decrypt_ok_iff (P : Prims) (pw : Bytes) {priv priv' : Private} (h : priv.kdfRounds ≠ 0) :
    Private.decrypt P pw priv = (.ok (), priv') ↔ Unlocks P pw priv priv' := by
  by_cases hk : priv.kdfAlgo.toList = b!"BK"
  · by_cases hp : pw = []
    · subst hp
      rw [decrypt_empty P h hk]
      exact ⟨fun h => by simp at h, fun h => absurd rfl h.nonempty⟩
    · rw [decrypt_try P h hk hp, Prod.mk.injEq, check_ok_iff]
      constructor
      · rintro ⟨h1, h2⟩; subst h2; exact ⟨hk, hp, rfl, h1⟩
      · intro h1; have := h1.result; subst this; exact ⟨h1.checksum, rfl⟩
  · rw [decrypt_kdf P pw h hk]
    exact ⟨fun h => by simp at h, fun h => absurd h.kdf hk⟩

theorem decrypt_clean (P : Prims) (pw : Bytes) (priv : Private) :
    (Private.decrypt P pw priv).1 = .ok () ∨ ∃ e, (Private.decrypt P pw priv).1 = .err e := by
  by_cases h : priv.kdfRounds = 0
  · rw [decrypt_plain P pw h]; exact .inl rfl
  by_cases hk : priv.kdfAlgo.toList = b!"BK"
  · by_cases hp : pw = []
    · subst hp; rw [decrypt_empty P h hk]; exact .inr ⟨_, rfl⟩
    · rw [decrypt_try P h hk hp]
      rcases check_cases P { priv with key := xorArr priv.key (P.bcrypt pw priv.salt priv.kdfRounds.toNat) } with h | h
      · exact .inl h
      · exact .inr ⟨_, h⟩
  · rw [decrypt_kdf P pw h hk]; exact .inr ⟨_, rfl⟩

/-- What `Sign` does. -/
structure SignSpec (P : Prims) (pk mp sp : Path) (w : World) (r : Res Unit × World) : Prop where
  prompts : r.2.prompts = w.prompts ++
    (match (loadPrivateKey pk w).1 with
      | .ok priv => if priv.kdfRounds = 0 then [] else [false]
      | _ => [])
  bufs : ∃ t, r.2.bufs = w.bufs ++ t ∧ (r.1 ≠ .crash → r.1 ≠ .hang → ∀ b ∈ t, ∀ x ∈ b, x = 0) ∧
    (∀ priv pw rest, (loadPrivateKey pk w).1 = .ok priv → priv.kdfRounds ≠ 0 → w.tty = some pw :: rest →
      t.map List.length = [pw.length])
  fs : (r.2.fs = w.fs ∧ r.1 ≠ .ok ()) ∨
    ∃ fk fm priv priv' k, w.fs pk = some fk ∧ readPrivateKeyFile fk.data = .ok priv ∧ w.fs mp = some fm ∧
      Usable P w.tty priv priv' ∧
      r.2.fs = (w.setFile (sigPath mp sp) ⟨(signText P priv' pk fm.data).take k,
        (w.truncated (sigPath mp sp) 0o644).mode⟩).fs ∧
      (r.1 = .ok () → (signText P priv' pk fm.data).take k = signText P priv' pk fm.data)

theorem Sign_unfold (P : Prims) (pk mp sp : Path) (w : World) {priv : Private}
    (h : (loadPrivateKey pk w).1 = .ok priv) :
    Sign P pk mp sp w = (if priv.isEncrypted then (do
        let passphrase ← passphrasePrompt false
        Act.deferring (World.zeroBuf passphrase) do
          let pw ← World.getBuf passphrase
          let r := Private.decrypt P pw priv
          let _ ← Act.ofRes r.1
          signWith P r.2 pk mp (sigPath mp sp))
      else signWith P priv pk mp (sigPath mp sp)) { w with tick := w.tick + 1 } := by
  have hw := loadPrivateKey_world pk w
  unfold Sign
  exact Act.bind_ok (Prod.ext h hw)

theorem Sign_fail (P : Prims) (pk mp sp : Path) (w : World)
    (h : ∀ priv, (loadPrivateKey pk w).1 ≠ .ok priv) :
    (Sign P pk mp sp w).2 = { w with tick := w.tick + 1 } ∧ (Sign P pk mp sp w).1 ≠ .ok () := by
  have hw := loadPrivateKey_world pk w
  unfold Sign
  rw [Act.bind_eq]
  rcases hl : loadPrivateKey pk w with ⟨r, w'⟩
  rw [hl] at h hw
  cases r with
  | ok p => exact absurd rfl (h p)
  | _ => exact ⟨hw, by simp⟩

/-- Everything after a passphrase was typed. -/
theorem Sign_typed (P : Prims) (pk mp sp : Path) (w : World) {priv : Private} {pw rest}
    (h : (loadPrivateKey pk w).1 = .ok priv) (he : priv.kdfRounds ≠ 0) (ht : w.tty = some pw :: rest) :
    let w1 : World := { w with
      tick := w.tick + 1, prompts := w.prompts ++ [false], tty := rest, bufs := w.bufs ++ [pw],
      stdout := w.stdout ++ b!"Password: " ++ b!"\n" }
    Sign P pk mp sp w = Act.deferring (World.zeroBuf w.bufs.length) (do
          let _ ← Act.ofRes (Private.decrypt P pw priv).1
          signWith P (Private.decrypt P pw priv).2 pk mp (sigPath mp sp)) w1 := by
  intro w1
  have hp := passphrasePrompt_some (w := { w with tick := w.tick + 1 }) ht
  rw [Sign_unfold P pk mp sp w h, if_pos ((isEncrypted_iff priv).mpr he), Act.bind_ok hp]
  have hg : World.getBuf w.bufs.length w1 = (.ok pw, w1) := by simp [World.getBuf, w1]
  have : ∀ (f : Bytes → Act World Unit), (World.getBuf w.bufs.length >>= f) w1 = f pw w1 := fun f => Act.bind_ok hg
  show Act.deferring _ _ w1 = _
  unfold Act.deferring
  rw [this]

theorem zeroBuf_last (w : World) (bs : List Bytes) (b : Bytes) (h : w.bufs = bs ++ [b]) :
    World.zeroBuf bs.length w = { w with bufs := bs ++ [List.replicate b.length 0] } := by
  unfold World.zeroBuf
  rw [h, modify_last, zero_bytes]

theorem Sign_spec (P : Prims) (pk mp sp : Path) (w : World) : SignSpec P pk mp sp w (Sign P pk mp sp w) := by
  by_cases hl : ∃ priv, (loadPrivateKey pk w).1 = .ok priv
  · obtain ⟨priv, hl⟩ := hl
    obtain ⟨fk, hfk, hparse⟩ := loadPrivateKey_ok hl
    by_cases he : priv.kdfRounds = 0
    · -- stored in the clear
      have hs := signWith_spec P priv pk mp (sigPath mp sp) { w with tick := w.tick + 1 }
      have heq : Sign P pk mp sp w = signWith P priv pk mp (sigPath mp sp) { w with tick := w.tick + 1 } := by
        rw [Sign_unfold P pk mp sp w hl, if_neg (by rw [(not_isEncrypted_iff priv).mpr he]; decide)]
      rw [← heq] at hs
      obtain ⟨hframe, hfs⟩ := hs
      refine ⟨?_, ⟨[], ?_, by simp, ?_⟩, ?_⟩
      · rw [hframe, hl]; simp [he]
      · rw [hframe]; simp
      · intro priv2 pw rest h2 h3 _
        rw [hl] at h2; cases h2; exact absurd he h3
      · rcases hfs with h | ⟨fm, k, h1, h2, h3⟩
        · exact .inl h
        · exact .inr ⟨fk, fm, priv, priv, k, hfk, hparse, h1, .inl ⟨he, rfl⟩, h2, h3⟩
    · cases ht : w.tty with
      | nil =>
        have heq : Sign P pk mp sp w = (.err .io, prompted { w with tick := w.tick + 1 } false) := by
          rw [Sign_unfold P pk mp sp w hl, if_pos ((isEncrypted_iff priv).mpr he), Act.bind_eq,
            passphrasePrompt_nil (w := { w with tick := w.tick + 1 }) ht]
        rw [heq]
        refine ⟨?_, ⟨[], by simp [prompted], by simp, ?_⟩, .inl ⟨rfl, by simp⟩⟩
        · rw [hl]; simp only [prompted]; rw [if_neg he]
        · intro _ _ _ _ _ h; rw [ht] at h; cases h
      | cons x rest =>
        cases x with
        | none =>
          have heq : Sign P pk mp sp w =
              (.err .io, { prompted { w with tick := w.tick + 1 } false with tty := rest }) := by
            rw [Sign_unfold P pk mp sp w hl, if_pos ((isEncrypted_iff priv).mpr he), Act.bind_eq,
              passphrasePrompt_none (w := { w with tick := w.tick + 1 }) ht]
          rw [heq]
          refine ⟨?_, ⟨[], by simp [prompted], by simp, ?_⟩, .inl ⟨rfl, by simp⟩⟩
          · rw [hl]; simp only [prompted]; rw [if_neg he]
          · intro _ _ _ _ _ h; rw [ht] at h; cases h
        | some pw =>
          have heq := Sign_typed P pk mp sp w hl he ht
          simp only at heq
          generalize hw1 : ({ w with
            tick := w.tick + 1, prompts := w.prompts ++ [false], tty := rest, bufs := w.bufs ++ [pw],
            stdout := w.stdout ++ b!"Password: " ++ b!"\n" } : World) = w1 at heq
          have hfs1 : w1.fs = w.fs := by rw [← hw1]
          have hb1 : w1.bufs = w.bufs ++ [pw] := by rw [← hw1]
          have hp1 : w1.prompts = w.prompts ++ [false] := by rw [← hw1]
          have hum : ∀ q m, w1.truncated q m = w.truncated q m := by intro q m; rw [← hw1]; rfl
          have hset : ∀ q f, (w1.setFile q f).fs = (w.setFile q f).fs := by intro q f; rw [← hw1]; rfl
          -- the body of the deferred block
          have hbody : ∃ r w2, (do
                let _ ← Act.ofRes (Private.decrypt P pw priv).1
                signWith P (Private.decrypt P pw priv).2 pk mp (sigPath mp sp) : Act World Unit) w1 = (r, w2) ∧
              w1.FrameFS w2 ∧ ((w2.fs = w.fs ∧ r ≠ .ok ()) ∨
                ∃ fm priv' k, w.fs mp = some fm ∧ Usable P w.tty priv priv' ∧
                  w2.fs = (w.setFile (sigPath mp sp) ⟨(signText P priv' pk fm.data).take k,
                    (w.truncated (sigPath mp sp) 0o644).mode⟩).fs ∧
                  (r = .ok () → (signText P priv' pk fm.data).take k = signText P priv' pk fm.data)) := by
            rcases decrypt_clean P pw priv with hd | ⟨e, hd⟩
            · rw [hd, Act.bind_eq]
              simp only [Act.ofRes_apply]
              have hs := signWith_spec P (Private.decrypt P pw priv).2 pk mp (sigPath mp sp) w1
              refine ⟨(signWith P (Private.decrypt P pw priv).2 pk mp (sigPath mp sp) w1).1,
                (signWith P (Private.decrypt P pw priv).2 pk mp (sigPath mp sp) w1).2, rfl, hs.1, ?_⟩
              rcases hs.2 with ⟨h1, h2⟩ | ⟨fm, k, h1, h2, h3⟩
              · exact .inl ⟨by rw [h1, hfs1], h2⟩
              · refine .inr ⟨fm, _, k, by rw [← hfs1, h1], .inr ⟨he, pw, rest, ht, ?_⟩, ?_, h3⟩
                · exact (decrypt_ok_iff P pw he).mp (Prod.ext hd rfl)
                · rw [h2, hum, hset]
            · rw [hd, Act.bind_eq]
              exact ⟨.err e, w1, rfl, rfl, .inl ⟨hfs1, by simp⟩⟩
          obtain ⟨r, w2, hb, hframe, hfs⟩ := hbody
          have hb2 : w2.bufs = w.bufs ++ [pw] := by rw [hframe]; exact hb1
          have hp2 : w2.prompts = w.prompts ++ [false] := by rw [hframe]; exact hp1
          have hcase : ((r = .crash ∨ r = .hang) ∧ Sign P pk mp sp w = (r, w2)) ∨
              Sign P pk mp sp w = (r, { w2 with bufs := w.bufs ++ [List.replicate pw.length 0] }) := by
            rw [heq, Act.deferring, hb]
            cases r with
            | crash => exact .inl ⟨.inl rfl, rfl⟩
            | hang => exact .inl ⟨.inr rfl, rfl⟩
            | _ => right; simp only; rw [zeroBuf_last w2 w.bufs pw hb2]
          have hfs' : (w2.fs = w.fs ∧ r ≠ .ok ()) ∨
              ∃ fk fm priv priv' k, w.fs pk = some fk ∧ readPrivateKeyFile fk.data = .ok priv ∧ w.fs mp = some fm ∧
                Usable P w.tty priv priv' ∧
                w2.fs = (w.setFile (sigPath mp sp) ⟨(signText P priv' pk fm.data).take k,
                  (w.truncated (sigPath mp sp) 0o644).mode⟩).fs ∧
                (r = .ok () → (signText P priv' pk fm.data).take k = signText P priv' pk fm.data) := by
            rcases hfs with h | ⟨fm, priv', k, h1, h2, h3, h4⟩
            · exact .inl h
            · exact .inr ⟨fk, fm, priv, priv', k, hfk, hparse, h1, h2, h3, h4⟩
          rcases hcase with ⟨hr, hS⟩ | hS
          · rw [hS]
            refine ⟨?_, ⟨[pw], hb2, ?_, ?_⟩, hfs'⟩
            · rw [hl]; simp only; rw [if_neg he]; exact hp2
            · intro h1 h2; rcases hr with hr | hr
              · exact absurd hr h1
              · exact absurd hr h2
            · intro _ _ _ _ _ h; rw [ht] at h; cases h; rfl
          · rw [hS]
            refine ⟨?_, ⟨[List.replicate pw.length 0], rfl, ?_, ?_⟩, hfs'⟩
            · rw [hl]; simp only; rw [if_neg he]; exact hp2
            · intro _ _ b hb x hx
              simp only [List.mem_singleton] at hb
              subst hb; exact List.eq_of_mem_replicate hx
            · intro _ _ _ _ _ h; rw [ht] at h; cases h; simp
  · have hl' : ∀ priv, (loadPrivateKey pk w).1 ≠ .ok priv := fun priv h => hl ⟨priv, h⟩
    obtain ⟨h1, h2⟩ := Sign_fail P pk mp sp w hl'
    refine ⟨?_, ⟨[], by rw [h1]; simp, by simp, fun priv _ _ h => absurd h (hl' priv)⟩, .inl ⟨by rw [h1], h2⟩⟩
    rw [h1]
    rcases hr : (loadPrivateKey pk w).1 with p | _ | _ | _ | _
    · exact absurd hr (hl' p)
    all_goals simp

/-! With no faults -/

theorem loadPrivateKey_quiet {pk : Path} {w : World} {f : File} (hq : w.Quiet) (h : w.fs pk = some f) :
    (loadPrivateKey pk w).1 = readPrivateKeyFile f.data := by
  unfold loadPrivateKey
  rw [Act.bind_ok (readFile_quiet hq h)]; rfl

theorem signWith_quiet (P : Prims) (priv : Private) {pk mp sp : Path} {w : World} {fm : File} (hq : w.Quiet)
    (h : w.fs mp = some fm) : (signWith P priv pk mp sp w).1 = .ok () := by
  unfold signWith
  rw [Act.bind_ok (readFile_quiet hq h)]
  simp only [writeDataFile]
  rw [writeFile_quiet _ _ _ _ (hq.tick 1)]

/-- With no faults `Sign` succeeds if the key is usable and the message exists. -/
theorem Sign_quiet (P : Prims) {pk mp sp : Path} {w : World} {fk fm : File} {priv priv' : Private} (hq : w.Quiet)
    (hk : w.fs pk = some fk) (hparse : readPrivateKeyFile fk.data = .ok priv) (hm : w.fs mp = some fm)
    (hu : Usable P w.tty priv priv') : (Sign P pk mp sp w).1 = .ok () := by
  have hl : (loadPrivateKey pk w).1 = .ok priv := by rw [loadPrivateKey_quiet hq hk, hparse]
  rcases hu with ⟨he, rfl⟩ | ⟨he, pw, rest, ht, hu⟩
  · rw [Sign_unfold P pk mp sp w hl, if_neg (by rw [(not_isEncrypted_iff priv').mpr he]; decide)]
    exact signWith_quiet P priv' (hq.tick 1) hm
  · have hd := (decrypt_ok_iff P pw he).mpr hu
    have heq := Sign_typed P pk mp sp w hl he ht
    simp only [hd] at heq
    rw [heq, Act.deferring, Act.bind_eq]
    simp only [Act.ofRes_apply]
    have hs := signWith_quiet P priv' (pk := pk) (mp := mp) (sp := sigPath mp sp) (fm := fm) (w := { w with
      tick := w.tick + 1, prompts := w.prompts ++ [false], tty := rest, bufs := w.bufs ++ [pw],
      stdout := w.stdout ++ b!"Password: " ++ b!"\n" }) (fun i hi => hq i (Nat.le_trans (Nat.le_add_right _ _) hi)) hm
    revert hs
    generalize signWith P priv' pk mp (sigPath mp sp) _ = r
    rcases r with ⟨r, w2⟩
    intro hs
    simp only at hs
    subst hs; rfl

theorem Usable.unique {P : Prims} {tty : List (Option Bytes)} {priv a b : Private} (ha : Usable P tty priv a)
    (hb : Usable P tty priv b) : a = b := by
  rcases ha with ⟨ha, rfl⟩ | ⟨ha, pw, rest, h1, h2⟩ <;> rcases hb with ⟨hb, rfl⟩ | ⟨hb, pw', rest', h3, h4⟩
  · rfl
  · exact absurd ha hb
  · exact absurd hb ha
  · rw [h1] at h3; cases h3; rw [h2.result, h4.result]

/-! `Sign` always returns -/

/-- The action ends with nil or an error, unless the process dies. -/
def Act.Returns {σ α : Type} (a : Act σ α) : Prop := ∀ s, (a s).1.Clean ∨ (a s).1 = .crash

theorem Act.Returns.bind {σ α β : Type} {a : Act σ α} {f : α → Act σ β} (ha : a.Returns) (hf : ∀ x, (f x).Returns) :
    (a >>= f).Returns := by
  intro s
  have h := ha s
  rw [Act.bind_eq]
  rcases hr : a s with ⟨r, s'⟩
  rw [hr] at h
  cases r with
  | ok x => exact hf x s'
  | err e => exact .inl (.inr ⟨e, rfl⟩)
  | crash => exact .inr rfl
  | panic => simp [Res.Clean] at h
  | hang => simp [Res.Clean] at h

theorem Act.Returns.deferring {σ α : Type} {c : σ → σ} {a : Act σ α} (ha : a.Returns) : (Act.deferring c a).Returns := by
  intro s
  have h := ha s
  unfold Act.deferring
  rcases hr : a s with ⟨r, s'⟩
  rw [hr] at h
  cases r <;> exact h

theorem Act.Returns.ofRes {σ α : Type} {r : Res α} (h : r.Clean) : (Act.ofRes r : Act σ α).Returns := fun _ => .inl h

theorem Act.Returns.modify {σ : Type} (f : σ → σ) : (Act.modify f).Returns := fun _ => .inl (.inl ⟨(), rfl⟩)

theorem Act.Returns.pure {σ α : Type} (x : α) : (Pure.pure x : Act σ α).Returns := fun _ => .inl (.inl ⟨x, rfl⟩)

theorem Act.Returns.fail {σ α : Type} (e : GoErr) : (Act.fail e : Act σ α).Returns := fun _ => .inl (.inr ⟨e, rfl⟩)

theorem readFile_returns (p : Path) : (World.readFile p).Returns := by
  intro w
  rcases (readFile_spec p w).2 with ⟨f, -, h⟩ | h | h | ⟨-, h⟩
  · exact .inl (.inl ⟨_, h⟩)
  · exact .inl (.inr ⟨_, h⟩)
  · exact .inr h
  · exact .inl (.inr ⟨_, h⟩)

theorem createFile_returns (p : Path) (perm : Nat) : (World.createFile p perm).Returns := by
  intro w
  unfold World.createFile
  simp only
  split <;> simp [Res.Clean]

theorem writeFile_returns (p : Path) (data : Bytes) (perm : Nat) : (World.writeFile p data perm).Returns := by
  unfold World.writeFile
  refine .bind (createFile_returns p perm) fun _ => .bind (fun w => .inl (.inl ⟨_, rfl⟩)) fun d => ?_
  have hlast : Act.Returns (fun w : World =>
      let w' := w.pokeFile p 0 data
      match w'.sched w'.tick with
      | .fail _ => (.err .io, { w' with tick := w'.tick + 1 })
      | .crash _ => (.crash, { w' with tick := w'.tick + 1 })
      | _ => (.ok (), { w' with tick := w'.tick + 1 }) : Act World Unit) := by
    intro w
    simp only
    split <;> simp [Res.Clean]
  cases d with
  | fail n => exact fun w => .inl (.inr ⟨_, rfl⟩)
  | crash n => exact fun w => .inr rfl
  | ok => exact hlast
  | short n => exact hlast

theorem dataFile_clean (file : Bytes) : (readDataFileBytes file).Clean := by
  unfold readDataFileBytes Res.Clean
  have := decodeString_ne_panic (scanLoop [] [] file).1
  simp only
  split
  · simp
  · simp
  · rename_i h; exact absurd h this

theorem readPrivateKeyData_clean (data : Bytes) : (readPrivateKeyData data).Clean := by
  have hb : ∀ n buf, (bufRead n buf).Clean := by
    intro n buf; unfold bufRead Res.Clean; split <;> simp
  have hu : ∀ buf, (binReadU32 buf).Clean := by
    intro buf; unfold binReadU32 Res.Clean; split
    · simp
    · split <;> simp
  unfold readPrivateKeyData
  exact (hb _ _).bind fun _ => (hb _ _).bind fun _ => (hu _).bind fun _ => (hb _ _).bind fun _ => (hb _ _).bind fun _ =>
    (hb _ _).bind fun _ => (hb _ _).bind fun _ => .inl ⟨_, rfl⟩

theorem privateFile_clean (file : Bytes) : (readPrivateKeyFile file).Clean :=
  (dataFile_clean file).bind fun _ => readPrivateKeyData_clean _

theorem readPassword_returns : World.readPassword.Returns := by
  intro w; unfold World.readPassword; split <;> simp [Res.Clean]

theorem passphrasePrompt_returns (c : Bool) : (passphrasePrompt c).Returns := by
  unfold passphrasePrompt
  refine .bind (.modify _) fun _ => .bind (.modify _) fun _ => .bind readPassword_returns fun _ => .bind (.modify _) fun _ => ?_
  split
  · exact .pure _
  · refine .bind (.modify _) fun _ => .bind readPassword_returns fun _ => .deferring ?_
    refine .bind (.modify _) fun _ => .bind (fun _ => .inl (.inl ⟨_, rfl⟩)) fun _ => .bind (fun _ => .inl (.inl ⟨_, rfl⟩)) fun _ => ?_
    split
    · exact .pure _
    · exact .fail _

theorem Sign_returns (P : Prims) (pk mp sp : Path) : (Sign P pk mp sp).Returns := by
  have hs : ∀ priv s, (signWith P priv pk mp s).Returns := fun priv s =>
    .bind (readFile_returns _) fun _ => writeFile_returns _ _ _
  unfold Sign
  refine .bind (.bind (readFile_returns _) fun _ => .ofRes (privateFile_clean _)) fun priv => ?_
  split
  · refine .bind (passphrasePrompt_returns _) fun _ => .deferring (.bind (fun _ => .inl (.inl ⟨_, rfl⟩)) fun pw => ?_)
    refine .bind (.ofRes ?_) fun _ => hs _ _
    rcases decrypt_clean P pw priv with h | ⟨e, h⟩
    · exact .inl ⟨_, h⟩
    · exact .inr ⟨e, h⟩
  · exact hs _ _

end Verif
