/-
C30-C35: key generation and decryption.
-/
import Verif.Lemmas.Files
import Verif.Lemmas.ToBox
import Verif.Spec.Toy

namespace Verif.Props
open World Spec

/-! ### C30 -/

/-- C30: under every schedule, a generated private key is encrypted exactly if the passphrase is not empty; the round count
is then positive and the requested one (42 by default) modulo 2^32. -/
theorem C30_encrypted_iff (P : Prims) (pw : Bytes) (opts : Option Int) (w : World) (priv : Private) (pub : Public)
    (h : (GenerateKeypair P pw opts w).1 = .ok (priv, pub)) :
    (priv.isEncrypted = true ↔ pw ≠ []) ∧
    (pw ≠ [] → (priv.kdfRounds.toNat : Int) = (opts.getD 42) % 2 ^ 32 ∧ 0 < priv.kdfRounds.toNat) := by
  rcases (GenerateKeypair_spec P pw opts w).2 with ⟨h1, -, -⟩ | ⟨priv', pub', h1, gen⟩
  · exact absurd h (h1 _)
  · rw [h] at h1; cases h1
    refine ⟨?_, fun hp => ⟨?_, ?_⟩⟩
    · rw [isEncrypted_iff]
      refine ⟨fun h0 hp => h0 ?_, gen.roundsPos⟩
      rw [gen.rounds, storedRounds, if_pos hp]
    · rw [gen.rounds, storedRounds, if_neg hp, BitVec.toNat_ofInt]
      have : 0 ≤ (opts.getD 42) % ((2 ^ 32 : Nat) : Int) := Int.emod_nonneg _ (by decide)
      rw [Int.toNat_of_nonneg this]; rfl
    · have := gen.roundsPos hp
      exact Nat.pos_of_ne_zero fun h0 => this (BitVec.eq_of_toNat_eq (by simpa using h0))

/-- C30: a round count that is a multiple of 2^32, with a passphrase, is never accepted, under any schedule. -/
theorem C30_zero_rounds_refused (P : Prims) (pw : Bytes) (opts : Option Int) (w : World) (hp : pw ≠ [])
    (hr : (opts.getD 42) % 2 ^ 32 = 0) : ∀ x, (GenerateKeypair P pw opts w).1 ≠ .ok x := by
  rintro ⟨priv, pub⟩ h
  have := (C30_encrypted_iff P pw opts w priv pub h).2 hp
  omega

/-- C30: with no faults, that is the only failure, and it is an error (no panic). -/
theorem C30_succeeds (P : Prims) (pw : Bytes) (opts : Option Int) (w : World) (hq : w.Quiet) :
    (∃ x, (GenerateKeypair P pw opts w).1 = .ok x) ∨
    ((GenerateKeypair P pw opts w).1 = .err .kdf ∧ pw ≠ [] ∧ (opts.getD 42) % 2 ^ 32 = 0) := by
  rw [GenerateKeypair_quiet P pw opts hq]
  rcases makeKeypair_spec P pw opts (draw w w.rngPos 32) (draw w (w.rngPos + 32) 16) (draw w (w.rngPos + 48) 8) with
    ⟨priv, pub, h, -⟩ | ⟨h, hp, hr⟩
  · exact .inl ⟨_, h⟩
  · refine .inr ⟨h, hp, ?_⟩
    have h2 := congrArg BitVec.toNat hr
    rw [BitVec.toNat_ofInt] at h2
    have h3 : 0 ≤ (opts.getD 42) % ((2 ^ 32 : Nat) : Int) := Int.emod_nonneg _ (by decide)
    have h4 := Int.toNat_of_nonneg h3
    rw [h2] at h4
    exact h4.symm

example : (∃ x, (GenerateKeypair toy b!"pw" none calm).1 = .ok x) ∧ (∃ x, (GenerateKeypair toy [] (some 0) calm).1 = .ok x) ∧
    (((some (2 ^ 32) : Option Int).getD 42) % 2 ^ 32 = 0) := ⟨⟨_, rfl⟩, ⟨_, rfl⟩, by decide⟩

/-! ### C31 -/

/-- C31: decrypting a generated private key with its passphrase succeeds and gives the Ed25519 key: the seed that was drawn
followed by the generated public key; the checksum verifies; tags and key numbers agree. -/
theorem C31_decrypts (P : Prims) (pw : Bytes) (opts : Option Int) (w : World) (priv : Private) (pub : Public)
    (h : (GenerateKeypair P pw opts w).1 = .ok (priv, pub)) :
    ∃ priv', Private.decrypt P pw priv = (.ok (), priv') ∧
      priv'.key.toList = (draw w w.rngPos 32).toList ++ pub.key.toList ∧
      pub.key = P.edPublic (draw w w.rngPos 32) ∧
      priv'.check P = .ok () ∧ priv'.keyAlgo = pub.keyAlgo ∧ pub.keyAlgo.toList = b!"Ed" ∧ priv'.keyNum = pub.keyNum := by
  rcases (GenerateKeypair_spec P pw opts w).2 with ⟨h1, -, -⟩ | ⟨priv', pub', h1, gen⟩
  · exact absurd h (h1 _)
  · rw [h] at h1; cases h1
    have halgo : priv.keyAlgo = pub.keyAlgo := arr_ext (by rw [gen.algo, gen.pubAlgo])
    have hnum : priv.keyNum = pub.keyNum := by rw [gen.numEq, gen.pubNum]
    by_cases hp : pw = []
    · have hr : priv.kdfRounds = 0 := by rw [gen.rounds, storedRounds, if_pos hp]
      refine ⟨priv, decrypt_plain P pw hr, ?_, gen.pubKey, ?_, halgo, gen.pubAlgo, hnum⟩
      · rw [gen.plain hp, gen.pubKey]
      · rw [check_ok_iff, gen.plain hp, gen.checksum]
    · have hr := gen.roundsPos hp
      have hd := decrypt_try P hr gen.kdf hp
      have hkey : (xorArr priv.key (P.bcrypt pw priv.salt priv.kdfRounds.toNat)).toList =
          (draw w w.rngPos 32).toList ++ (P.edPublic (draw w w.rngPos 32)).toList := by
        rw [gen.saltEq]; exact gen.crypt hp
      have hc : Private.check P { priv with key := xorArr priv.key (P.bcrypt pw priv.salt priv.kdfRounds.toNat) } = .ok () := by
        rw [check_ok_iff]; simp only; rw [hkey, gen.checksum]
      refine ⟨_, by rw [hd, hc], ?_, gen.pubKey, hc, halgo, gen.pubAlgo, hnum⟩
      simp only; rw [hkey, gen.pubKey]

/-- C31: seed, salt and key number are disjoint, consecutive parts of what the entropy source delivers. -/
theorem C31_fresh (P : Prims) (pw : Bytes) (opts : Option Int) (w : World) (priv : Private) (pub : Public)
    (h : (GenerateKeypair P pw opts w).1 = .ok (priv, pub)) :
    priv.salt = draw w (w.rngPos + 32) 16 ∧ priv.keyNum = draw w (w.rngPos + 48) 8 := by
  rcases (GenerateKeypair_spec P pw opts w).2 with ⟨h1, -, -⟩ | ⟨priv', pub', h1, gen⟩
  · exact absurd h (h1 _)
  · rw [h] at h1; cases h1
    exact ⟨gen.saltEq, gen.numEq⟩

/-! ### C32 -/

/-- C32: under every schedule no other file changes. -/
theorem C32_frame (P : Prims) (base : Path) (pw : Bytes) (opts : Option Int) (w : World) (q : Path)
    (h1 : q ≠ base ++ b!".sec") (h2 : q ≠ base ++ b!".pub") : (GenerateKey P base pw opts w).2.fs q = w.fs q := by
  rcases GenerateKey_spec P base pw opts w with ⟨h, -⟩ | ⟨priv, pub, -, h⟩
  · rw [h]
  · cases h with
    | nothing h _ => rw [h]
    | secret k h _ => rw [h, setFile_other _ _ h1]
    | both k h _ => rw [h, setFile_other _ _ h2, setFile_other _ _ h1]

/-- C32: under every schedule, if the public key file differs from before, the secret key file is complete, and it is the
secret key of the pair whose public key file was begun. -/
theorem C32_secret_first (P : Prims) (base : Path) (pw : Bytes) (opts : Option Int) (w : World)
    (h : (GenerateKey P base pw opts w).2.fs (base ++ b!".pub") ≠ w.fs (base ++ b!".pub")) :
    ∃ priv pub, Generated P pw opts (draw w w.rngPos 32) (draw w (w.rngPos + 32) 16) (draw w (w.rngPos + 48) 8) priv pub ∧
      (∃ m, (GenerateKey P base pw opts w).2.fs (base ++ b!".sec") = some ⟨secretFile priv, m⟩) ∧
      ∃ f, (GenerateKey P base pw opts w).2.fs (base ++ b!".pub") = some f ∧ f.data <+: publicFile pub := by
  rcases GenerateKey_spec P base pw opts w with ⟨h1, -⟩ | ⟨priv, pub, gen, hk⟩
  · rw [h1] at h; exact absurd rfl h
  · cases hk with
    | nothing h1 _ => rw [h1] at h; exact absurd rfl h
    | secret k h1 _ => rw [h1, setFile_other _ _ (sec_ne_pub base).symm] at h; exact absurd rfl h
    | both k h1 _ =>
      refine ⟨priv, pub, gen, ?_⟩
      rw [h1, setFile_other _ _ (sec_ne_pub base), setFile_self, setFile_self, secText_eq, pubText_eq]
      exact ⟨⟨_, rfl⟩, _, rfl, List.take_prefix _ _⟩

/-- C32: if it returns nil, both files are complete and parse back to the generated pair. -/
theorem C32_complete (P : Prims) (base : Path) (pw : Bytes) (opts : Option Int) (w : World)
    (h : (GenerateKey P base pw opts w).1 = .ok ()) :
    ∃ priv pub f g, Generated P pw opts (draw w w.rngPos 32) (draw w (w.rngPos + 32) 16) (draw w (w.rngPos + 48) 8) priv pub ∧
      (GenerateKey P base pw opts w).2.fs (base ++ b!".sec") = some f ∧ f.data = secretFile priv ∧
      readPrivateKeyFile f.data = .ok priv ∧
      (GenerateKey P base pw opts w).2.fs (base ++ b!".pub") = some g ∧ g.data = publicFile pub ∧
      readPublicKeyFile g.data = .ok pub := by
  rcases GenerateKey_spec P base pw opts w with ⟨-, h1⟩ | ⟨priv, pub, gen, hk⟩
  · exact absurd h h1
  · cases hk with
    | nothing _ h1 => exact absurd h h1
    | secret _ _ h1 => exact absurd h h1
    | both k h1 h2 =>
      rw [h2 h, secText_eq, pubText_eq] at h1
      rw [h1, setFile_other _ _ (sec_ne_pub base), setFile_self, setFile_self]
      exact ⟨priv, pub, _, _, gen, rfl, rfl, readPrivateKeyFile_secret priv, rfl, rfl, readPublicKeyFile_public pub⟩

/-- C32: under every schedule the secret key file is as before or holds a prefix of a complete secret key file. -/
theorem C32_secret_prefix (P : Prims) (base : Path) (pw : Bytes) (opts : Option Int) (w : World) :
    (GenerateKey P base pw opts w).2.fs (base ++ b!".sec") = w.fs (base ++ b!".sec") ∨
    ∃ priv pub f, Generated P pw opts (draw w w.rngPos 32) (draw w (w.rngPos + 32) 16) (draw w (w.rngPos + 48) 8) priv pub ∧
      (GenerateKey P base pw opts w).2.fs (base ++ b!".sec") = some f ∧ f.data <+: secretFile priv := by
  rcases GenerateKey_spec P base pw opts w with ⟨h1, -⟩ | ⟨priv, pub, gen, hk⟩
  · exact .inl (by rw [h1])
  · cases hk with
    | nothing h1 _ => exact .inl (by rw [h1])
    | secret k h1 _ =>
      rw [h1, setFile_self, secText_eq]
      exact .inr ⟨priv, pub, _, gen, rfl, List.take_prefix _ _⟩
    | both k h1 _ =>
      rw [h1, setFile_other _ _ (sec_ne_pub base), setFile_self]
      exact .inr ⟨priv, pub, _, gen, rfl, by rw [secText_eq]; exact List.prefix_rfl⟩

example : (GenerateKey toy b!"k" b!"pw" none calm).1 = .ok () := rfl

/-! ### C33 -/

theorem mode_table : ∀ u, u < 512 → ((0o644 - (0o644 &&& u)) &&& 0o004 = 0 ↔ u &&& 0o004 ≠ 0) := by decide +kernel

theorem and_mod_512 (u : Nat) : (0o644 &&& u) = (0o644 &&& (u % 512)) ∧ (u &&& 0o004) = ((u % 512) &&& 0o004) := by
  have h : u % 512 = u &&& (2 ^ 9 - 1) := (Nat.and_two_pow_sub_one_eq_mod u 9).symm
  constructor
  · rw [h, Nat.and_comm u, ← Nat.and_assoc]; rfl
  · rw [h, Nat.and_assoc]; rfl

/-- C33, what is true: a new secret key file is hidden from other users exactly if the umask masks the read bit. -/
theorem C33_mode_partial (P : Prims) (base : Path) (pw : Bytes) (opts : Option Int) (w : World)
    (hnew : w.fs (base ++ b!".sec") = none) (f : File)
    (h : (GenerateKey P base pw opts w).2.fs (base ++ b!".sec") = some f) :
    f.mode = 0o644 - (0o644 &&& w.umask) ∧ (f.mode &&& 0o004 = 0 ↔ w.umask &&& 0o004 ≠ 0) := by
  have hm : (w.truncated (base ++ b!".sec") 0o644).mode = 0o644 - (0o644 &&& w.umask) := by
    unfold World.truncated; rw [hnew]
  have hmode : f.mode = 0o644 - (0o644 &&& w.umask) := by
    rcases GenerateKey_spec P base pw opts w with ⟨h1, -⟩ | ⟨priv, pub, gen, hk⟩
    · rw [h1, hnew] at h; simp at h
    · cases hk with
      | nothing h1 _ => rw [h1, hnew] at h; simp at h
      | secret k h1 _ => rw [h1, setFile_self] at h; cases h; exact hm
      | both k h1 _ => rw [h1, setFile_other _ _ (sec_ne_pub base), setFile_self] at h; cases h; exact hm
  refine ⟨hmode, ?_⟩
  rw [hmode, (and_mod_512 w.umask).1, (and_mod_512 w.umask).2]
  exact mode_table _ (Nat.mod_lt _ (by decide))

/-- C33 is false: with the usual umask 022 every newly created secret key file has mode 0644. -/
theorem C33_readable_negation (P : Prims) (base : Path) (pw : Bytes) (opts : Option Int) (w : World)
    (hu : w.umask = 0o022) (hnew : w.fs (base ++ b!".sec") = none) (h : (GenerateKey P base pw opts w).1 = .ok ()) :
    ∃ f, (GenerateKey P base pw opts w).2.fs (base ++ b!".sec") = some f ∧ f.mode = 0o644 := by
  obtain ⟨priv, pub, f, g, -, h1, -⟩ := C32_complete P base pw opts w h
  refine ⟨f, h1, ?_⟩
  rw [(C33_mode_partial P base pw opts w hnew f h1).1, hu]
  decide

example : calm.umask = 0o022 ∧ calm.fs (b!"k" ++ b!".sec") = none ∧ (GenerateKey toy b!"k" [] none calm).1 = .ok () :=
  ⟨rfl, rfl, rfl⟩

/-! ### C34 -/

/-- Call `ToBox` on the same key `n` times; the results, newest last. -/
def toBoxTimes (P : Prims) : Nat → Private × World → List (Res (Arr 32)) × (Private × World)
  | 0, s => ([], s)
  | n + 1, s =>
    let r := Private.toBox P s
    let rest := toBoxTimes P n r.2
    (r.1 :: rest.1, rest.2)

/-- C34, what is true: after any history of failed attempts with non-empty passphrases, nothing but the key field has
changed, and the key field is the stored one XORed with the pads of all these passphrases. -/
theorem C34_history_partial (P : Prims) (pws : List Bytes) (rest : List (Option Bytes)) (priv : Private) (w : World)
    (he : priv.kdfRounds ≠ 0) (hk : priv.kdfAlgo.toList = b!"BK") (hne : ∀ pw ∈ pws, pw ≠ [])
    (ht : w.tty = pws.map some ++ rest) (hfail : ∀ r ∈ (toBoxTimes P pws.length (priv, w)).1, ∀ k, r ≠ .ok k) :
    (toBoxTimes P pws.length (priv, w)).2.1 = { priv with
      key := (pws.map fun pw => P.bcrypt pw priv.salt priv.kdfRounds.toNat).foldl xorArr priv.key } := by
  induction pws generalizing priv w with
  | nil => rfl
  | cons pw pws ih =>
    simp only [List.length_cons, toBoxTimes] at hfail ⊢
    by_cases hc : priv.check P = .ok ()
    · exfalso
      refine hfail _ (List.mem_cons_self) (boxScalar P priv.key).1 ?_
      rw [toBox_checked P priv w hc]
    · have ht' : w.tty = some pw :: (pws.map some ++ rest) := by rw [ht]; simp
      rw [toBox_typed P priv w hc ht', decrypt_try P he hk (hne pw (by simp))] at hfail ⊢
      simp only at hfail ⊢
      generalize hp : ({ priv with key := xorArr priv.key (P.bcrypt pw priv.salt priv.kdfRounds.toNat) } : Private) = priv1
        at hfail ⊢
      have e1 : priv1.kdfRounds = priv.kdfRounds := by rw [← hp]
      have e2 : priv1.salt = priv.salt := by rw [← hp]
      have h := ih priv1 (typed w pw (pws.map some ++ rest)) (by rw [e1]; exact he) (by rw [← hp]; exact hk)
        (fun p hp => hne p (by simp [hp])) rfl (fun r hr => hfail r (List.mem_cons_of_mem _ hr))
      rw [h, e1, e2, ← hp]
      simp only [List.map_cons, List.foldl_cons]

/-- C34 is false: after one failed attempt with a wrong passphrase, the right one is refused, although it is accepted on a
freshly loaded key. (If it were accepted for all primitives, truncated hashes would collide, see `C34_collision`.) -/
theorem C34_damage_negation : ∃ (P : Prims) (priv : Private) (w w' : World) (wrong right : Bytes),
    w.tty = [some wrong, some right] ∧ w'.tty = [some right] ∧
    (∃ k, (Private.toBox P (priv, w')).1 = .ok k) ∧
    (toBoxTimes P 2 (priv, w)).1 = [.err .badChecksum, .err .badChecksum] := by
  have bad : ∀ priv : Private, (toy.sha512 priv.key.toList).toList.take 8 ≠ priv.checksum.toList →
      priv.check toy = .err .badChecksum := by
    intro priv h; rw [Private.check, if_pos h]
  have h0 := bad lockedKey (by decide +kernel)
  have h1 := bad { lockedKey with key := xorArr lockedKey.key (toy.bcrypt b!"B" lockedKey.salt lockedKey.kdfRounds.toNat) }
    (by decide +kernel)
  have h2 := bad { lockedKey with key := xorArr (xorArr lockedKey.key
    (toy.bcrypt b!"B" lockedKey.salt lockedKey.kdfRounds.toNat)) (toy.bcrypt b!"A" lockedKey.salt lockedKey.kdfRounds.toNat) }
    (by decide +kernel)
  have h3 : Private.check toy { lockedKey with
      key := xorArr lockedKey.key (toy.bcrypt b!"A" lockedKey.salt lockedKey.kdfRounds.toNat) } = .ok () := by
    rw [check_ok_iff]; decide +kernel
  have hk : lockedKey.kdfAlgo.toList = b!"BK" := by decide +kernel
  have hr : lockedKey.kdfRounds ≠ 0 := by decide
  refine ⟨toy, lockedKey, { calm with tty := [some b!"B", some b!"A"] }, { calm with tty := [some b!"A"] }, b!"B", b!"A",
    rfl, rfl, ?_, ?_⟩
  · rw [toBox_typed toy lockedKey { calm with tty := [some b!"A"] } (pw := b!"A") (rest := []) (by rw [h0]; simp) rfl,
      decrypt_try toy hr hk (by decide), h3]
    exact ⟨_, rfl⟩
  · simp only [toBoxTimes]
    rw [toBox_typed toy lockedKey { calm with tty := [some b!"B", some b!"A"] } (pw := b!"B") (rest := [some b!"A"])
      (by rw [h0]; simp) rfl, decrypt_try toy hr hk (by decide), h1]
    simp only
    rw [toBox_typed toy { lockedKey with
      key := xorArr lockedKey.key (toy.bcrypt b!"B" lockedKey.salt lockedKey.kdfRounds.toNat) } _ (pw := b!"A") (rest := [])
      (by rw [h1]; simp) rfl, decrypt_try toy (priv := { lockedKey with
      key := xorArr lockedKey.key (toy.bcrypt b!"B" lockedKey.salt lockedKey.kdfRounds.toNat) }) hr hk (by decide)]
    simp only
    rw [h2]
    rfl

/-- C34: for all primitives: the right passphrase works after a failed attempt with a wrong one only if the truncated hash of
the key does not change when the key is XORed with the wrong pad. -/
theorem C34_collision (P : Prims) (priv : Private) (w : World) (wrong right : Bytes) (rest : List (Option Bytes))
    (he : priv.kdfRounds ≠ 0) (good : Private) (hu : Unlocks P right priv good)
    (hw : wrong ≠ []) (ht : w.tty = some wrong :: some right :: rest) (e : GoErr)
    (h1 : (Private.toBox P (priv, w)).1 = .err e) (k : Arr 32)
    (h2 : (Private.toBox P (Private.toBox P (priv, w)).2).1 = .ok k) :
    (P.sha512 (xorArr good.key (P.bcrypt wrong priv.salt priv.kdfRounds.toNat)).toList).toList.take 8 =
      (P.sha512 good.key.toList).toList.take 8 := by
  have hc : priv.check P ≠ .ok () := by
    intro hc; rw [toBox_checked P priv w hc] at h1; simp at h1
  rw [toBox_typed P priv w hc ht, decrypt_try P he hu.kdf hw] at h1 h2
  simp only at h1 h2
  generalize hp1 : ({ priv with key := xorArr priv.key (P.bcrypt wrong priv.salt priv.kdfRounds.toNat) } : Private) = priv1 at h1 h2
  have hc1 : priv1.check P ≠ .ok () := by
    intro hc; rw [hc] at h1; simp at h1
  have he1 : priv1.kdfRounds ≠ 0 := by rw [← hp1]; exact he
  have hk1 : priv1.kdfAlgo.toList = b!"BK" := by rw [← hp1]; exact hu.kdf
  rw [toBox_typed P priv1 _ hc1 rfl, decrypt_try P he1 hk1 hu.nonempty] at h2
  simp only at h2
  rcases check_cases P { priv1 with key := xorArr priv1.key (P.bcrypt right priv1.salt priv1.kdfRounds.toNat) } with h3 | h3
  · have h4 := (check_ok_iff P _).mp h3
    have h5 : xorArr good.key (P.bcrypt wrong priv.salt priv.kdfRounds.toNat) =
        xorArr priv1.key (P.bcrypt right priv1.salt priv1.kdfRounds.toNat) := by
      rw [← hp1, hu.result]; exact xorArr_right_comm _ _ _
    rw [h5, hu.checksum, h4, ← hp1]
  · rw [h3] at h2; simp at h2

/-! ### C35 -/

/-- C35: whatever happens, decryption changes nothing but the key field. -/
theorem C35_only_key (P : Prims) (pw : Bytes) (priv : Private) :
    (Private.decrypt P pw priv).2 = { priv with key := (Private.decrypt P pw priv).2.key } := by
  by_cases h : priv.kdfRounds = 0
  · rw [decrypt_plain P pw h]
  by_cases hk : priv.kdfAlgo.toList = b!"BK"
  · by_cases hp : pw = []
    · subst hp; rw [decrypt_empty P h hk]
    · rw [decrypt_try P h hk hp]
  · rw [decrypt_kdf P pw h hk]

/-- C35: decrypting twice with the same passphrase restores the key, whatever the results of the two calls. -/
theorem C35_involution (P : Prims) (pw : Bytes) (priv : Private) :
    (Private.decrypt P pw (Private.decrypt P pw priv).2).2 = priv := by
  by_cases h : priv.kdfRounds = 0
  · rw [decrypt_plain P pw h, decrypt_plain P pw h]
  by_cases hk : priv.kdfAlgo.toList = b!"BK"
  · by_cases hp : pw = []
    · subst hp; rw [decrypt_empty P h hk, decrypt_empty P h hk]
    · rw [decrypt_try P h hk hp]
      simp only
      rw [decrypt_try P (priv := { priv with key := xorArr priv.key (P.bcrypt pw priv.salt priv.kdfRounds.toNat) }) h hk hp]
      simp only [xorArr_self_cancel]
  · rw [decrypt_kdf P pw h hk, decrypt_kdf P pw h hk]

/-- C35: for an encrypted key the step does change the key field, by XOR with the pad. -/
theorem C35_step (P : Prims) (pw : Bytes) (priv : Private) (h : priv.kdfRounds ≠ 0) (hk : priv.kdfAlgo.toList = b!"BK")
    (hp : pw ≠ []) : (Private.decrypt P pw priv).2.key = xorArr priv.key (P.bcrypt pw priv.salt priv.kdfRounds.toNat) := by
  rw [decrypt_try P h hk hp]

end Verif.Props
