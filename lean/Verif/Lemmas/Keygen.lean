/-
What `GenerateKeypair` and `GenerateKey` do, under every schedule of the system.
-/
import Verif.Lemmas.Verify

namespace Verif
open World Spec

theorem copyEd : (copyZ 2 b!"Ed").toList = b!"Ed" := by decide
theorem copyBK : (copyZ 2 b!"BK").toList = b!"BK" := by decide

theorem makeKeypair_spec (P : Prims) (pw : Bytes) (opts : Option Int) (seed : Arr 32) (salt : Arr 16) (num : Arr 8) :
    (∃ priv pub, makeKeypair P pw (opts.getD defaultRounds) seed salt num = .ok (priv, pub) ∧
      Generated P pw opts seed salt num priv pub) ∨
    (makeKeypair P pw (opts.getD defaultRounds) seed salt num = .err .kdf ∧ pw ≠ [] ∧
      BitVec.ofInt 32 (opts.getD 42) = 0) := by
  have hlen : (seed.toList ++ (P.edPublic seed).toList).length = 64 := by simp
  have hsum : (copyZ 8 (P.sha512 (seed.toList ++ (P.edPublic seed).toList)).toList).toList =
      (P.sha512 (seed.toList ++ (P.edPublic seed).toList)).toList.take 8 := copyZ_toList_of_le (by simp)
  by_cases hp : pw = []
  · left
    subst hp
    refine ⟨_, _, rfl, ?_⟩
    exact ⟨copyEd, copyBK, rfl, fun h => absurd rfl h, rfl, rfl, hsum, fun _ => copyZ_toList_eq hlen,
      fun h => absurd rfl h, copyEd, rfl, copyZ_self _⟩
  · have hl : pw.length ≠ 0 := by simpa using hp
    by_cases hr : BitVec.ofInt 32 (opts.getD 42) = 0
    · right
      refine ⟨?_, hp, hr⟩
      unfold makeKeypair
      simp only [defaultRounds]
      rw [if_neg hl, if_pos hl, hr]
      rfl
    · left
      have hb := bcryptKey_eq P pw salt _ hr
      rw [if_neg hp] at hb
      have heq : makeKeypair P pw (opts.getD defaultRounds) seed salt num = .ok
        ({ keyAlgo := copyZ 2 b!"Ed", kdfAlgo := copyZ 2 b!"BK", kdfRounds := BitVec.ofInt 32 (opts.getD 42), salt := salt,
           checksum := copyZ 8 (P.sha512 (seed.toList ++ (P.edPublic seed).toList)).toList, keyNum := num,
           key := xorArr (copyZ 64 (seed.toList ++ (P.edPublic seed).toList))
            (P.bcrypt pw salt (BitVec.ofInt 32 (opts.getD 42)).toNat) },
         { keyAlgo := copyZ 2 b!"Ed", keyNum := num, key := copyZ 32 (P.edPublic seed).toList }) := by
        unfold makeKeypair
        simp only [defaultRounds]
        rw [if_neg hl, if_pos hl, hb]
        rfl
      refine ⟨_, _, heq, ?_⟩
      refine ⟨copyEd, copyBK, ?_, fun _ => hr, rfl, rfl, hsum, fun h => absurd h hp, fun _ => ?_, copyEd, rfl, copyZ_self _⟩
      · simp only [storedRounds]; rw [if_neg hp]
      · rw [xorArr_self_cancel, copyZ_toList_eq hlen]

/-- The generated key is usable with the passphrase, and gives the Ed25519 key. -/
theorem Generated.usable {P : Prims} {pw : Bytes} {opts : Option Int} {seed salt num} {priv pub}
    (g : Generated P pw opts seed salt num priv pub) (tty : List (Option Bytes))
    (ht : pw ≠ [] → ∃ rest, tty = some pw :: rest) :
    ∃ priv', Usable P tty priv priv' ∧ priv'.keyAlgo = priv.keyAlgo ∧ priv'.keyNum = priv.keyNum ∧
      priv'.key.toList = seed.toList ++ (P.edPublic seed).toList := by
  by_cases hp : pw = []
  · refine ⟨priv, .inl ⟨?_, rfl⟩, rfl, rfl, g.plain hp⟩
    rw [g.rounds, storedRounds, if_pos hp]
  · obtain ⟨rest, ht⟩ := ht hp
    refine ⟨{ priv with key := xorArr priv.key (P.bcrypt pw priv.salt priv.kdfRounds.toNat) },
      .inr ⟨g.roundsPos hp, pw, rest, ht, g.kdf, hp, rfl, ?_⟩, rfl, rfl, ?_⟩
    · simp only; rw [g.saltEq, g.crypt hp, g.checksum]
    · simp only; rw [g.saltEq, g.crypt hp]

theorem entropy_spec (n : Nat) (w : World) :
    ((entropy n w).1 = .ok (Vector.ofFn fun i => w.rng (w.rngPos + i.val)) ∧
      (entropy n w).2 = { w with tick := w.tick + 1, rngPos := w.rngPos + n }) ∨
    (((entropy n w).1 = .err .io ∨ (entropy n w).1 = .crash) ∧ (entropy n w).2 = { w with tick := w.tick + 1 }) := by
  unfold entropy
  simp only
  cases w.sched w.tick <;> simp

theorem entropy_quiet (n : Nat) {w : World} (hq : w.Quiet) :
    entropy n w = (.ok (Vector.ofFn fun i => w.rng (w.rngPos + i.val)), { w with tick := w.tick + 1, rngPos := w.rngPos + n }) := by
  unfold entropy
  simp only [hq w.tick (Nat.le_refl _)]

/-- The bytes the entropy source delivers from position `pos`. -/
def draw (w : World) (pos n : Nat) : Arr n := Vector.ofFn fun i => w.rng (pos + i.val)

/-- The new world differs at most in the call counter and the position in the entropy source. -/
def FrameRng (w w' : World) : Prop := w' = { w with tick := w'.tick, rngPos := w'.rngPos }

theorem GenerateKeypair_spec (P : Prims) (pw : Bytes) (opts : Option Int) (w : World) :
    FrameRng w (GenerateKeypair P pw opts w).2 ∧
    (((∀ x, (GenerateKeypair P pw opts w).1 ≠ .ok x) ∧ (GenerateKeypair P pw opts w).1 ≠ .panic ∧
        (GenerateKeypair P pw opts w).1 ≠ .hang) ∨
      ∃ priv pub, (GenerateKeypair P pw opts w).1 = .ok (priv, pub) ∧
        Generated P pw opts (draw w w.rngPos 32) (draw w (w.rngPos + 32) 16) (draw w (w.rngPos + 48) 8) priv pub) := by
  unfold GenerateKeypair
  rw [Act.bind_eq]
  rcases h1 : entropy 32 w with ⟨r1, w1⟩
  have s1 := entropy_spec 32 w
  rw [h1] at s1
  simp only at s1
  rcases s1 with ⟨rfl, rfl⟩ | ⟨rfl | rfl, rfl⟩
  · simp only
    rw [Act.bind_eq]
    rcases h2 : entropy 16 { w with tick := w.tick + 1, rngPos := w.rngPos + 32 } with ⟨r2, w2⟩
    have s2 := entropy_spec 16 { w with tick := w.tick + 1, rngPos := w.rngPos + 32 }
    rw [h2] at s2
    simp only at s2
    rcases s2 with ⟨rfl, rfl⟩ | ⟨rfl | rfl, rfl⟩
    · simp only
      rw [Act.bind_eq]
      rcases h3 : entropy 8 { w with tick := w.tick + 1 + 1, rngPos := w.rngPos + 32 + 16 } with ⟨r3, w3⟩
      have s3 := entropy_spec 8 { w with tick := w.tick + 1 + 1, rngPos := w.rngPos + 32 + 16 }
      rw [h3] at s3
      simp only at s3
      rcases s3 with ⟨rfl, rfl⟩ | ⟨rfl | rfl, rfl⟩
      · simp only [Act.ofRes_apply]
        refine ⟨rfl, ?_⟩
        rcases makeKeypair_spec P pw opts (draw w w.rngPos 32) (draw w (w.rngPos + 32) 16) (draw w (w.rngPos + 48) 8) with
          ⟨priv, pub, h4, h5⟩ | ⟨h4, -, -⟩
        · exact .inr ⟨priv, pub, h4, h5⟩
        · refine .inl ?_
          have h4' : makeKeypair P pw (opts.getD defaultRounds) (Vector.ofFn fun i : Fin 32 => w.rng (w.rngPos + i.val))
            (Vector.ofFn fun i : Fin 16 => w.rng (w.rngPos + 32 + i.val))
            (Vector.ofFn fun i : Fin 8 => w.rng (w.rngPos + 32 + 16 + i.val)) = .err .kdf := h4
          rw [h4']
          simp
      · exact ⟨rfl, .inl (by simp)⟩
      · exact ⟨rfl, .inl (by simp)⟩
    · exact ⟨rfl, .inl (by simp)⟩
    · exact ⟨rfl, .inl (by simp)⟩
  · exact ⟨rfl, .inl (by simp)⟩
  · exact ⟨rfl, .inl (by simp)⟩

theorem GenerateKeypair_quiet (P : Prims) (pw : Bytes) (opts : Option Int) {w : World} (hq : w.Quiet) :
    (GenerateKeypair P pw opts w).1 = makeKeypair P pw (opts.getD defaultRounds) (draw w w.rngPos 32)
      (draw w (w.rngPos + 32) 16) (draw w (w.rngPos + 48) 8) := by
  unfold GenerateKeypair
  rw [Act.bind_ok (entropy_quiet 32 hq),
    Act.bind_ok (entropy_quiet 16 (w := { w with tick := w.tick + 1, rngPos := w.rngPos + 32 })
      (fun i hi => hq i (Nat.le_trans (Nat.le_add_right _ _) hi))),
    Act.bind_ok (entropy_quiet 8 (w := { w with tick := w.tick + 1 + 1, rngPos := w.rngPos + 32 + 16 })
      (fun i hi => hq i (Nat.le_trans (by simp only; omega) hi)))]
  rfl

/-- The complete secret key file. -/
def secText (priv : Private) : Bytes :=
  DataFile.encode { comment := b!"untrusted comment: signify private key", data := B64.encode priv.encode }

/-- The complete public key file. -/
def pubText (pub : Public) : Bytes :=
  DataFile.encode { comment := b!"untrusted comment: signify public key", data := B64.encode pub.encode }

theorem sec_ne_pub (base : Path) : base ++ b!".sec" ≠ base ++ b!".pub" := by
  intro h; have := List.append_cancel_left h; revert this; decide

/-- What `GenerateKey` may leave behind. -/
inductive KeyFiles (base : Path) (priv : Private) (pub : Public) (w : World) (r : Res Unit) (fs : FS) : Prop
  | nothing (h : fs = w.fs) (hr : r ≠ .ok ())
  | secret (k : Nat) (h : fs = (w.setFile (base ++ b!".sec")
      ⟨(secText priv).take k, (w.truncated (base ++ b!".sec") 0o644).mode⟩).fs) (hr : r ≠ .ok ())
  | both (k : Nat) (h : fs = ((w.setFile (base ++ b!".sec")
      ⟨secText priv, (w.truncated (base ++ b!".sec") 0o644).mode⟩).setFile (base ++ b!".pub")
        ⟨(pubText pub).take k, (w.truncated (base ++ b!".pub") 0o644).mode⟩).fs)
      (hr : r = .ok () → (pubText pub).take k = pubText pub)

theorem GenerateKey_spec (P : Prims) (base : Path) (pw : Bytes) (opts : Option Int) (w : World) :
    ((GenerateKey P base pw opts w).2.fs = w.fs ∧ (GenerateKey P base pw opts w).1 ≠ .ok ()) ∨
    ∃ priv pub,
      Generated P pw opts (draw w w.rngPos 32) (draw w (w.rngPos + 32) 16) (draw w (w.rngPos + 48) 8) priv pub ∧
      KeyFiles base priv pub w (GenerateKey P base pw opts w).1 (GenerateKey P base pw opts w).2.fs := by
  have hs := GenerateKeypair_spec P pw opts w
  unfold GenerateKey
  rw [Act.bind_eq]
  rcases hg : GenerateKeypair P pw opts w with ⟨r, w1⟩
  rw [hg] at hs
  obtain ⟨hframe, hs⟩ := hs
  simp only at hframe hs
  have hfs1 : w1.fs = w.fs := by rw [hframe]
  have htr1 : ∀ p m, w1.truncated p m = w.truncated p m := by intro p m; rw [hframe]; rfl
  have hset1 : ∀ p f, (w1.setFile p f).fs = (w.setFile p f).fs := by intro p f; rw [hframe]; rfl
  rcases hs with ⟨hs, -, -⟩ | ⟨priv, pub, rfl, gen⟩
  · cases r with
    | ok x => exact absurd rfl (hs x)
    | _ => exact .inl ⟨hfs1, by simp⟩
  · right
    refine ⟨priv, pub, gen, ?_⟩
    simp only
    rw [Act.bind_eq]
    have h2 := writeFile_spec (base ++ b!".sec") (secText priv) 0o644 w1
    change Wrote _ _ _ _ (writeDataFile (base ++ b!".sec") b!"untrusted comment: signify private key" priv.encode w1) at h2
    rcases hw : writeDataFile (base ++ b!".sec") b!"untrusted comment: signify private key" priv.encode w1 with ⟨r2, w2⟩
    rw [hw] at h2
    obtain ⟨f2, s2⟩ := h2
    simp only at f2 s2
    by_cases hr2 : r2 = .ok ()
    · subst hr2
      simp only
      rcases s2 with ⟨-, h⟩ | ⟨k, hk, hall⟩
      · exact absurd rfl h
      · rw [hall rfl, htr1, hset1] at hk
        have h3 := writeFile_spec (base ++ b!".pub") (pubText pub) 0o644 w2
        change Wrote _ _ _ _ (writeDataFile (base ++ b!".pub") b!"untrusted comment: signify public key" pub.encode w2) at h3
        obtain ⟨-, s3⟩ := h3
        have htr2 : (w2.truncated (base ++ b!".pub") 0o644).mode = (w.truncated (base ++ b!".pub") 0o644).mode := by
          have h1 : w2.umask = w.umask := by rw [f2, hframe]
          unfold World.truncated
          rw [hk, setFile_other _ _ (sec_ne_pub base).symm, h1]
        rcases s3 with ⟨h4, h5⟩ | ⟨k', h4, h5⟩
        · exact .secret (secText priv).length (by rw [h4, hk, List.take_length]) h5
        · refine .both k' ?_ h5
          rw [h4, htr2]
          funext q
          simp only [World.setFile]
          rw [hk]; rfl
    · have hfin : KeyFiles base priv pub w r2 w2.fs := by
        rcases s2 with ⟨h, h'⟩ | ⟨k, hk, -⟩
        · exact .nothing (by rw [h, hfs1]) h'
        · exact .secret k (by rw [hk, htr1, hset1]) hr2
      cases r2 with
      | ok x => exact absurd rfl hr2
      | _ => exact hfin

end Verif
