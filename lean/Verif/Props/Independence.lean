/-
C94: what is published does not depend on how the secret key is protected. C95: the work factor.
-/
import Verif.Props.Sign
import Verif.Props.Keygen

namespace Verif.Props
open World Spec

/-! ### C94 -/

/-- The files of a key pair that was generated. -/
theorem generated_files (P : Prims) (base : Path) (pw : Bytes) (opts : Option Int) (w : World)
    (h : (GenerateKey P base pw opts w).1 = .ok ()) :
    ∃ priv pub m1 m2, Generated P pw opts (draw w w.rngPos 32) (draw w (w.rngPos + 32) 16) (draw w (w.rngPos + 48) 8) priv pub ∧
      (GenerateKey P base pw opts w).2.fs (base ++ b!".sec") = some ⟨secretFile priv, m1⟩ ∧
      (GenerateKey P base pw opts w).2.fs (base ++ b!".pub") = some ⟨publicFile pub, m2⟩ := by
  rcases GenerateKey_spec P base pw opts w with ⟨-, h1⟩ | ⟨priv, pub, gen, hk⟩
  · exact absurd h h1
  · cases hk with
    | nothing _ hr => exact absurd h hr
    | secret _ _ hr => exact absurd h hr
    | both k hf hr =>
      rw [hr h, secText_eq, pubText_eq] at hf
      rw [hf]
      rw [setFile_other _ _ (sec_ne_pub base), setFile_self, setFile_self]
      exact ⟨priv, pub, _, _, gen, rfl, rfl⟩

/-- C94: two key generations, on any machines and under any schedules, that drew the same 32 bytes for the key and the same 8 for its
number write public key files with the same content, whatever passphrases, round counts and salts they used. -/
theorem C94_public (P : Prims) (base base' : Path) (pw pw' : Bytes) (opts opts' : Option Int) (w w' : World)
    (h : (GenerateKey P base pw opts w).1 = .ok ()) (h' : (GenerateKey P base' pw' opts' w').1 = .ok ())
    (hseed : draw w w.rngPos 32 = draw w' w'.rngPos 32) (hnum : draw w (w.rngPos + 48) 8 = draw w' (w'.rngPos + 48) 8) :
    ((GenerateKey P base pw opts w).2.fs (base ++ b!".pub")).map (·.data) =
      ((GenerateKey P base' pw' opts' w').2.fs (base' ++ b!".pub")).map (·.data) := by
  obtain ⟨priv, pub, m1, m2, g, -, hp⟩ := generated_files P base pw opts w h
  obtain ⟨priv', pub', m1', m2', g', -, hp'⟩ := generated_files P base' pw' opts' w' h'
  have : pub = pub' := by
    have e1 : pub.keyAlgo = pub'.keyAlgo := arr_ext (by rw [g.pubAlgo, g'.pubAlgo])
    have e2 : pub.keyNum = pub'.keyNum := by rw [g.pubNum, g'.pubNum, hnum]
    have e3 : pub.key = pub'.key := by rw [g.pubKey, g'.pubKey, hseed]
    cases pub; cases pub'
    simp only at e1 e2 e3
    subst e1 e2 e3
    rfl
  rw [hp, hp', this]
  rfl

theorem splits_sec {base dir name : Path} (h : Splits base dir name) : Splits (base ++ b!".sec") dir (name ++ b!".sec") :=
  ⟨by rw [h.eq, List.append_assoc], h.dir, by
    intro hm
    rcases List.mem_append.mp hm with h1 | h1
    · exact h.name h1
    · revert h1; decide⟩

/-- C94: signatures made with the two keys, on the same message, are the same files; the first may be protected and the second not. The
passphrases are typed correctly. -/
theorem C94_signature (P : Prims) (base base' dir dir' name : Path) (pw pw' : Bytes) (opts opts' : Option Int) (w0 w0' : World)
    (h : (GenerateKey P base pw opts w0).1 = .ok ()) (h' : (GenerateKey P base' pw' opts' w0').1 = .ok ())
    (hseed : draw w0 w0.rngPos 32 = draw w0' w0'.rngPos 32) (hnum : draw w0 (w0.rngPos + 48) 8 = draw w0' (w0'.rngPos + 48) 8)
    (hsp : Splits base dir name) (hsp' : Splits base' dir' name) (mp mp' sp sp' : Path) (w w' : World)
    (hsec : w.fs (base ++ b!".sec") = (GenerateKey P base pw opts w0).2.fs (base ++ b!".sec"))
    (hsec' : w'.fs (base' ++ b!".sec") = (GenerateKey P base' pw' opts' w0').2.fs (base' ++ b!".sec"))
    (hm : (w.fs mp).map (·.data) = (w'.fs mp').map (·.data))
    (ht : pw ≠ [] → ∃ rest, w.tty = some pw :: rest) (ht' : pw' ≠ [] → ∃ rest, w'.tty = some pw' :: rest)
    (hok : (Sign P (base ++ b!".sec") mp sp w).1 = .ok ()) (hok' : (Sign P (base' ++ b!".sec") mp' sp' w').1 = .ok ()) :
    ((Sign P (base ++ b!".sec") mp sp w).2.fs (sigPath mp sp)).map (·.data) =
      ((Sign P (base' ++ b!".sec") mp' sp' w').2.fs (sigPath mp' sp')).map (·.data) := by
  obtain ⟨priv, pub, m1, m2, g, hs, -⟩ := generated_files P base pw opts w0 h
  obtain ⟨priv', pub', m1', m2', g', hs', -⟩ := generated_files P base' pw' opts' w0' h'
  obtain ⟨fk, fm, a, b, f, k1, k2, k3, k4, k5, k6⟩ := C24_content P _ mp sp w dir name (splits_sec hsp) hok
  obtain ⟨fk', fm', a', b', f', l1, l2, l3, l4, l5, l6⟩ := C24_content P _ mp' sp' w' dir' name (splits_sec hsp') hok'
  rw [hsec, hs] at k1; cases k1
  rw [hsec', hs'] at l1; cases l1
  simp only at k2 l2
  rw [readPrivateKeyFile_secret] at k2 l2; cases k2; cases l2
  obtain ⟨c, c1, c2, c3, c4⟩ := g.usable w.tty ht
  obtain ⟨c', d1, d2, d3, d4⟩ := g'.usable w'.tty ht'
  obtain rfl := k4.unique c1
  obtain rfl := l4.unique d1
  rw [k3, l3] at hm
  have hm : fm.data = fm'.data := Option.some.inj hm
  have e1 : b.keyAlgo = b'.keyAlgo := by rw [c2, d2]; exact arr_ext (by rw [g.algo, g'.algo])
  have e2 : b.keyNum = b'.keyNum := by rw [c3, d3, g.numEq, g'.numEq, hnum]
  have e3 : b.key = b'.key := arr_ext (by rw [c4, d4, hseed])
  rw [k5, l5]
  simp only [Option.map_some]
  rw [k6, l6]
  unfold signatureFile
  rw [e1, e2, e3, hm]

/-- Two such generations: with a passphrase, and without. -/
example : (GenerateKey toy b!"d/k" b!"pw" (some 7) calm).1 = .ok () ∧ (GenerateKey toy b!"e/k" [] none calm).1 = .ok () ∧
    Splits b!"d/k" b!"d/" b!"k" ∧ Splits b!"e/k" b!"e/" b!"k" ∧
    (GenerateKey toy b!"d/k" b!"pw" (some 7) calm).2.fs b!"d/k.sec" ≠ (GenerateKey toy b!"e/k" [] none calm).2.fs b!"e/k.sec" := by
  refine ⟨rfl, rfl, ⟨rfl, .inr rfl, by decide⟩, ⟨rfl, .inr rfl, by decide⟩, ?_⟩
  decide +kernel

/-! ### C95 -/

/-- The secret key is stretched with `r` rounds: what is stored, combined with the key derived from the passphrase with `r` rounds, is the
secret key of the pair. -/
def StretchedWith (P : Prims) (pw : Bytes) (r : Nat) (priv : Private) (pub : Public) : Prop :=
  ∃ seed : Arr 32, pub.key = P.edPublic seed ∧
    (xorArr priv.key (P.bcrypt pw priv.salt r)).toList = seed.toList ++ pub.key.toList

/-- C95 (the part that holds): a requested round count from 1 to 2^32 - 1 (or the default 42) is the one that is stored and used. Not
claimed, because false (see the next theorems): the same for all round counts that are accepted. -/
theorem C95_rounds_partial (P : Prims) (pw : Bytes) (opts : Option Int) (w : World) (priv : Private) (pub : Public) (hp : pw ≠ [])
    (hr : 0 < opts.getD 42) (hr' : opts.getD 42 < 2 ^ 32)
    (h : (GenerateKeypair P pw opts w).1 = .ok (priv, pub)) :
    (priv.kdfRounds.toNat : Int) = opts.getD 42 ∧ StretchedWith P pw (opts.getD 42).toNat priv pub := by
  have h1 := ((C30_encrypted_iff P pw opts w priv pub h).2 hp).1
  rw [Int.emod_eq_of_lt (by omega) hr'] at h1
  rcases (GenerateKeypair_spec P pw opts w).2 with ⟨h2, -, -⟩ | ⟨priv', pub', h2, g⟩
  · exact absurd h (h2 _)
  · rw [h] at h2; cases h2
    refine ⟨h1, draw w w.rngPos 32, g.pubKey, ?_⟩
    rw [← h1, Int.toNat_natCast, g.pubKey, g.saltEq]
    exact g.crypt hp

/-- C95, negation: 2^32 + 1 rounds are accepted (whenever no system call fails), and one round is used. -/
theorem C95_negation (P : Prims) (pw : Bytes) (w : World) (hp : pw ≠ []) (hq : w.Quiet) :
    ∃ priv pub, (GenerateKeypair P pw (some (2 ^ 32 + 1)) w).1 = .ok (priv, pub) ∧ priv.kdfRounds = 1 ∧
      StretchedWith P pw 1 priv pub := by
  rcases C30_succeeds P pw (some (2 ^ 32 + 1)) w hq with ⟨⟨priv, pub⟩, h⟩ | ⟨-, -, h⟩
  · rcases (GenerateKeypair_spec P pw (some (2 ^ 32 + 1)) w).2 with ⟨h2, -, -⟩ | ⟨priv', pub', h2, g⟩
    · exact absurd h (h2 _)
    · rw [h] at h2; cases h2
      have hr : priv.kdfRounds = 1 := by rw [g.rounds, storedRounds, if_neg hp]; decide
      refine ⟨priv, pub, h, hr, draw w w.rngPos 32, g.pubKey, ?_⟩
      have := g.crypt hp
      rw [hr] at this
      rw [g.pubKey, g.saltEq]
      exact this
  · exact absurd h (by decide)

/-- C95, negation for negative numbers: they are accepted too, and -1 means 4294967295 rounds. -/
theorem C95_negative_negation (P : Prims) (pw : Bytes) (w : World) (hp : pw ≠ []) (hq : w.Quiet) :
    ∃ priv pub, (GenerateKeypair P pw (some (-1)) w).1 = .ok (priv, pub) ∧ priv.kdfRounds.toNat = 4294967295 := by
  rcases C30_succeeds P pw (some (-1)) w hq with ⟨⟨priv, pub⟩, h⟩ | ⟨-, -, h⟩
  · have := ((C30_encrypted_iff P pw (some (-1)) w priv pub h).2 hp).1
    have e : ((some (-1) : Option Int).getD 42) % 2 ^ 32 = 4294967295 := by decide
    rw [e] at this
    exact ⟨priv, pub, h, by omega⟩
  · exact absurd h (by decide)

/-- The part that holds is not empty. -/
example : ∃ priv pub, (GenerateKeypair toy b!"pw" (some 7) calm).1 = .ok (priv, pub) ∧ priv.kdfRounds = 7 := ⟨_, _, rfl, by decide +kernel⟩

end Verif.Props
