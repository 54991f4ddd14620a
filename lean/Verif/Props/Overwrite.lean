/-
C88: key generation where there are keys already.
-/
import Verif.Props.Keygen
import Verif.Props.Truncation

namespace Verif.Props
open World Spec

/-! ### C88 -/

/-- The next `n` system calls succeed. -/
def CalmFor (n : Nat) (w : World) : Prop := ∀ i, w.tick ≤ i → i < w.tick + n → w.sched i = .ok

theorem writeFile_calm (p : Path) (data : Bytes) (perm : Nat) (w : World) (hq : CalmFor 3 w) :
    writeFile p data perm w =
      (.ok (), { w.setFile p { data := data, mode := (w.truncated p perm).mode } with tick := w.tick + 3 }) := by
  unfold writeFile
  rw [Act.bind_ok (show createFile p perm w = (.ok (), { w with tick := w.tick + 1 }.setFile p (w.truncated p perm)) by
      simp only [createFile, hq w.tick (Nat.le_refl _) (by omega)])]
  rw [Act.bind_eq]
  simp only [next]
  have h1 : ({ w with tick := w.tick + 1 }.setFile p (w.truncated p perm)).sched
      ({ w with tick := w.tick + 1 }.setFile p (w.truncated p perm)).tick = .ok := hq _ (by simp [setFile]) (by simp [setFile])
  rw [h1]
  simp only
  have ht : ∀ t, { { w with tick := w.tick + 1 }.setFile p (w.truncated p perm) with tick := t } =
      { w with tick := t }.setFile p (w.truncated p perm) := fun t => rfl
  rw [ht, pokeFile_setFile, truncated_data, overwrite_nil]
  have h2 : ∀ t f, w.tick ≤ t → t < w.tick + 3 → ({ w with tick := t }.setFile p f).sched ({ w with tick := t }.setFile p f).tick = .ok :=
    fun t f h h' => hq _ h h'
  rw [h2 _ _ (by simp only [setFile]; omega) (by simp only [setFile]; omega)]
  rfl

theorem entropy_calm (n : Nat) {w : World} (hq : w.sched w.tick = .ok) :
    entropy n w = (.ok (draw w w.rngPos n), { w with tick := w.tick + 1, rngPos := w.rngPos + n }) := by
  simp only [entropy, hq]; rfl

theorem GenerateKeypair_calm (P : Prims) (pw : Bytes) (opts : Option Int) {w : World} (hq : CalmFor 3 w) {x : Private × Public}
    (hx : makeKeypair P pw (opts.getD defaultRounds) (draw w w.rngPos 32) (draw w (w.rngPos + 32) 16) (draw w (w.rngPos + 48) 8) = .ok x) :
    GenerateKeypair P pw opts w = (.ok x, { w with tick := w.tick + 3, rngPos := w.rngPos + 56 }) := by
  unfold GenerateKeypair
  rw [Act.bind_ok (entropy_calm 32 (hq _ (Nat.le_refl _) (by omega))),
    Act.bind_ok (entropy_calm 16 (w := { w with tick := w.tick + 1, rngPos := w.rngPos + 32 }) (hq _ (by simp) (by simp))),
    Act.bind_ok (entropy_calm 8 (w := { w with tick := w.tick + 1 + 1, rngPos := w.rngPos + 32 + 16 })
      (hq _ (by simp only; omega) (by simp only; omega)))]
  show (makeKeypair P pw (opts.getD defaultRounds) (draw w w.rngPos 32) (draw w (w.rngPos + 32) 16) (draw w (w.rngPos + 48) 8), _) = _
  rw [hx]

/-- Rounds with which keys can be made: any, if there is no passphrase. -/
def GoodRounds (pw : Bytes) (opts : Option Int) : Prop := pw = [] ∨ (opts.getD 42) % 2 ^ 32 ≠ 0

theorem makeKeypair_good (P : Prims) {pw : Bytes} {opts : Option Int} (h : GoodRounds pw opts) (seed : Arr 32) (salt : Arr 16) (num : Arr 8) :
    ∃ priv pub, makeKeypair P pw (opts.getD defaultRounds) seed salt num = .ok (priv, pub) ∧ Generated P pw opts seed salt num priv pub := by
  rcases makeKeypair_spec P pw opts seed salt num with h1 | ⟨-, h2, h3⟩
  · exact h1
  · exfalso
    rcases h with h | h
    · exact h2 h
    · have h4 := congrArg BitVec.toNat h3
      rw [BitVec.toNat_ofInt] at h4
      have h5 : 0 ≤ (opts.getD 42) % ((2 ^ 32 : Nat) : Int) := Int.emod_nonneg _ (by decide)
      have h6 := Int.toNat_of_nonneg h5
      rw [h4] at h6
      exact h h6.symm

theorem writeSec (base : Path) (priv : Private) (w : World) : writeDataFile (base ++ b!".sec") b!"untrusted comment: signify private key" priv.encode w =
    writeFile (base ++ b!".sec") (secretFile priv) 0o644 w := by
  rw [← secText_eq]; rfl

theorem writePub (base : Path) (pub : Public) (w : World) : writeDataFile (base ++ b!".pub") b!"untrusted comment: signify public key" pub.encode w =
    writeFile (base ++ b!".pub") (publicFile pub) 0o644 w := by
  rw [← pubText_eq]; rfl

/-- The machine once the secret key file is written. -/
def afterSec (w : World) (base : Path) (priv : Private) : World :=
  { w.setFile (base ++ b!".sec") ⟨secretFile priv, (w.truncated (base ++ b!".sec") 0o644).mode⟩ with
    tick := w.tick + 6, rngPos := w.rngPos + 56 }

theorem GenerateKey_sec (P : Prims) (base : Path) {pw : Bytes} {opts : Option Int} (hr : GoodRounds pw opts) (w : World) (hq : CalmFor 6 w) :
    ∃ priv pub, makeKeypair P pw (opts.getD defaultRounds) (draw w w.rngPos 32) (draw w (w.rngPos + 32) 16) (draw w (w.rngPos + 48) 8) = .ok (priv, pub) ∧
      Generated P pw opts (draw w w.rngPos 32) (draw w (w.rngPos + 32) 16) (draw w (w.rngPos + 48) 8) priv pub ∧
      GenerateKey P base pw opts w = writeFile (base ++ b!".pub") (publicFile pub) 0o644 (afterSec w base priv) := by
  obtain ⟨priv, pub, h1, h2⟩ := makeKeypair_good P hr (draw w w.rngPos 32) (draw w (w.rngPos + 32) 16) (draw w (w.rngPos + 48) 8)
  refine ⟨priv, pub, h1, h2, ?_⟩
  unfold GenerateKey
  rw [Act.bind_ok (GenerateKeypair_calm P pw opts (fun i h h' => hq i h (by omega)) h1)]
  simp only
  rw [Act.bind_ok (by
    rw [writeSec]
    exact writeFile_calm _ _ _ _ (fun i h h' => hq i (by simp only at h; omega) (by simp only at h'; omega)))]
  exact writePub base pub _

/-- C88 is false: key generation silently replaces existing keys. Whatever the two files held before, it returns nil and both are
lost; what is in them afterwards does not depend on what was. -/
theorem C88_negation (P : Prims) (base : Path) (pw : Bytes) (opts : Option Int) (hr : GoodRounds pw opts) (w : World) (hq : w.Quiet) :
    ∃ sec pub : Bytes, ∀ f g : File,
      let w' := (w.setFile (base ++ b!".sec") f).setFile (base ++ b!".pub") g
      (GenerateKey P base pw opts w').1 = .ok () ∧
      (GenerateKey P base pw opts w').2.fs (base ++ b!".sec") = some ⟨sec, f.mode⟩ ∧
      (GenerateKey P base pw opts w').2.fs (base ++ b!".pub") = some ⟨pub, g.mode⟩ := by
  obtain ⟨priv, pub, h1, -⟩ := makeKeypair_good P hr (draw w w.rngPos 32) (draw w (w.rngPos + 32) 16) (draw w (w.rngPos + 48) 8)
  refine ⟨secretFile priv, publicFile pub, fun f g => ?_⟩
  intro w'
  have hq' : w'.Quiet := hq
  obtain ⟨priv', pub', h1', -, he⟩ := GenerateKey_sec P base hr w' (fun i h _ => hq' i h)
  have h2 : (.ok (priv', pub') : Res (Private × Public)) = .ok (priv, pub) := h1'.symm.trans h1
  simp only [Res.ok.injEq, Prod.mk.injEq] at h2
  obtain ⟨rfl, rfl⟩ := h2
  have hs : (w'.truncated (base ++ b!".sec") 0o644).mode = f.mode := by
    have h3 : w'.fs (base ++ b!".sec") = some f := by
      show ((w.setFile (base ++ b!".sec") f).setFile (base ++ b!".pub") g).fs (base ++ b!".sec") = some f
      rw [setFile_other _ _ (sec_ne_pub base), setFile_self]
    rw [World.truncated, h3]
  have hq2 : (afterSec w' base priv').Quiet := fun i h => hq' i (by simp only [afterSec] at h; omega)
  rw [he, writeFile_quiet _ _ _ _ hq2]
  refine ⟨rfl, ?_, ?_⟩
  · show ((World.setFile _ (base ++ b!".pub") _).fs (base ++ b!".sec")) = _
    rw [setFile_other _ _ (sec_ne_pub base)]
    show ((World.setFile _ (base ++ b!".sec") _).fs (base ++ b!".sec")) = _
    rw [setFile_self, hs]
  · show ((World.setFile _ (base ++ b!".pub") _).fs (base ++ b!".pub")) = _
    rw [setFile_self]
    congr 2
    unfold World.truncated
    have h3 : (afterSec w' base priv').fs (base ++ b!".pub") = some g := by
      show (World.setFile w' (base ++ b!".sec") _).fs (base ++ b!".pub") = some g
      rw [setFile_other _ _ (sec_ne_pub base).symm]
      show ((w.setFile (base ++ b!".sec") f).setFile (base ++ b!".pub") g).fs (base ++ b!".pub") = some g
      rw [setFile_self]
    rw [h3]

/-- C88 is false: if the process dies between the two files (the seventh system call), a new secret key is left beside the old public
key. No signature made with the new key is accepted with that public key unless the new key number, which is random, happens to be
the old one. -/
theorem C88_mixed_negation (P : Prims) (base : Path) (pw : Bytes) (opts : Option Int) (hr : GoodRounds pw opts) (w : World)
    (hq : CalmFor 6 w) (hcrash : w.sched (w.tick + 6) = .crash 0) :
    (GenerateKey P base pw opts w).1 = .crash ∧
    (GenerateKey P base pw opts w).2.fs (base ++ b!".pub") = w.fs (base ++ b!".pub") ∧
    ∃ priv f, (GenerateKey P base pw opts w).2.fs (base ++ b!".sec") = some f ∧ f.data = secretFile priv ∧
      priv.keyNum = draw w (w.rngPos + 48) 8 ∧
      ∀ old num m file, readPublicKeyFile old = .ok num → num.keyNum ≠ draw w (w.rngPos + 48) 8 →
        (∃ s, readSignatureFile file = .ok s ∧ s.keyNum = priv.keyNum) → ¬ Accepts P old m file := by
  obtain ⟨priv, pub, -, gen, he⟩ := GenerateKey_sec P base hr w hq
  have hc : GenerateKey P base pw opts w = (.crash, { afterSec w base priv with tick := w.tick + 7 }) := by
    have h2 : (afterSec w base priv).sched (afterSec w base priv).tick = .crash 0 := hcrash
    rw [he, writeFile, Act.bind_eq, createFile]
    simp only [h2]
    rfl
  rw [hc]
  refine ⟨rfl, ?_, priv, _, setFile_self .., rfl, gen.numEq, ?_⟩
  · exact setFile_other _ _ (sec_ne_pub base).symm
  · rintro old num m file hold hne ⟨s, hs, hsn⟩ hacc
    rw [← verifyFiles_ok_iff, verifyFiles, hold, Res.bind_ok, hs, Res.bind_ok] at hacc
    obtain ⟨-, -, h3, -⟩ := (verify_ok_iff _ _ _ _).1 hacc
    rw [Vector.toList_inj, hsn, gen.numEq] at h3
    exact hne h3

/-- C88, the true part: if there was no public key file before, then, whatever fails and whenever the process dies, a public key file
that can be read lies beside the complete secret key of the same pair. -/
theorem C88_fresh_partial (P : Prims) (base : Path) (pw : Bytes) (opts : Option Int) (w : World)
    (hno : w.fs (base ++ b!".pub") = none) (f : File) (pub : Public)
    (hf : (GenerateKey P base pw opts w).2.fs (base ++ b!".pub") = some f) (hpub : readPublicKeyFile f.data = .ok pub) :
    ∃ priv g, (GenerateKey P base pw opts w).2.fs (base ++ b!".sec") = some g ∧ readPrivateKeyFile g.data = .ok priv ∧
      Generated P pw opts (draw w w.rngPos 32) (draw w (w.rngPos + 32) 16) (draw w (w.rngPos + 48) 8) priv pub := by
  obtain ⟨priv, pub', gen, ⟨m, hsec⟩, f', hf', hpre⟩ := C32_secret_first P base pw opts w (by rw [hno, hf]; simp)
  rw [hf] at hf'
  obtain rfl := Option.some.inj hf'
  rw [List.prefix_iff_eq_take] at hpre
  rw [hpre] at hpub
  obtain ⟨rfl, -⟩ := C86_public_partial pub' pub _ hpub
  exact ⟨priv, _, hsec, readPrivateKeyFile_secret priv, gen⟩

/-- Such machines and options. -/
example : GoodRounds b!"pw" none ∧ GoodRounds [] (some 0) ∧ calm.Quiet ∧
    CalmFor 6 { calm with sched := fun i => if i = 6 then .crash 0 else .ok } ∧
    (GenerateKey toy b!"k" b!"pw" none { calm with sched := fun i => if i = 6 then .crash 0 else .ok }).1 = .crash := by
  refine ⟨.inr (by decide), .inl rfl, fun _ _ => rfl, fun i h h' => ?_, rfl⟩
  have : i ≠ 6 := by simp only [calm] at h'; omega
  simp [this]

end Verif.Props
