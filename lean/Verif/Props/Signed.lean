/-
Property C101: what Sign reports as written can be verified.
-/
import Verif.Props.Sign

namespace Verif.Props
open World Spec

/-- The public key that belongs to a secret key. -/
def publicHalf (priv : Private) : Public :=
  { keyAlgo := priv.keyAlgo, keyNum := priv.keyNum, key := copyZ 32 (priv.key.toList.drop 32) }

/-- C101, the part that holds: for secret keys with the algorithm tag "Ed" whose second half is the public key of the first. Under every
schedule, if `Sign` returns nil, `Verify` with the public half of the key accepts what it wrote. Missing: other tags
(`C101_algo_negation`) and other second halves, for which the signature is not one by the stated public key (C87). -/
theorem C101_verifies_partial (P : Prims) (hed : EdCorrect P) (pk mp sp : Path) (w : World) (dir name : Path)
    (hs : Splits pk dir (name ++ b!".sec")) (hnl : 10 ∉ name) (hlen : name.length < 64000) (h : (Sign P pk mp sp w).1 = .ok ())
    (fk : File) (priv priv' : Private) (hk : w.fs pk = some fk) (hparse : readPrivateKeyFile fk.data = .ok priv)
    (hu : Usable P w.tty priv priv') (ha : priv.keyAlgo.toList = b!"Ed") (seed : Arr 32)
    (hkey : priv'.key.toList = seed.toList ++ (P.edPublic seed).toList)
    (pp : Path) (w2 : World) (hq : w2.Quiet) (mode : Nat) (hpub : w2.fs pp = some ⟨publicFile (publicHalf priv'), mode⟩)
    (hmsg : w2.fs mp = w.fs mp) (hsig : w2.fs (sigPath mp sp) = (Sign P pk mp sp w).2.fs (sigPath mp sp)) :
    (Verify P pp mp sp w2).1 = .ok () := by
  obtain ⟨fk', fm, priv1, priv1', f, h1, h2, h3, h4, h5, h6⟩ := C24_content P pk mp sp w dir name hs h
  rw [hk] at h1; cases h1
  rw [hparse] at h2; cases h2
  have := hu.unique h4
  subst this
  obtain ⟨ht1, ht2⟩ := C24_tags P _ _ _ hu
  rw [h3] at hmsg
  rw [h5] at hsig
  rw [Verify_quiet P hq hpub hmsg hsig, h6]
  unfold verifyFiles
  rw [readPublicKeyFile_public, Res.bind_ok, readSignatureFile_signature P priv' _ _ (by
    intro hm; rcases List.mem_append.mp hm with hm | hm
    · exact hnl hm
    · revert hm; decide) (by rw [List.length_append]; simp only [List.length_cons, List.length_nil]; omega), Res.bind_ok]
  have hpk : (publicHalf priv').key = P.edPublic seed := by
    apply arr_ext
    simp only [publicHalf]
    rw [hkey, List.drop_left' (by simp), copyZ_toList_eq (by simp)]
  refine (verify_ok_iff _ _ _ _).mpr ⟨?_, ?_, rfl, ?_⟩
  · simp only [publicHalf]; rw [ht1, ha]
  · simp only; rw [ht1, ha]
  · rw [hpk]; exact hed _ _ _ hkey

/-- The hypotheses can be met: a generated key. -/
example : ∃ (w : World) (priv : Private) (fk : File) (seed : Arr 32), EdCorrect toy ∧ (Sign toy b!"k.sec" b!"m" [] w).1 = .ok () ∧
    Splits b!"k.sec" [] (b!"k" ++ b!".sec") ∧ w.fs b!"k.sec" = some fk ∧ readPrivateKeyFile fk.data = .ok priv ∧
    Usable toy w.tty priv priv ∧ priv.keyAlgo.toList = b!"Ed" ∧ priv.key.toList = seed.toList ++ (toy.edPublic seed).toList := by
  let priv : Private := { lockedKey with
    kdfRounds := 0, keyAlgo := copyZ 2 b!"Ed", key := copyZ 64 ((copyZ 32 [1]).toList ++ (toy.edPublic (copyZ 32 [1])).toList) }
  have hq : ((calm.setFile b!"k.sec" ⟨secretFile priv, 0⟩).setFile b!"m" ⟨b!"hi", 0⟩).Quiet := fun _ _ => rfl
  have hk : ((calm.setFile b!"k.sec" ⟨secretFile priv, 0⟩).setFile b!"m" ⟨b!"hi", 0⟩).fs b!"k.sec" = some ⟨secretFile priv, 0⟩ := by
    rw [setFile_other _ _ (by decide), setFile_self]
  refine ⟨_, priv, _, copyZ 32 [1], toy_correct, Sign_quiet toy hq hk (readPrivateKeyFile_secret priv) (setFile_self _ _ _) (.inl ⟨rfl, rfl⟩),
    ⟨rfl, .inl rfl, by decide⟩, hk, readPrivateKeyFile_secret priv, .inl ⟨rfl, rfl⟩, by decide +kernel, ?_⟩
  exact copyZ_toList_eq (by simp)

/-- C101 (false): `Sign` does not look at the algorithm tag of the secret key. With every key with another tag, it returns nil
(whenever nothing fails), and no public key file verifies what it wrote, for no message. -/
theorem C101_algo_negation (P : Prims) (pk mp sp : Path) (w : World) (dir name : Path) (hq : w.Quiet)
    (hs : Splits pk dir (name ++ b!".sec")) (hnl : 10 ∉ name) (hlen : name.length < 64000)
    (fk fm : File) (priv priv' : Private) (hk : w.fs pk = some fk) (hparse : readPrivateKeyFile fk.data = .ok priv)
    (hu : Usable P w.tty priv priv') (hm : w.fs mp = some fm) (ha : priv.keyAlgo.toList ≠ b!"Ed") :
    (Sign P pk mp sp w).1 = .ok () ∧
    ∀ (pp mp' sp' : Path) (w2 : World), w2.fs (sigPath mp' sp') = (Sign P pk mp sp w).2.fs (sigPath mp sp) →
      (Verify P pp mp' sp' w2).1 ≠ .ok () := by
  have h := Sign_quiet P (sp := sp) hq hk hparse hm hu
  refine ⟨h, fun pp mp' sp' w2 hsig hv => ?_⟩
  obtain ⟨fk', fm', priv1, priv1', f, h1, h2, h3, h4, h5, h6⟩ := C24_content P pk mp sp w dir name hs h
  rw [hk] at h1; cases h1
  rw [hparse] at h2; cases h2
  have := hu.unique h4
  subst this
  obtain ⟨ht1, -⟩ := C24_tags P _ _ _ hu
  obtain ⟨fp, fm2, fs, a1, a2, a3, a4⟩ := C19_sound P pp mp' sp' w2 hv
  rw [hsig, h5] at a3
  cases a3
  rw [← verifyFiles_ok_iff, h6] at a4
  unfold verifyFiles at a4
  obtain ⟨pub, b1, b2⟩ := Res.bind_ok_inv a4
  rw [readSignatureFile_signature P priv' _ _ (by
    intro hm; rcases List.mem_append.mp hm with hm | hm
    · exact hnl hm
    · revert hm; decide) (by rw [List.length_append]; simp only [List.length_cons, List.length_nil]; omega), Res.bind_ok] at b2
  obtain ⟨-, c2, -⟩ := (verify_ok_iff _ _ _ _).mp b2
  simp only at c2
  rw [ht1] at c2
  exact ha c2

/-- There are such keys. -/
example : Usable toy [] { lockedKey with kdfRounds := 0, keyAlgo := copyZ 2 b!"Xx" } { lockedKey with kdfRounds := 0, keyAlgo := copyZ 2 b!"Xx" } ∧
    (copyZ 2 b!"Xx").toList ≠ b!"Ed" := ⟨.inl ⟨rfl, rfl⟩, by decide +kernel⟩

end Verif.Props
