/-
C89: encrypted files that end early.
-/
import Verif.Lemmas.CutStream
import Verif.Props.Matching

namespace Verif.Props
open World Spec Ed

/-! ### C89 -/

theorem stripNL_prefix {a b : Bytes} (h : a <+: b) : stripNL a <+: stripNL b := by
  obtain ⟨t, rfl⟩ := h
  rw [stripNL_append]; exact List.prefix_append _ _

/-- C89: of a file that `Seal` wrote, keep only the beginning, of any length. If `Open` returns nil for it, with the key for which it
was sealed, on any machine, then it has written the complete message, or the MAC of the last piece is the MAC of a beginning of it. -/
theorem C89_truncated (P : Prims) (pp mp ep : Path) (w : World) (hq : w.Quiet) (fp fm : File) (pub : Public) (edpub : Arr 32)
    (hfp : w.fs pp = some fp) (hpub : readPublicKeyFile fp.data = .ok pub) (hbox : pub.toBox = .ok edpub)
    (hfm : w.fs mp = some fm) (hne : fm.data ≠ []) (hpath : mp ≠ encPath mp ep) (hlen : fm.data.length < 2 ^ 63) :
    ∃ whole, (Seal P pp mp ep w).2.fs (encPath mp ep) = some whole ∧
    ∀ (n fuel : Nat) (kp ep' out : Path) (w' : World) (fe : File), w'.fs ep' = some fe → fe.data = whole.data.take n →
      (∀ fk priv edpriv, w'.fs kp = some fk → readPrivateKeyFile fk.data = .ok priv → BoxUsable P w'.tty priv edpriv →
        P.precompute (P.x25519Base (draw w w.rngPos 32)) edpriv = P.precompute edpub (draw w w.rngPos 32)) →
      (Open P fuel kp ep' out w').1 = .ok () →
      ((Open P fuel kp ep' out w').2.fs out).map (·.data) = some fm.data ∨
      ∃ init p, pieces 16385 (by decide) fm.data = init ++ [p] ∧
        TagCollides P (P.precompute edpub (draw w w.rngPos 32)) init.length p := by
  obtain ⟨-, h2⟩ := Seal_quiet P pp mp ep hq hfp hpub (fun _ => hbox) hfm hpath hlen
  rw [if_neg hne] at h2
  refine ⟨_, by rw [h2, setFile_self], ?_⟩
  intro n fuel kp ep' out w' fe hfe hdata hkey hok
  simp only at hdata
  obtain ⟨-, -, fe', first, text, -, -, -, -, -, -, -, -, h4, h5, h6, -⟩ := C38_file P fuel kp ep' out w' hok
  rw [hfe] at h4; obtain rfl := Option.some.inj h4
  have hn := pieces_length 16385 (by decide) fm.data
  have hpre : fe.data <+: b!"untrusted comment: psignify encrypted file" ++ 10 :: encodedText
      (sealedStream P (P.precompute edpub (draw w w.rngPos 32)) (P.x25519Base (draw w w.rngPos 32)) (pieces 16385 (by decide) fm.data)) := by
    rw [hdata, encryptedComment_split]; exact List.take_prefix _ _
  generalize hst : sealedStream P (P.precompute edpub (draw w w.rngPos 32)) (P.x25519Base (draw w w.rngPos 32))
    (pieces 16385 (by decide) fm.data) = st at hpre
  obtain ⟨t, ht⟩ := hpre
  rw [h5, List.append_assoc, List.cons_append] at ht
  obtain ⟨-, htext⟩ := firstLine_unique h6 (by decide) ht
  have hcut : stripNL text <+: B64.encode st := by
    rw [← stripNL_encodedText]; exact stripNL_prefix ⟨t, htext⟩
  rw [← hst] at hcut
  rcases Open_part P fuel kp ep' out w' hfe h5 h6 hcut (framed_pieces fm.data) (by rw [hn]; omega) hkey hok with h | h
  · left; rw [h, pieces_flatten]; rfl
  · exact .inr h

/-- C89 for generated keys, when the libraries implement the RFCs: same hypotheses as for the round trip C36, except that any system
call may fail while opening, and that the encrypted file may be cut. -/
theorem C89_generated (P : Prims) (hP : Conforms P) (base : Path) (pw : Bytes) (opts : Option Int)
    (w0 : World) (hgen : (GenerateKey P base pw opts w0).1 = .ok ())
    (mp ep out : Path) (fm : File) (hne : fm.data ≠ []) (hlen : fm.data.length < 2 ^ 63)
    (w1 : World) (hq1 : w1.Quiet)
    (hpub : w1.fs (base ++ b!".pub") = (GenerateKey P base pw opts w0).2.fs (base ++ b!".pub"))
    (hmsg : w1.fs mp = some fm) (hpath1 : mp ≠ encPath mp ep)
    (w2 : World) (n : Nat) (fe : File) (ep' : Path)
    (hsec : w2.fs (base ++ b!".sec") = (GenerateKey P base pw opts w0).2.fs (base ++ b!".sec"))
    (hfe : w2.fs ep' = some fe)
    (henc : ∀ whole, (Seal P (base ++ b!".pub") mp ep w1).2.fs (encPath mp ep) = some whole → fe.data = whole.data.take n)
    (htty : pw ≠ [] → ∃ rest, w2.tty = some pw :: rest)
    (hluck : pw ≠ [] → ∀ fk priv, w2.fs (base ++ b!".sec") = some fk → readPrivateKeyFile fk.data = .ok priv →
      (P.sha512 priv.key.toList).toList.take 8 ≠ priv.checksum.toList)
    (fuel : Nat) (hok : (Open P fuel (base ++ b!".sec") ep' out w2).1 = .ok ()) :
    ((Open P fuel (base ++ b!".sec") ep' out w2).2.fs out).map (·.data) = some fm.data ∨
      ∃ sh init p, pieces 16385 (by decide) fm.data = init ++ [p] ∧ TagCollides P sh init.length p := by
  obtain ⟨priv, pub, gen, ⟨m1, hfpub⟩, ⟨m2, hfsec⟩⟩ : ∃ priv pub, Generated P pw opts (draw w0 w0.rngPos 32)
      (draw w0 (w0.rngPos + 32) 16) (draw w0 (w0.rngPos + 48) 8) priv pub ∧
      (∃ m, w1.fs (base ++ b!".pub") = some ⟨publicFile pub, m⟩) ∧
      (∃ m, w2.fs (base ++ b!".sec") = some ⟨secretFile priv, m⟩) := by
    rcases GenerateKey_spec P base pw opts w0 with ⟨-, h⟩ | ⟨priv, pub, gen, h⟩
    · exact absurd hgen h
    · refine ⟨priv, pub, gen, ?_⟩
      cases h with
      | nothing _ hr => exact absurd hgen hr
      | secret _ _ hr => exact absurd hgen hr
      | both k h hr =>
        rw [hr hgen, secText_eq, pubText_eq] at h
        rw [hsec, hpub, h]
        rw [setFile_other _ _ (sec_ne_pub base), setFile_self, setFile_self]
        exact ⟨⟨_, rfl⟩, ⟨_, rfl⟩⟩
  have hbox := C52_matching P hP _ pub gen.pubKey
  have hu := Generated.boxUsable gen w2.tty htty fun hp => hluck hp _ priv hfsec (readPrivateKeyFile_secret priv)
  generalize boxSecret P (draw w0 w0.rngPos 32).toList = k at hbox hu
  obtain ⟨whole, h1, h2⟩ := C89_truncated P (base ++ b!".pub") mp ep w1 hq1 _ fm pub _ hfpub (readPublicKeyFile_public pub) hbox
    hmsg hne hpath1 hlen
  rcases h2 n fuel (base ++ b!".sec") ep' out w2 fe hfe (henc whole h1) (by
    intro fk priv' edpriv hfk hpriv' hu'
    rw [hfsec] at hfk; obtain rfl := Option.some.inj hfk
    rw [readPrivateKeyFile_secret] at hpriv'; obtain rfl := Res.ok.inj hpriv'
    have h3 := ((toBox_ok_iff P priv w2 _).2 hu).symm.trans ((toBox_ok_iff P priv w2 _).2 hu')
    obtain rfl := Res.ok.inj h3
    unfold Prims.precompute
    rw [C52_exchange P hP]) hok with h | ⟨init, p, h⟩
  · exact .inl h
  · exact .inr ⟨_, init, p, h⟩

/-- There are files that are cut and opened: here only the last newline is missing. -/
example :
    let key : Private := { lockedKey with kdfRounds := 0, key := Vector.replicate 64 0 }
    let text := encryptedComment ++ encodedText (sealedStream toy
      (toy.precompute (copyZ 32 b!"e") (boxSecret toy (List.replicate 32 0))) (copyZ 32 b!"e") [b!"hi"])
    let w := (calm.setFile b!"k" ⟨secretFile key, 0⟩).setFile b!"m.enc" ⟨text.take 164, 0⟩
    text.length = 165 ∧ (Open toy 400 b!"k" b!"m.enc" b!"out" w).1 = .ok () ∧
      ((Open toy 400 b!"k" b!"m.enc" b!"out" w).2.fs b!"out").map (·.data) = some b!"hi" := by
  decide +kernel

end Verif.Props
