/-
C91 and C92: encryption that fails or is interrupted.
-/
import Verif.Lemmas.SealAny
import Verif.Props.CutSealed

namespace Verif.Props
open World Spec Ed

/-! ### C91 -/

/-- The encoding of the header and the first pieces is a beginning of the encoding of the whole. -/
theorem encode_first (P : Prims) (sh epub : Arr 32) (m : Bytes) (k : Nat) :
    B64.encode (headerOf P sh epub (pieces 16385 (by decide) m).length ++
      (sealedFrom P sh 0 ((pieces 16385 (by decide) m).take k)).flatten) <+:
    B64.encode (sealedStream P sh epub (pieces 16385 (by decide) m)) := by
  unfold sealedStream
  by_cases hk : (pieces 16385 (by decide) m).length ≤ k
  · rw [List.take_of_length_le hk]
  · have hfull : ∀ p ∈ (pieces 16385 (by decide) m).take k, p.length = 16385 := by
      have hf := framed_pieces m
      generalize pieces 16385 (by decide) m = ps at hf hk
      clear m
      induction ps generalizing k with
      | nil => simp
      | cons p ps ih =>
        cases k with
        | zero => simp
        | succ k =>
          rw [List.length_cons] at hk
          rcases hf with ⟨h1, h2⟩ | ⟨-, h2, -⟩
          · intro q hq
            rw [List.take_succ_cons] at hq
            rcases List.mem_cons.mp hq with rfl | hq
            · exact h1
            · exact ih k h2 (by omega) q hq
          · subst h2; simp at hk
    have hlen : 3 ∣ (headerOf P sh epub (pieces 16385 (by decide) m).length ++
        (sealedFrom P sh 0 ((pieces 16385 (by decide) m).take k)).flatten).length := by
      rw [List.length_append, headerOf_length, sealedFrom_flatten_length]
      generalize (pieces 16385 (by decide) m).take k = qs at hfull
      have : qs.flatten.length = 16385 * qs.length := by
        induction qs with
        | nil => rfl
        | cons q qs ih =>
          rw [List.flatten_cons, List.length_append, hfull q (by simp), ih (fun p hp => hfull p (by simp [hp])), List.length_cons]; omega
      omega
    conv => rhs; rw [← List.take_append_drop k (pieces 16385 (by decide) m), sealedFrom_append, List.flatten_append, ← List.append_assoc]
    rw [List.take_append_drop, encode_append _ _ hlen]
    exact List.prefix_append _ _

/-- C91: however `Seal` ends, on a machine on which any call may fail and the process may die at any time (but reads are not cut
short), the encrypted file is as before, or `Open` with the key for which it was sealed, on any machine, does not return nil for it
unless it writes the complete message, or the MAC of the last piece is the MAC of a beginning of it. -/
theorem C91_interrupted (P : Prims) (pp mp ep : Path) (w : World) (hs : NoShort w) (fp fm : File) (pub : Public) (edpub : Arr 32)
    (hfp : w.fs pp = some fp) (hpub : readPublicKeyFile fp.data = .ok pub) (hbox : pub.toBox = .ok edpub)
    (hfm : w.fs mp = some fm) (hpath : mp ≠ encPath mp ep) (hlen : fm.data.length < 2 ^ 63) :
    (Seal P pp mp ep w).2.fs (encPath mp ep) = w.fs (encPath mp ep) ∨
    ∃ f, (Seal P pp mp ep w).2.fs (encPath mp ep) = some f ∧
    ∀ (fuel : Nat) (kp ep' out : Path) (w' : World) (fe : File), w'.fs ep' = some fe → fe.data = f.data →
      (∀ fk priv edpriv, w'.fs kp = some fk → readPrivateKeyFile fk.data = .ok priv → BoxUsable P w'.tty priv edpriv →
        P.precompute (P.x25519Base (draw w w.rngPos 32)) edpriv = P.precompute edpub (draw w w.rngPos 32)) →
      (Open P fuel kp ep' out w').1 = .ok () →
      ((Open P fuel kp ep' out w').2.fs out).map (·.data) = some fm.data ∨
      ∃ init p, pieces 16385 (by decide) fm.data = init ++ [p] ∧
        TagCollides P (P.precompute edpub (draw w w.rngPos 32)) init.length p := by
  have hn := pieces_length 16385 (by decide) fm.data
  have hall : ∀ f text, (Seal P pp mp ep w).2.fs (encPath mp ep) = some f →
      (f.data <+: encryptedComment ∨ f.data = encryptedComment ++ text ∧
        stripNL text <+: B64.encode (sealedStream P (P.precompute edpub (draw w w.rngPos 32)) (P.x25519Base (draw w w.rngPos 32))
          (pieces 16385 (by decide) fm.data))) →
    ∃ f, (Seal P pp mp ep w).2.fs (encPath mp ep) = some f ∧
    ∀ (fuel : Nat) (kp ep' out : Path) (w' : World) (fe : File), w'.fs ep' = some fe → fe.data = f.data →
      (∀ fk priv edpriv, w'.fs kp = some fk → readPrivateKeyFile fk.data = .ok priv → BoxUsable P w'.tty priv edpriv →
        P.precompute (P.x25519Base (draw w w.rngPos 32)) edpriv = P.precompute edpub (draw w w.rngPos 32)) →
      (Open P fuel kp ep' out w').1 = .ok () →
      ((Open P fuel kp ep' out w').2.fs out).map (·.data) = some fm.data ∨
      ∃ init p, pieces 16385 (by decide) fm.data = init ++ [p] ∧
        TagCollides P (P.precompute edpub (draw w w.rngPos 32)) init.length p := by
    intro f text hf hcase
    refine ⟨f, hf, fun fuel kp ep' out w' fe hfe hdata hkey hok => ?_⟩
    obtain ⟨-, -, fe', first, text', -, -, -, -, -, -, -, -, h4, h5, h6, -⟩ := C38_file P fuel kp ep' out w' hok
    rw [hfe] at h4; obtain rfl := Option.some.inj h4
    -- the text of the file is a beginning of the whole in both cases
    have hcut : stripNL text' <+: B64.encode (sealedStream P (P.precompute edpub (draw w w.rngPos 32))
        (P.x25519Base (draw w w.rngPos 32)) (pieces 16385 (by decide) fm.data)) := by
      rcases hcase with ⟨t, ht⟩ | ⟨h1, h2⟩
      · rw [← hdata, h5, List.append_assoc, List.cons_append] at ht
        have e : encryptedComment = b!"untrusted comment: psignify encrypted file" ++ 10 :: [] := rfl
        rw [e] at ht
        obtain ⟨-, htext⟩ := firstLine_unique h6 (by decide) ht
        rw [(List.append_eq_nil_iff.mp htext).1]
        exact List.nil_prefix
      · rw [h1, encryptedComment_split, h5] at hdata
        obtain ⟨-, rfl⟩ := firstLine_unique h6 (by decide) hdata
        exact h2
    rcases Open_part P fuel kp ep' out w' hfe h5 h6 hcut (framed_pieces fm.data) (by rw [hn]; omega) hkey hok with h | h
    · left; rw [h, pieces_flatten]; rfl
    · exact .inr h
  rcases Seal_any P pp mp ep w hpath hs with h | ⟨f, h1, h2⟩ | ⟨f, text, h1, h2, h3⟩
  · exact .inl h
  · exact .inr (hall f [] h1 (.inl h2))
  · right
    refine hall f text h1 (.inr ⟨h2, ?_⟩)
    rcases h3 with h3 | ⟨fp', pub', fm', edpub', k, a1, a2, a3, a4, a5⟩
    · rw [h3]; exact List.nil_prefix
    · rw [hfp] at a1; obtain rfl := Option.some.inj a1
      rw [hpub] at a2; obtain rfl := Res.ok.inj a2
      rw [hfm] at a3; obtain rfl := Option.some.inj a3
      rw [hbox] at a4; obtain rfl := Res.ok.inj a4
      have hc : chunkCount fm.data.length = (pieces 16385 (by decide) fm.data).length := by
        rw [hn, chunkCount, chunkSize]; split <;> omega
      rw [hc] at a5
      exact a5.trans (encode_first _ _ _ _ _)

/-- C91 for generated keys, when the libraries implement the RFCs. -/
theorem C91_generated (P : Prims) (hP : Conforms P) (base : Path) (pw : Bytes) (opts : Option Int)
    (w0 : World) (hgen : (GenerateKey P base pw opts w0).1 = .ok ())
    (mp ep out : Path) (fm : File) (hlen : fm.data.length < 2 ^ 63)
    (w1 : World) (hs : NoShort w1)
    (hpub : w1.fs (base ++ b!".pub") = (GenerateKey P base pw opts w0).2.fs (base ++ b!".pub"))
    (hmsg : w1.fs mp = some fm) (hpath1 : mp ≠ encPath mp ep) (hnew : w1.fs (encPath mp ep) = none)
    (w2 : World) (fe : File) (ep' : Path)
    (hsec : w2.fs (base ++ b!".sec") = (GenerateKey P base pw opts w0).2.fs (base ++ b!".sec"))
    (hfe : w2.fs ep' = some fe)
    (henc : (Seal P (base ++ b!".pub") mp ep w1).2.fs (encPath mp ep) = some fe)
    (htty : pw ≠ [] → ∃ rest, w2.tty = some pw :: rest)
    (hluck : pw ≠ [] → ∀ fk priv, w2.fs (base ++ b!".sec") = some fk → readPrivateKeyFile fk.data = .ok priv →
      (P.sha512 priv.key.toList).toList.take 8 ≠ priv.checksum.toList)
    (fuel : Nat) (hok : (Open P fuel (base ++ b!".sec") ep' out w2).1 = .ok ()) :
    ((Open P fuel (base ++ b!".sec") ep' out w2).2.fs out).map (·.data) = some fm.data ∨
      ∃ sh init p, pieces 16385 (by decide) fm.data = init ++ [p] ∧ TagCollides P sh init.length p := by
  obtain ⟨priv, pub, gen, ⟨m1, hfpub⟩, ⟨m2, hfsec⟩⟩ : ∃ priv pub, Generated P pw opts (draw w0 w0.rngPos 32)
      (draw w0 (w0.rngPos + 32) 16) (draw w0 (w0.rngPos + 48) 8) priv pub ∧
      (∃ m, w1.fs (base ++ b!".pub") = some ⟨publicFile pub, m⟩) ∧
      (∃ m, w2.fs (base ++ b!".sec") = some ⟨secretFile priv, m⟩) := by
    rcases GenerateKey_spec P base pw opts w0 with ⟨-, h⟩ | ⟨priv, pub, gen, h⟩
    · exact absurd hgen h
    · refine ⟨priv, pub, gen, ?_⟩
      cases h with
      | nothing _ hr => exact absurd hgen hr
      | secret _ _ hr => exact absurd hgen hr
      | both k h hr =>
        rw [hr hgen, secText_eq, pubText_eq] at h
        rw [hsec, hpub, h]
        rw [setFile_other _ _ (sec_ne_pub base), setFile_self, setFile_self]
        exact ⟨⟨_, rfl⟩, ⟨_, rfl⟩⟩
  have hbox := C52_matching P hP _ pub gen.pubKey
  have hu := Generated.boxUsable gen w2.tty htty fun hp => hluck hp _ priv hfsec (readPrivateKeyFile_secret priv)
  generalize boxSecret P (draw w0 w0.rngPos 32).toList = k at hbox hu
  rcases C91_interrupted P (base ++ b!".pub") mp ep w1 hs _ fm pub _ hfpub (readPublicKeyFile_public pub) hbox
    hmsg hpath1 hlen with h1 | ⟨f, h1, h2⟩
  · rw [henc, hnew] at h1; cases h1
  · rw [henc] at h1; obtain rfl := Option.some.inj h1
    rcases h2 fuel (base ++ b!".sec") ep' out w2 fe hfe rfl (by
      intro fk priv' edpriv hfk hpriv' hu'
      rw [hfsec] at hfk; obtain rfl := Option.some.inj hfk
      rw [readPrivateKeyFile_secret] at hpriv'; obtain rfl := Res.ok.inj hpriv'
      have h3 := ((toBox_ok_iff P priv w2 _).2 hu).symm.trans ((toBox_ok_iff P priv w2 _).2 hu')
      obtain rfl := Res.ok.inj h3
      unfold Prims.precompute
      rw [C52_exchange P hP]) hok with h | ⟨init, p, h⟩
    · exact .inl h
    · exact .inr ⟨_, init, p, h⟩

set_option maxRecDepth 100000 in
/-- Interrupted runs do leave files: here the process dies in the middle of a write, after 19 characters of the text. -/
example : let w := sealWorld fun i => if i = 10 then .crash 3 else .ok
    NoShort w ∧ w.fs b!"p" = some ⟨publicFile zeroKey, 0⟩ ∧ readPublicKeyFile (publicFile zeroKey) = .ok zeroKey ∧
    w.fs b!"m" = some ⟨b!"h", 0⟩ ∧ b!"m" ≠ encPath b!"m" [] ∧
    (Seal toy b!"p" b!"m" [] w).1 = .crash ∧ w.fs b!"m.enc" = none ∧
    (Seal toy b!"p" b!"m" [] w).2.fs b!"m.enc" =
      some ⟨b!"untrusted comment: psignify encrypted file\nAAAAAAAAAAEBAgUKERo", 0o644⟩ := by
  refine ⟨fun i _ n => ?_, by decide +kernel, readPublicKeyFile_public zeroKey, by decide +kernel, by decide, ?_⟩
  · show (if i = 10 then Decision.crash 3 else .ok) ≠ .short n
    split <;> simp
  · decide +kernel

/-! ### C92 -/

/-- C92 (the part that holds): under every schedule, `Seal` changes nothing if there is no usable public key file or no message.
Not claimed, because false (see the next theorem): that a failing `Seal` leaves the previous encrypted file alone. -/
theorem C92_unchanged_partial (P : Prims) (pp mp ep : Path) (w : World)
    (h : (¬ ∃ fp pub, w.fs pp = some fp ∧ readPublicKeyFile fp.data = .ok pub) ∨ w.fs mp = none) :
    (Seal P pp mp ep w).1 ≠ .ok () ∧ (Seal P pp mp ep w).2.fs = w.fs := by
  rw [Seal_unfold, Act.bind_eq]
  have hw1 := loadPublicKey_world pp w
  have hl := @loadPublicKey_ok pp w
  rcases h1 : loadPublicKey pp w with ⟨r1, w1⟩
  rw [h1] at hw1 hl
  simp only at hw1 hl
  subst hw1
  cases r1 with
  | ok pub =>
    obtain ⟨fp, hfp, hpub⟩ := hl rfl
    have hm := h.resolve_left fun h => h ⟨fp, pub, hfp, hpub⟩
    simp only
    rw [Act.bind_eq]
    obtain ⟨r2, w2, h2, -, fs2, -, -, hcase⟩ := openFile_spec mp { w with tick := w.tick + 1 }
    rw [h2]
    rcases hcase with ⟨-, -, fm, hfm⟩ | ⟨⟨e, rfl⟩ | rfl, -⟩
    · simp only [hm] at hfm; cases hfm
    · exact ⟨by simp, fs2⟩
    · exact ⟨by simp, fs2⟩
  | _ => exact ⟨by simp, rfl⟩

/-- A key file with a string that encodes no point of the curve. -/
def noPoint : Public := { zeroKey with key := Vector.ofFn fun i => if i.val = 0 then 2 else 0 }

set_option maxRecDepth 100000 in
/-- C92, negation: a public key file that parses but whose key is not a point: `Seal` fails, without any fault of the system, and the
previous encrypted file is gone. -/
theorem C92_negation :
    let w := ((calm.setFile b!"p" ⟨publicFile noPoint, 0⟩).setFile b!"m" ⟨b!"hi", 0⟩).setFile b!"m.enc" ⟨b!"precious", 0⟩
    w.Quiet ∧ (Seal toy b!"p" b!"m" [] w).1 = .err .invalidPublicKey ∧
      (Seal toy b!"p" b!"m" [] w).2.fs b!"m.enc" = some ⟨b!"untrusted comment: psignify encrypted file\n\n", 0⟩ :=
  ⟨fun _ _ => rfl, by decide +kernel, by decide +kernel⟩

/-- Both cases of the part that holds occur. -/
example : (¬ ∃ fp pub, (calm.setFile b!"p" ⟨b!"nonsense", 0⟩).fs b!"p" = some fp ∧ readPublicKeyFile fp.data = .ok pub) ∧
    calm.fs b!"m" = none := by
  refine ⟨?_, rfl⟩
  rintro ⟨fp, pub, h1, h2⟩
  rw [setFile_self] at h1; obtain rfl := Option.some.inj h1
  have h3 : ∀ r : Res Public, r = readPublicKeyFile b!"nonsense" → (match r with | .ok _ => false | _ => true) = true := by
    rintro r rfl; decide +kernel
  exact absurd (h3 _ h2.symm) (by simp)

end Verif.Props
