/-
C36, C37, C43, C44, C46, C48, and C38, C40, C42, C45 for files: `Seal` and `Open`.
-/
import Verif.Lemmas.SealFile
import Verif.Lemmas.OpenRel
import Verif.Lemmas.Files
import Verif.Lemmas.ZeroKey
import Verif.Props.Codec
import Verif.Props.Sign
import Verif.Props.SealStream

namespace Verif.Props
open World Spec

/-- X25519 key agreement. -/
def DHAgrees (P : Prims) : Prop := ∀ a b : Arr 32, P.x25519 a (P.x25519Base b) = P.x25519 b (P.x25519Base a)

/-- `Public.ToBox` of an Ed25519 public key is the X25519 public key that belongs to the clamped hash of the seed. -/
def BoxMatches (P : Prims) : Prop :=
  ∀ (seed : Arr 32) (pub : Public), pub.key = P.edPublic seed → pub.toBox = .ok (P.x25519Base (boxSecret P seed.toList))

/-! ### C36 -/

theorem encodedText_nil : encodedText [] = [10] := by decide +kernel

theorem stripNL_encodedText (d : Bytes) : stripNL (encodedText d) = B64.encode d := by
  rw [C02_strip, encode_eq_base64]

theorem encryptedComment_split (t : Bytes) :
    encryptedComment ++ t = b!"untrusted comment: psignify encrypted file" ++ 10 :: t := rfl

/-- A generated key gives back the box secret of its seed. -/
theorem Generated.boxUsable {P : Prims} {pw : Bytes} {opts : Option Int} {seed salt num} {priv pub}
    (g : Generated P pw opts seed salt num priv pub) (tty : List (Option Bytes)) (ht : pw ≠ [] → ∃ rest, tty = some pw :: rest)
    (hu : pw ≠ [] → (P.sha512 priv.key.toList).toList.take 8 ≠ priv.checksum.toList) :
    BoxUsable P tty priv (boxSecret P seed.toList) := by
  by_cases hp : pw = []
  · left
    rw [g.plain hp, g.checksum]
    refine ⟨rfl, ?_⟩
    rw [List.take_left' (by simp)]
  · right
    refine ⟨hu hp, ?_⟩
    obtain ⟨rest, ht⟩ := ht hp
    refine ⟨pw, rest, ht, .inr ⟨g.roundsPos hp, { priv with key := xorArr priv.key (P.bcrypt pw priv.salt priv.kdfRounds.toNat) }, ?_, ?_⟩⟩
    · refine ⟨g.kdf, hp, rfl, ?_⟩
      simp only
      rw [g.saltEq, g.crypt hp, g.checksum]
    · simp only
      rw [g.saltEq, g.crypt hp, List.take_left' (by simp)]

/-- C36: for every key pair that `GenerateKey` made (under any schedule), every ephemeral entropy and every non-empty message,
`Seal` followed by `Open` gives back the message, when no I/O fails and the paths differ. Between the calls the rest of the
machine may change in any way. If the key is protected by a passphrase, the user types it, and the *encrypted* key bytes do not
happen to have the checksum of the plain ones (a collision of 64 bits of SHA-512; in that case `ToBox` would use the encrypted
bytes). The model's fuel only has to exceed the length of the encrypted file. -/
theorem C36_roundtrip (P : Prims) (hdh : DHAgrees P) (hmatch : BoxMatches P) (base : Path) (pw : Bytes) (opts : Option Int)
    (w0 : World) (hgen : (GenerateKey P base pw opts w0).1 = .ok ())
    (mp ep out : Path) (fm : File) (hne : fm.data ≠ []) (hlen : fm.data.length < 2 ^ 63)
    (w1 : World) (hq1 : w1.Quiet)
    (hpub : w1.fs (base ++ b!".pub") = (GenerateKey P base pw opts w0).2.fs (base ++ b!".pub"))
    (hmsg : w1.fs mp = some fm) (hpath1 : mp ≠ encPath mp ep)
    (w2 : World) (hq2 : w2.Quiet)
    (hsec : w2.fs (base ++ b!".sec") = (GenerateKey P base pw opts w0).2.fs (base ++ b!".sec"))
    (henc : w2.fs (encPath mp ep) = (Seal P (base ++ b!".pub") mp ep w1).2.fs (encPath mp ep))
    (hpath2 : encPath mp ep ≠ out) (htty : pw ≠ [] → ∃ rest, w2.tty = some pw :: rest)
    (hluck : pw ≠ [] → ∀ fk priv, w2.fs (base ++ b!".sec") = some fk → readPrivateKeyFile fk.data = .ok priv →
      (P.sha512 priv.key.toList).toList.take 8 ≠ priv.checksum.toList)
    (fuel : Nat) (hfuel : ∀ fe, w2.fs (encPath mp ep) = some fe → fe.data.length < fuel) :
    (Seal P (base ++ b!".pub") mp ep w1).1 = .ok () ∧
    (Open P fuel (base ++ b!".sec") (encPath mp ep) out w2).1 = .ok () ∧
    ∃ mode, (Open P fuel (base ++ b!".sec") (encPath mp ep) out w2).2.fs out = some ⟨fm.data, mode⟩ := by
  obtain ⟨priv, pub, gen, ⟨m1, hfpub⟩, ⟨m2, hfsec⟩⟩ : ∃ priv pub, Generated P pw opts (draw w0 w0.rngPos 32)
      (draw w0 (w0.rngPos + 32) 16) (draw w0 (w0.rngPos + 48) 8) priv pub ∧
      (∃ m, w1.fs (base ++ b!".pub") = some ⟨publicFile pub, m⟩) ∧
      (∃ m, w2.fs (base ++ b!".sec") = some ⟨secretFile priv, m⟩) := by
    rcases GenerateKey_spec P base pw opts w0 with ⟨-, h⟩ | ⟨priv, pub, gen, h⟩
    · exact absurd hgen h
    · refine ⟨priv, pub, gen, ?_⟩
      cases h with
      | nothing _ hr => exact absurd hgen hr
      | secret _ _ hr => exact absurd hgen hr
      | both k h hr =>
        rw [hr hgen, secText_eq, pubText_eq] at h
        rw [hsec, hpub, h]
        rw [setFile_other _ _ (sec_ne_pub base), setFile_self, setFile_self]
        exact ⟨⟨_, rfl⟩, ⟨_, rfl⟩⟩
  have hbox := hmatch _ pub gen.pubKey
  have hu := Generated.boxUsable gen w2.tty htty fun hp => hluck hp _ priv hfsec (readPrivateKeyFile_secret priv)
  generalize boxSecret P (draw w0 w0.rngPos 32).toList = k at hbox hu
  obtain ⟨s1, s2⟩ := Seal_quiet P (base ++ b!".pub") mp ep hq1 hfpub (readPublicKeyFile_public pub) (fun _ => hbox) hmsg hpath1 hlen
  refine ⟨s1, ?_⟩
  rw [s2, setFile_self, if_neg hne, encryptedComment_split] at henc
  have hagree : P.precompute (P.x25519Base k) (draw w1 w1.rngPos 32) = P.precompute (P.x25519Base (draw w1 w1.rngPos 32)) k := by
    unfold Prims.precompute; rw [hdh]
  rw [hagree] at henc
  have hn := pieces_length 16385 (by decide) fm.data
  obtain ⟨o1, o2⟩ := Open_quiet (t := []) P fuel (base ++ b!".sec") (encPath mp ep) out hq2 hfsec (readPrivateKeyFile_secret priv) hu
    henc rfl (by decide) hpath2 (hfuel _ henc) (by rw [stripNL_encodedText, List.append_nil]) (by rw [hn]; omega)
    (framed_pieces fm.data)
  refine ⟨o1, (w2.truncated out 0o666).mode, ?_⟩
  rw [o2, setFile_self, pieces_flatten]

theorem flat_matches : BoxMatches flat ∧ DHAgrees flat := by
  refine ⟨?_, fun _ _ => rfl⟩
  intro seed pub hk
  rw [toBox_key (show pub.key = zeroKey.key from hk), zeroKey_toBox]; rfl

/-- The hypotheses of C36 can be met, with and without passphrase: there are primitives (`flat`) with both agreement properties,
and for a passphrase "pw" the encrypted key bytes do not have the checksum of the plain ones. -/
example : BoxMatches flat ∧ DHAgrees flat ∧ (GenerateKey flat b!"k" [] none calm).1 = .ok () ∧
    (GenerateKey flat b!"k" b!"pw" none calm).1 = .ok () ∧
    (match (GenerateKey flat b!"k" b!"pw" none calm).2.fs b!"k.sec" with
      | none => false
      | some f => match readPrivateKeyFile f.data with
        | .ok priv => decide ((flat.sha512 priv.key.toList).toList.take 8 ≠ priv.checksum.toList)
        | _ => false) = true :=
  ⟨flat_matches.1, flat_matches.2, by rfl, by rfl, by decide +kernel⟩

/-! ### C37 -/

/-- C37, negation: whatever the key, `Seal` of an empty message returns nil, and no `Open` whatever of the file that it wrote
succeeds: not with any private key, any destination, any later state of the machine. -/
theorem C37_negation (P : Prims) (pp mp ep : Path) (w : World) (hq : w.Quiet) (fp fm : File) (pub : Public)
    (hfp : w.fs pp = some fp) (hpub : readPublicKeyFile fp.data = .ok pub) (hfm : w.fs mp = some fm) (hempty : fm.data = [])
    (hpath : mp ≠ encPath mp ep) :
    (Seal P pp mp ep w).1 = .ok () ∧
    (∃ mode, (Seal P pp mp ep w).2.fs (encPath mp ep) = some ⟨encryptedComment ++ [10], mode⟩) ∧
    ∀ (fuel : Nat) (kp out : Path) (w2 : World), w2.fs (encPath mp ep) = (Seal P pp mp ep w).2.fs (encPath mp ep) →
      (Open P fuel kp (encPath mp ep) out w2).1 ≠ .ok () := by
  obtain ⟨h1, h2⟩ := Seal_quiet (edpub := copyZ 32 []) P pp mp ep hq hfp hpub (fun h => absurd hempty h) hfm hpath (by rw [hempty]; decide)
  have h3 : (Seal P pp mp ep w).2.fs (encPath mp ep) = some ⟨encryptedComment ++ [10], (w.truncated (encPath mp ep) 0o666).mode⟩ := by
    rw [h2, setFile_self, if_pos hempty, encodedText_nil]
  refine ⟨h1, ⟨_, h3⟩, fun fuel kp out w2 henc hok => ?_⟩
  rw [h3] at henc
  rcases Open_start P fuel kp (encPath mp ep) out w2 with ⟨-, h, -⟩ | ⟨priv, hE, hM, first, text, w', hR, he⟩
  · exact h hok
  · rw [he] at hok
    obtain ⟨fe, hfe, hdata⟩ := hR.file
    rw [henc] at hfe
    obtain rfl := Option.some.inj hfe
    rw [encryptedComment_split] at hdata
    obtain ⟨-, rfl⟩ := firstLine_unique (by decide) hR.noNL hdata
    refine (openTail_empty P fuel priv hR.ne ⟨_, henc⟩ hR.opening ?_).1 hok
    by_cases h : encPath mp ep = out
    · rw [hR.same h]; rfl
    · rw [hR.rest h]; rfl

/-- The hypotheses of C37 can be met. -/
example : let w := (calm.setFile b!"p" ⟨publicFile zeroKey, 0⟩).setFile b!"m" ⟨[], 0⟩
    w.Quiet ∧ w.fs b!"p" = some ⟨publicFile zeroKey, 0⟩ ∧ readPublicKeyFile (publicFile zeroKey) = .ok zeroKey ∧
    w.fs b!"m" = some ⟨[], 0⟩ ∧ b!"m" ≠ encPath b!"m" [] :=
  ⟨fun _ _ => rfl, by decide +kernel, readPublicKeyFile_public zeroKey, by decide +kernel, by decide +kernel⟩

/-! ### C38 and C40 for files -/

/-- C38: if `Open` returns nil, under any schedule, then the private key file holds a key that was usable with what the user
typed, and the text of the encrypted file after its first line decodes, up to a rest, to an authentic stream for that key; the
destination holds the concatenation of the plaintexts. -/
theorem C38_file (P : Prims) (fuel : Nat) (kp ep mp : Path) (w : World) (h : (Open P fuel kp ep mp w).1 = .ok ()) :
    ∃ fk priv fe first text edpriv epub, ∃ ps : List Bytes, ∃ rest mode,
      w.fs kp = some fk ∧ readPrivateKeyFile fk.data = .ok priv ∧ BoxUsable P w.tty priv edpriv ∧
      w.fs ep = some fe ∧ fe.data = first ++ 10 :: text ∧ 10 ∉ first ∧ ps.length < 2 ^ 64 ∧
      DecodedFrom (stripNL text) (sealedStream P (P.precompute epub edpriv) epub ps) rest ∧
      (Open P fuel kp ep mp w).2.fs mp = some ⟨ps.flatten, mode⟩ := by
  obtain ⟨-, ⟨-, h'⟩ | ⟨d, hfs, ⟨⟨h', -⟩ | ⟨-, fk, priv, fe, first, text, edpriv, epub, n, ps, c, j, rest,
    a1, a2, a3, a4, a5, a6, a7, a8, a9, a10, a11, a12⟩⟩⟩⟩ := Open_spec P fuel kp ep mp w
  · exact absurd h h'
  · exact absurd h h'
  · obtain ⟨b1, b2, b3⟩ := a12 h
    refine ⟨fk, priv, fe, first, text, edpriv, epub, ps, rest, (w.truncated mp 0o666).mode, a1, a2, a6, a3, a4, a5, by omega, ?_, ?_⟩
    · rw [b3, List.append_nil, ← b1] at a10; exact a10
    · rw [hfs, setFile_self, b2]

/-- C40: however `Open` ends, under any fault or crash schedule, either no file has changed, or only the destination has, and it
holds nothing, or the beginning of the plaintexts of authentic chunks in the encrypted file (all but the last one complete). -/
theorem C40_file (P : Prims) (fuel : Nat) (kp ep mp : Path) (w : World) :
    (Open P fuel kp ep mp w).2.fs = w.fs ∨
    ∃ d, (Open P fuel kp ep mp w).2.fs = (w.setFile mp ⟨d, (w.truncated mp 0o666).mode⟩).fs ∧
      (d = [] ∨ ∃ fk priv fe first text edpriv epub n, ∃ ps : List Bytes, ∃ c j rest,
        w.fs kp = some fk ∧ readPrivateKeyFile fk.data = .ok priv ∧ BoxUsable P w.tty priv edpriv ∧
        w.fs ep = some fe ∧ fe.data = first ++ 10 :: text ∧ 10 ∉ first ∧ n < 2 ^ 64 ∧ ps.length ≤ n ∧
        DecodedFrom (stripNL text) (headerOf P (P.precompute epub edpriv) epub n ++
          (sealedFrom P (P.precompute epub edpriv) 0 ps).flatten ++ c) rest ∧
        d = ps.flatten.take j ∧ ps.dropLast.flatten.length ≤ j) := by
  obtain ⟨-, ⟨h, -⟩ | ⟨d, hfs, ⟨⟨-, h, -⟩ | ⟨-, fk, priv, fe, first, text, edpriv, epub, n, ps, c, j, rest,
    a1, a2, a3, a4, a5, a6, a7, a8, a9, a10, a11, a12⟩⟩⟩⟩ := Open_spec P fuel kp ep mp w
  · exact .inl h
  · exact .inr ⟨d, hfs, .inl h⟩
  · exact .inr ⟨d, hfs, .inr ⟨fk, priv, fe, first, text, edpriv, epub, n, ps, c, j, rest, a1, a2, a6, a3, a4, a5, a7, a8, a10, a11, a9⟩⟩

/-! ### C42 and C45 for files -/

/-- C42, C45: with no faults, `Seal` writes the comment line and the base64 text of the specified stream for the whole message. -/
theorem C42_file (P : Prims) (pp mp ep : Path) (w : World) (hq : w.Quiet) (fp fm : File) (pub : Public) (edpub : Arr 32)
    (hfp : w.fs pp = some fp) (hpub : readPublicKeyFile fp.data = .ok pub) (hbox : pub.toBox = .ok edpub)
    (hfm : w.fs mp = some fm) (hne : fm.data ≠ []) (hpath : mp ≠ encPath mp ep) (hlen : fm.data.length < 2 ^ 63) :
    (Seal P pp mp ep w).1 = .ok () ∧
    ∃ mode, (Seal P pp mp ep w).2.fs (encPath mp ep) = some ⟨encryptedComment ++ encodedText (
      sealedStream P (P.precompute edpub (draw w w.rngPos 32)) (P.x25519Base (draw w w.rngPos 32))
        (pieces 16385 (by decide) fm.data)), mode⟩ := by
  obtain ⟨h1, h2⟩ := Seal_quiet P pp mp ep hq hfp hpub (fun _ => hbox) hfm hpath hlen
  exact ⟨h1, _, by rw [h2, setFile_self, if_neg hne]⟩

/-- The hypotheses of C42 can be met. -/
example : let w := (calm.setFile b!"p" ⟨publicFile zeroKey, 0⟩).setFile b!"m" ⟨b!"hi", 0⟩
    w.Quiet ∧ w.fs b!"p" = some ⟨publicFile zeroKey, 0⟩ ∧ readPublicKeyFile (publicFile zeroKey) = .ok zeroKey ∧
    zeroKey.toBox = .ok (copyZ 32 [1]) ∧ w.fs b!"m" = some ⟨b!"hi", 0⟩ ∧ b!"m" ≠ encPath b!"m" [] :=
  ⟨fun _ _ => rfl, by decide +kernel, readPublicKeyFile_public zeroKey, zeroKey_toBox, by decide +kernel, by decide +kernel⟩

/-! ### C43 -/

/-- C43: under every fault and crash schedule `Seal` changes no file but the encrypted one. -/
theorem C43_frame (P : Prims) (pp mp ep : Path) (w : World) (q : Path) (hq : q ≠ encPath mp ep) :
    (Seal P pp mp ep w).2.fs q = w.fs q := (Seal_spec P pp mp ep w).2.2.1 q hq

/-- C43: the message is intact unless its path is the one that is written. -/
theorem C43_message (P : Prims) (pp mp ep : Path) (w : World) (h : ep ≠ mp) : (Seal P pp mp ep w).2.fs mp = w.fs mp := by
  apply C43_frame
  unfold encPath
  split
  · intro h'
    have := congrArg List.length h'
    simp at this
  · exact Ne.symm h

/-- C43: if the two paths are equal and `Seal` returns nil, the message has been replaced by something that starts with the comment
line of an encrypted file. -/
theorem C43_destroyed (P : Prims) (pp mp : Path) (w : World) (hne : mp ≠ []) (h : (Seal P pp mp mp w).1 = .ok ()) :
    ∃ f, (Seal P pp mp mp w).2.fs mp = some f ∧ encryptedComment <+: f.data := by
  have he : encPath mp mp = mp := by unfold encPath; rw [if_neg hne]
  obtain ⟨text, hs⟩ := (Seal_spec P pp mp mp w).2.2.2 h
  have := hs.file
  rw [he] at this
  exact ⟨_, this, List.prefix_append _ _⟩

/-- The case of equal paths does occur. -/
example : let w := (calm.setFile b!"p" ⟨publicFile zeroKey, 0⟩).setFile b!"m" ⟨[], 0⟩
    (Seal toy b!"p" b!"m" b!"m" w).1 = .ok () := by decide +kernel

/-! ### C44 -/

/-- C44 (the part that holds): if `Seal` returns nil, then under every schedule the encrypted file holds the comment line and a
beginning of the encoding of an authentic stream for a public key read from the key file; missing are at most the last group of
four characters and the final newline. Not claimed, because false (see the next theorems): that nothing is missing. -/
theorem C44_nearly_complete_partial (P : Prims) (pp mp ep : Path) (w : World) (h : (Seal P pp mp ep w).1 = .ok ()) :
    ∃ fp pub fm text whole mode, w.fs pp = some fp ∧ readPublicKeyFile fp.data = .ok pub ∧ w.fs mp = some fm ∧
      (Seal P pp mp ep w).2.fs (encPath mp ep) = some ⟨encryptedComment ++ text, mode⟩ ∧
      text <+: encodedText whole ∧ (encodedText whole).length ≤ text.length + 5 ∧
      ((fm.data = [] ∧ whole = []) ∨ ∃ edpub, ∃ ps : List Bytes, fm.data ≠ [] ∧ pub.toBox = .ok edpub ∧
        ps.length = (fm.data.length + 16384) / 16385 ∧ (mp ≠ encPath mp ep → ps.flatten <+: fm.data) ∧
        whole = sealedStream P (P.precompute edpub (draw w w.rngPos 32)) (P.x25519Base (draw w w.rngPos 32)) ps) := by
  obtain ⟨text, ⟨hfile, fp, pub, fm, h1, h2, h3, h4⟩⟩ := (Seal_spec P pp mp ep w).2.2.2 h
  rcases h4 with ⟨h4, h5⟩ | ⟨edpub, ps, h4, h5, h6, h7, h8, h9⟩
  · exact ⟨fp, pub, fm, text, [], _, h1, h2, h3, hfile, by rw [encodedText_nil]; exact h5, by rw [encodedText_nil]; simp, .inl ⟨h4, rfl⟩⟩
  · refine ⟨fp, pub, fm, text, _, _, h1, h2, h3, hfile, h9, ?_, .inr ⟨edpub, ps, h4, h5, ?_, h7, rfl⟩⟩
    · have hl := h8.length_le
      rw [encodedText_eq]
      generalize sealedStream P (P.precompute edpub (draw w w.rngPos 32)) (P.x25519Base (draw w w.rngPos 32)) ps = D at hl ⊢
      have hp := pending_lt D
      simp only [List.length_append, List.length_cons, List.length_nil]
      rw [encode_length, B64.encodedLen]
      omega
    · rw [h6, chunkCount, chunkSize]; split <;> omega

/-- A machine with the public key `zeroKey` in the file `p` and the message "h" in the file `m`. -/
def sealWorld (sched : Nat → Decision) : World :=
  { (calm.setFile b!"p" ⟨publicFile zeroKey, 0⟩).setFile b!"m" ⟨b!"h", 0⟩ with sched := sched }

set_option maxRecDepth 100000 in
/-- C44, negation: there is a run in which the write of the last group fails and `Seal` nevertheless returns nil; the encrypted
file then lacks the last group and the newline of what the run without faults writes (and is not a complete encoding). -/
theorem C44_negation :
    (Seal toy b!"p" b!"m" [] (sealWorld fun i => if i = 37 then .fail 0 else .ok)).1 = .ok () ∧
    ∃ f g, (Seal toy b!"p" b!"m" [] (sealWorld fun i => if i = 37 then .fail 0 else .ok)).2.fs b!"m.enc" = some f ∧
      (Seal toy b!"p" b!"m" [] (sealWorld fun _ => .ok)).2.fs b!"m.enc" = some g ∧
      (∃ t, g.data = f.data ++ t ∧ t.length = 5) ∧ (B64.decodeString (stripNL (f.data.drop 43)) ≠ B64.decodeString (stripNL (g.data.drop 43))) := by
  have h : (Seal toy b!"p" b!"m" [] (sealWorld fun i => if i = 37 then .fail 0 else .ok)).1 = .ok () ∧
      (Seal toy b!"p" b!"m" [] (sealWorld fun i => if i = 37 then .fail 0 else .ok)).2.fs b!"m.enc" = some
        ⟨b!"untrusted comment: psignify encrypted file\nAAAAAAAAAAEBAgUKERolMkFSZXqRqsXiASJFapG65RJBcqXaEUqFwgACBQoRGiUyAAAAAAAA\nAAEBAgUKERolMkFSZXqRqsXiAAIFChEaJTJoAAAAAAAA", 0o644⟩ := by
    decide +kernel
  have h' : (Seal toy b!"p" b!"m" [] (sealWorld fun _ => .ok)).2.fs b!"m.enc" = some
        ⟨b!"untrusted comment: psignify encrypted file\nAAAAAAAAAAEBAgUKERolMkFSZXqRqsXiASJFapG65RJBcqXaEUqFwgACBQoRGiUyAAAAAAAA\nAAEBAgUKERolMkFSZXqRqsXiAAIFChEaJTJoAAAAAAAAAGg=\n", 0o644⟩ := by
    decide +kernel
  exact ⟨h.1, _, _, h.2, h', ⟨b!"AGg=\n", rfl, rfl⟩, by decide +kernel⟩

/-! ### C45 for files -/

set_option maxRecDepth 100000 in
/-- C45, negation for files: when the read of a two-byte message returns only one byte, `Seal` returns nil, and what it has
written is the complete encoding of a stream that holds only the first byte. -/
theorem C45_file_negation :
    let w := { (sealWorld fun i => if i = 31 then .short 0 else .ok).setFile b!"m" ⟨b!"hi", 0⟩ with tick := 0 }
    (Seal toy b!"p" b!"m" [] w).1 = .ok () ∧
    (Seal toy b!"p" b!"m" [] w).2.fs b!"m.enc" = (Seal toy b!"p" b!"m" [] (sealWorld fun _ => .ok)).2.fs b!"m.enc" := by
  decide +kernel

/-! ### C46 -/

/-- C46: if there is no newline in the encrypted file, `Open` fails with io.EOF and changes nothing (without faults); under any
schedule it does not succeed. -/
theorem C46_no_newline (P : Prims) (fuel : Nat) (kp ep mp : Path) (w : World) (fe : File) (hfe : w.fs ep = some fe)
    (hno : 10 ∉ fe.data) :
    (Open P fuel kp ep mp w).1 ≠ .ok () ∧ (Open P fuel kp ep mp w).2.fs = w.fs ∧
    (w.Quiet → ∀ fk priv, w.fs kp = some fk → readPrivateKeyFile fk.data = .ok priv → fe.data.length < fuel →
      (Open P fuel kp ep mp w).1 = .err .eof) := by
  rcases Open_start P fuel kp ep mp w with ⟨-, h2, h3, h4⟩ | ⟨priv, hE, hM, first, text, w', hR, he⟩
  · refine ⟨h2, ?_, fun hq fk priv a b c => (h4 hq fk priv fe a b hfe c).2.1⟩
    rcases h3 with h3 | ⟨-, _, _, fe', first, text, -, -, h5, h6, -⟩
    · exact h3
    · rw [hfe] at h5
      obtain rfl := Option.some.inj h5
      rw [h6] at hno; simp at hno
  · obtain ⟨fe', h5, h6⟩ := hR.file
    rw [hfe] at h5
    obtain rfl := Option.some.inj h5
    rw [h6] at hno; simp at hno

/-- C46: without faults, neither the text of the first line nor newlines elsewhere matter. Two machines may differ in everything
except the key, what the user types, and the text of the encrypted file after its first line apart from newlines; `Open` then has
the same result and leaves the same content in the destination. -/
theorem C46_first_line_and_newlines (P : Prims) (fuel : Nat) (kpA epA mpA kpB epB mpB : Path) (wA wB : World) (qA : wA.Quiet)
    (qB : wB.Quiet) (fkA fkB feA feB : File) (priv : Private) (firstA firstB textA textB : Bytes) (hkA : wA.fs kpA = some fkA)
    (hkB : wB.fs kpB = some fkB) (hpA : readPrivateKeyFile fkA.data = .ok priv) (hpB : readPrivateKeyFile fkB.data = .ok priv)
    (htty : wA.tty = wB.tty) (heA : wA.fs epA = some feA) (heB : wB.fs epB = some feB)
    (hdA : feA.data = firstA ++ 10 :: textA) (hdB : feB.data = firstB ++ 10 :: textB) (hnA : 10 ∉ firstA) (hnB : 10 ∉ firstB)
    (hA : epA ≠ mpA) (hB : epB ≠ mpB) (hfA : feA.data.length < fuel) (hfB : feB.data.length < fuel)
    (htext : stripNL textA = stripNL textB) :
    (Open P fuel kpA epA mpA wA).1 = (Open P fuel kpB epB mpB wB).1 ∧
    ∃ d mA mB, (Open P fuel kpA epA mpA wA).2.fs mpA = some ⟨d, mA⟩ ∧ (Open P fuel kpB epB mpB wB).2.fs mpB = some ⟨d, mB⟩ := by
  obtain ⟨h1, d, h2, h3⟩ := Open_newlines P fuel kpA epA mpA kpB epB mpB qA qB hkA hkB hpA hpB htty heA heB hdA hdB hnA hnB hA hB
    hfA hfB htext
  exact ⟨h1, d, _, _, by rw [h2, setFile_self], by rw [h3, setFile_self]⟩

/-- The hypotheses of C46 can be met by two different files. -/
example : stripNL b!"QUJD\n\nQUJ\nD" = stripNL b!"QUJDQUJD" ∧ (10 : UInt8) ∉ b!"x: anything" ∧ (10 : UInt8) ∉ ([] : Bytes) ∧
    readPrivateKeyFile (secretFile lockedKey) = .ok lockedKey :=
  ⟨by decide, by decide, by decide, readPrivateKeyFile_secret lockedKey⟩

/-! ### C48 -/

/-- C48 (the part that holds): under every schedule `Open` changes no file but the destination; and the destination only if the
private key file can be parsed and the encrypted file has a first line. Not claimed, because false (see the next theorems): that a
failing `Open` leaves the destination alone. -/
theorem C48_frame_partial (P : Prims) (fuel : Nat) (kp ep mp : Path) (w : World) :
    (∀ q, q ≠ mp → (Open P fuel kp ep mp w).2.fs q = w.fs q) ∧
    ((Open P fuel kp ep mp w).2.fs mp = w.fs mp ∨
      ∃ fk priv fe, w.fs kp = some fk ∧ readPrivateKeyFile fk.data = .ok priv ∧ w.fs ep = some fe ∧ 10 ∈ fe.data) := by
  obtain ⟨-, ⟨h, -⟩ | ⟨d, hfs, ⟨⟨-, -, fk, priv, fe, first, text, a1, a2, a3, a4, -⟩ | ⟨-, fk, priv, fe, first, text, edpriv, epub, n, ps, c, j, rest,
    a1, a2, a3, a4, -⟩⟩⟩⟩ := Open_spec P fuel kp ep mp w
  · exact ⟨fun q _ => by rw [h], .inl (by rw [h])⟩
  · exact ⟨fun q hq => by rw [hfs, setFile_other _ _ hq], .inr ⟨fk, priv, fe, a1, a2, a3, by rw [a4]; simp⟩⟩
  · exact ⟨fun q hq => by rw [hfs, setFile_other _ _ hq], .inr ⟨fk, priv, fe, a1, a2, a3, by rw [a4]; simp⟩⟩

/-- C48, negation: for every key, every destination and every encrypted file that consists of a first line and no data (a truncated
file), `Open` without faults fails and leaves the destination empty, whatever it held before. -/
theorem C48_negation (P : Prims) (fuel : Nat) (kp ep mp : Path) (w : World) (hq : w.Quiet) (fk fe : File) (priv : Private)
    (first : Bytes) (hfk : w.fs kp = some fk) (hpriv : readPrivateKeyFile fk.data = .ok priv) (hfe : w.fs ep = some fe)
    (hdata : fe.data = first ++ [10]) (hno : 10 ∉ first) (hfuel : fe.data.length < fuel) :
    (Open P fuel kp ep mp w).1 ≠ .ok () ∧ ∃ mode, (Open P fuel kp ep mp w).2.fs mp = some ⟨[], mode⟩ := by
  rcases Open_start P fuel kp ep mp w with ⟨-, -, -, h⟩ | ⟨priv', hE, hM, first', text', w', hR, he⟩
  · obtain ⟨h, -⟩ := h hq fk priv fe hfk hpriv hfe hfuel
    rw [hdata] at h; simp at h
  · rw [he]
    obtain ⟨_, a3, a4⟩ := hR.file
    rw [hfe] at a3; obtain rfl := Option.some.inj a3
    obtain ⟨-, rfl⟩ := firstLine_unique hno hR.noNL (by rw [← hdata, a4])
    obtain ⟨h1, h2⟩ := openTail_empty P fuel priv' hR.ne ⟨fe, hfe⟩ hR.opening (by
      by_cases h : ep = mp
      · rw [hR.same h]; rfl
      · rw [hR.rest h]; rfl)
    exact ⟨h1, _, h2.dest.file⟩

/-- C48, negation for equal paths: `Open` with the encrypted file as its own destination never succeeds, whatever the file holds and
whatever the schedule; without faults, if the file has a first line at all, it is emptied: the ciphertext is lost. -/
theorem C48_same_path (P : Prims) (fuel : Nat) (kp mp : Path) (w : World) :
    (Open P fuel kp mp mp w).1 ≠ .ok () ∧
    (w.Quiet → ∀ fk priv fe, w.fs kp = some fk → readPrivateKeyFile fk.data = .ok priv → w.fs mp = some fe → 10 ∈ fe.data →
      fe.data.length < fuel → ∃ mode, (Open P fuel kp mp mp w).2.fs mp = some ⟨[], mode⟩) := by
  rcases Open_start P fuel kp mp mp w with ⟨-, h2, -, h⟩ | ⟨priv', hE, hM, first', text', w', hR, he⟩
  · refine ⟨h2, fun hq fk priv fe hfk hpriv hfe hnl hfuel => ?_⟩
    exact absurd hnl (h hq fk priv fe hfk hpriv hfe hfuel).1
  · rw [he]
    obtain ⟨fe, hfe, -⟩ := hR.file
    obtain ⟨h1, h2⟩ := openTail_empty P fuel priv' hR.ne ⟨fe, hfe⟩ hR.opening (by rw [hR.same rfl]; rfl)
    exact ⟨h1, fun _ _ _ _ _ _ _ _ _ => ⟨_, h2.dest.file⟩⟩

/-- The hypotheses of C48 can be met with a destination that holds something. -/
example : let w := ((calm.setFile b!"k" ⟨secretFile lockedKey, 0⟩).setFile b!"e" ⟨b!"comment\n", 0⟩).setFile b!"m" ⟨b!"precious", 0⟩
    w.Quiet ∧ w.fs b!"k" = some ⟨secretFile lockedKey, 0⟩ ∧ readPrivateKeyFile (secretFile lockedKey) = .ok lockedKey ∧
    w.fs b!"e" = some ⟨b!"comment" ++ [10], 0⟩ ∧ w.fs b!"m" = some ⟨b!"precious", 0⟩ :=
  ⟨fun _ _ => rfl, by decide +kernel, readPrivateKeyFile_secret lockedKey, by decide +kernel, by decide +kernel⟩

end Verif.Props
