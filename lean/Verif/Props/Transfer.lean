/-
C84: files after conversion of line ends.
-/
import Verif.Lemmas.LineEnds
import Verif.Props.SealFiles

namespace Verif.Props
open World Spec

/-! ### C84 -/

/-- No newline-free stretch of the file has 65535 bytes or more. -/
def ShortLines (f : Bytes) : Prop := ∀ l : Bytes, l <:+: f → 10 ∉ l → l.length < 65535

theorem ShortLines.tail {a b : Bytes} (h : ShortLines (a ++ b)) : ShortLines b :=
  fun l hl => h l (hl.trans (List.suffix_append a b).isInfix)

theorem dropCR_noCR {l : Bytes} (h : 13 ∉ l) : dropCR l = l :=
  dropCR_of_not fun h0 => h (List.mem_of_getLast? h0)

theorem firstNL {f : Bytes} (h : 10 ∈ f) : ∃ raw rest, f = raw ++ 10 :: rest ∧ 10 ∉ raw := by
  induction f with
  | nil => simp at h
  | cons c cs ih =>
    by_cases hc : c = 10
    · exact ⟨[], cs, by rw [hc]; rfl, by simp⟩
    · obtain ⟨raw, rest, rfl, h2⟩ := ih (by
        rcases List.mem_cons.1 h with h | h
        · exact absurd h.symm hc
        · exact h)
      refine ⟨c :: raw, rest, rfl, ?_⟩
      rw [List.mem_cons, not_or]
      exact ⟨fun h0 => hc h0.symm, h2⟩

theorem scanLoop_some {line comment data tok rest : Bytes} (h : scanLine data = some (tok, rest)) :
    scanLoop line comment data = if commentPrefix.isPrefixOf tok then
      scanLoop tok (comment ++ tok.drop commentPrefix.length) rest else (tok, comment) := by
  rw [scanLoop]
  split
  · rename_i h'; rw [h] at h'; simp at h'
  · rename_i h'
    rw [h] at h'
    simp only [Option.some.injEq, Prod.mk.injEq] at h'
    obtain ⟨rfl, rfl⟩ := h'
    rfl

theorem scanLoop_crlf (f : Bytes) (hcr : 13 ∉ f) (hs : ShortLines f) (line comment : Bytes) :
    scanLoop line comment (toCRLF f) = scanLoop line comment f := by
  induction hn : f.length using Nat.strongRecOn generalizing f line comment with
  | ind n ih =>
    by_cases hnl : 10 ∈ f
    · obtain ⟨raw, rest, rfl, hraw⟩ := firstNL hnl
      have hl := hs raw (List.prefix_append _ _).isInfix hraw
      have h13 : 13 ∉ raw := fun h => hcr (List.mem_append_left _ h)
      have h1 : scanLine (raw ++ 10 :: rest) = some (raw, rest) := by
        rw [scanLine_line hraw (by omega), dropCR_noCR h13]
      have h2 : scanLine (toCRLF (raw ++ 10 :: rest)) = some (raw, toCRLF rest) := by
        rw [toCRLF_append, toCRLF_nl, toCRLF_of_not_mem hraw,
          show raw ++ 13 :: 10 :: toCRLF rest = (raw ++ [13]) ++ 10 :: toCRLF rest by simp,
          scanLine_line (by simp [hraw]) (by simp; omega), dropCR_append_cr]
      have hrec := fun l c => ih rest.length (by rw [← hn]; simp; omega) rest
        (fun h => hcr (List.mem_append_right _ (List.mem_cons_of_mem _ h))) (ShortLines.tail (a := raw ++ [10]) (by simpa using hs)) l c rfl
      rw [scanLoop_some h1, scanLoop_some h2, hrec]
    · rw [toCRLF_of_not_mem hnl]

/-- C84 for data files: conversion of LF to CRLF changes nothing. -/
theorem C84_data_partial (f : Bytes) (hcr : 13 ∉ f) (hs : ShortLines f) :
    readDataFileBytes (toCRLF f) = readDataFileBytes f := by
  rw [readDataFileBytes, readDataFileBytes, scanLoop_crlf f hcr hs]

/-- C84: keys and signatures are read from converted files as from the original ones. -/
theorem C84_files_partial (f : Bytes) (hcr : 13 ∉ f) (hs : ShortLines f) :
    readPublicKeyFile (toCRLF f) = readPublicKeyFile f ∧ readPrivateKeyFile (toCRLF f) = readPrivateKeyFile f ∧
    readSignatureFile (toCRLF f) = readSignatureFile f := by
  simp only [readPublicKeyFile, readPrivateKeyFile, readSignatureFile, C84_data_partial f hcr hs, and_self]

/-- A comment line and a data line. -/
theorem twoLines (c d : Bytes) (hc : 10 ∉ c ∧ 13 ∉ c) (hd : 10 ∉ d ∧ 13 ∉ d) (lc : c.length < 65535) (ld : d.length < 65535) :
    13 ∉ c ++ [10] ++ d ++ [10] ∧ ShortLines (c ++ [10] ++ d ++ [10]) := by
  refine ⟨by simp [hc.2, hd.2], ?_⟩
  rintro l ⟨a, b, h⟩ hl
  -- everything before the first newline, or after it
  have key : ∀ (x y u v m : Bytes), x ++ 10 :: y = u ++ m ++ v → 10 ∉ m → 10 ∉ x → m.length ≤ x.length ∨ m.length ≤ (y.takeWhile (· != 10)).length ∨ m <:+: y := by
    intro x y u v m he hm hx
    rw [List.append_assoc] at he
    rcases List.append_eq_append_iff.1 he with ⟨a', h1, h2⟩ | ⟨c', h1, h2⟩
    · -- u = x ++ a'
      cases a' with
      | nil =>
        rw [List.nil_append] at h2
        cases m with
        | nil => left; simp
        | cons q qs => simp at h2; exact absurd h2.1 (fun h => hm (by simp [h]))
      | cons q qs =>
        rw [List.cons_append, List.cons.injEq] at h2
        right; right
        exact ⟨qs, v, by rw [h2.2, List.append_assoc]⟩
    · -- x = u ++ c'
      rcases List.append_eq_append_iff.1 h2 with ⟨a', h3, h4⟩ | ⟨c'', h3, h4⟩
      · left; rw [h1, h3]; simp; omega
      · cases c'' with
        | nil => left; rw [h1, h3]; simp
        | cons q qs =>
          rw [List.cons_append, List.cons.injEq] at h4
          exact absurd (by rw [h3, ← h4.1]; simp) hm
  rw [show c ++ [10] ++ d ++ [10] = c ++ 10 :: (d ++ [10]) by simp] at h
  rcases key c (d ++ [10]) a b l h.symm hl hc.1 with h1 | h1 | ⟨a', b', h1⟩
  · omega
  · rw [takeWhile_ne_append hd.1] at h1; omega
  · rcases key d [] a' b' l h1.symm hl hd.1 with h2 | h2 | h2
    · omega
    · simp at h2; simp [h2]
    · simp at h2; simp [h2]

theorem base64_noNL (d : Bytes) : 10 ∉ base64 d ∧ 13 ∉ base64 d := by
  rw [← encode_eq_base64]
  exact ⟨fun h => by have := encode_no_nl d _ h; revert this; decide, fun h => by have := encode_no_nl d _ h; revert this; decide⟩

/-- C84: the files that psignify writes for keys and signatures are of this kind. -/
theorem C84_own_files_partial (P : Prims) (pub : Public) (priv : Private) (name m : Bytes) (hname : 10 ∉ name ∧ 13 ∉ name)
    (hlen : name.length < 65000) :
    readPublicKeyFile (toCRLF (publicFile pub)) = .ok pub ∧ readPrivateKeyFile (toCRLF (secretFile priv)) = .ok priv ∧
    readSignatureFile (toCRLF (signatureFile P priv name m)) =
      .ok { pkAlgo := priv.keyAlgo, keyNum := priv.keyNum, sig := P.edSign priv.key m } := by
  have short : ∀ l : Bytes, l.length ≤ 200 → (base64 l).length < 65535 := fun l h => by
    rw [← encode_eq_base64, encode_length, B64.encodedLen]; omega
  refine ⟨?_, ?_, ?_⟩
  · obtain ⟨h1, h2⟩ := twoLines (commentTag ++ b!"signify public key") (base64 (pub.keyAlgo.toList ++ pub.keyNum.toList ++ pub.key.toList))
      (by decide) (base64_noNL _) (by decide) (short _ (by simp))
    rw [publicFile, (C84_files_partial _ h1 h2).1]
    exact readPublicKeyFile_public pub
  · obtain ⟨h1, h2⟩ := twoLines (commentTag ++ b!"signify private key")
      (base64 (priv.keyAlgo.toList ++ priv.kdfAlgo.toList ++ be32 priv.kdfRounds ++ priv.salt.toList ++
        priv.checksum.toList ++ priv.keyNum.toList ++ priv.key.toList))
      (by decide) (base64_noNL _) (by decide) (short _ (by simp [be32_length]))
    rw [secretFile, (C84_files_partial _ h1 h2).2.1]
    exact readPrivateKeyFile_secret priv
  · obtain ⟨h1, h2⟩ := twoLines (commentTag ++ b!"verify with " ++ name)
      (base64 (priv.keyAlgo.toList ++ priv.keyNum.toList ++ (P.edSign priv.key m).toList))
      (by
        have h : 10 ∉ commentTag ++ b!"verify with " ∧ 13 ∉ commentTag ++ b!"verify with " := by decide
        generalize commentTag ++ b!"verify with " = t at h
        exact ⟨fun h0 => (List.mem_append.1 h0).elim h.1 hname.1, fun h0 => (List.mem_append.1 h0).elim h.2 hname.2⟩) (base64_noNL _)
      (by rw [List.length_append, show (commentTag ++ b!"verify with ").length = 31 by decide]; omega) (short _ (by simp))
    rw [signatureFile, (C84_files_partial _ h1 h2).2.2]
    exact readSignatureFile_signature P priv name m hname.1 hlen

theorem encodedText_firstLine (d : Bytes) (h : 54 ≤ d.length) : ∃ a b, encodedText d = a ++ 10 :: b ∧ a.length = 72 ∧ 10 ∉ a := by
  have hl : 72 ≤ (base64 (d.take (d.length / 3 * 3))).length := by
    rw [← encode_eq_base64, encode_length, B64.encodedLen, List.length_take]; omega
  unfold encodedText
  simp only
  rw [breakEvery, if_neg (by omega)]
  refine ⟨(base64 (d.take (d.length / 3 * 3))).take 72, _, by rw [List.append_assoc, List.append_assoc, List.append_assoc]; rfl,
    by rw [List.length_take]; omega, fun h0 => (base64_noNL _).1 (List.mem_of_mem_take h0)⟩

/-- C84 is false for encrypted files: no file that `Seal` wrote for a message can be decrypted after the conversion, with no key, in
no state of the machine; the file at the destination is lost (or, if something else fails before, unchanged). -/
theorem C84_negation (P : Prims) (pp mp ep : Path) {w : World} (hq : w.Quiet) {fp fm : File} {pub : Public} {edpub : Arr 32}
    (hfp : w.fs pp = some fp) (hpub : readPublicKeyFile fp.data = .ok pub) (hbox : pub.toBox = .ok edpub) (hfm : w.fs mp = some fm)
    (hne : fm.data ≠ []) (hpath : mp ≠ encPath mp ep) (hlen : fm.data.length < 2 ^ 63) :
    (Seal P pp mp ep w).1 = .ok () ∧ ∃ text, ((Seal P pp mp ep w).2.fs (encPath mp ep)).map (·.data) = some text ∧
      ∀ (fuel : Nat) (kp ep' out : Path) (w' : World) (fe : File), w'.fs ep' = some fe → fe.data = toCRLF text →
        (Open P fuel kp ep' out w').1 ≠ .ok () ∧ ((Open P fuel kp ep' out w').2.fs = w'.fs ∨
          ((Open P fuel kp ep' out w').2.fs out).map (·.data) = some []) := by
  obtain ⟨h1, h2⟩ := Seal_quiet P pp mp ep hq hfp hpub (fun _ => hbox) hfm hpath hlen
  rw [if_neg hne] at h2
  generalize hst : sealedStream P _ _ _ = st at h2
  have hlen : 54 ≤ st.length := by
    rw [← hst, sealedStream, List.length_append, headerOf_length]; omega
  refine ⟨h1, _, by rw [h2, World.setFile_self]; rfl, ?_⟩
  intro fuel kp ep' out w' fe hfe hdata
  obtain ⟨a, b, hab, ha, hna⟩ := encodedText_firstLine st hlen
  rw [encryptedComment_split, toCRLF_append, toCRLF_nl, toCRLF_of_not_mem (by decide), hab, toCRLF_append, toCRLF_nl,
    toCRLF_of_not_mem hna] at hdata
  obtain ⟨g1, g2⟩ := Open_cr P fuel kp ep' out w' (first := b!"untrusted comment: psignify encrypted file" ++ [13])
    (text := a ++ 13 :: 10 :: toCRLF b) hfe (by rw [hdata]; simp) (by decide) (by
      rw [stripNL_append, stripNL_cons (by decide)]
      have : (stripNL a).length ≤ 72 := by rw [← ha]; exact List.length_filter_le _ _
      rw [List.take_append, List.mem_append]
      right
      rw [show 96 - (stripNL a).length = (95 - (stripNL a).length) + 1 by omega, List.take_succ_cons]
      simp)
  refine ⟨g1, g2.imp id fun h => ?_⟩
  rw [h, World.setFile_self]; rfl

/-- Its hypotheses hold in a machine with a key and a message of one byte. -/
example : ∃ edpub, (sealWorld fun _ => .ok).Quiet ∧ readPublicKeyFile (publicFile zeroKey) = .ok zeroKey ∧ zeroKey.toBox = .ok edpub ∧
    (sealWorld fun _ => .ok).fs b!"p" = some ⟨publicFile zeroKey, 0⟩ ∧ (sealWorld fun _ => .ok).fs b!"m" = some ⟨b!"h", 0⟩ ∧
    (b!"m" : Path) ≠ encPath b!"m" [] :=
  ⟨_, fun _ _ => rfl, readPublicKeyFile_public zeroKey, zeroKey_toBox, by decide +kernel, by decide +kernel, by decide⟩

end Verif.Props
