/-
C86: files that end early.
-/
import Verif.Lemmas.Truncate
import Verif.Props.Binding
import Verif.Props.Formats

namespace Verif.Props
open World Spec Ed

/-! ### C86 -/

theorem take_file (c t : Bytes) (n : Nat) (h : n ≤ t.length) : (c ++ [10] ++ t ++ [10]).take (c.length + 1 + n) = c ++ 10 :: t.take n := by
  rw [show c ++ [10] ++ t ++ [10] = (c ++ [10]) ++ (t ++ [10]) by simp, List.take_append,
    List.take_of_length_le (by simp), show List.length c + 1 + n - (c ++ [10] : Bytes).length = n by simp,
    List.take_append_of_le_length h]
  simp

theorem publicFile_text (pub : Public) : publicFile pub = commentPrefix ++ b!"signify public key" ++ [10] ++ B64.encode pub.encode ++ [10] := by
  rw [publicFile, encode_eq_base64]; rfl

theorem secretFile_text (priv : Private) : secretFile priv = commentPrefix ++ b!"signify private key" ++ [10] ++ B64.encode priv.encode ++ [10] := by
  rw [secretFile, encode_eq_base64, Private.encode]; rfl

theorem signatureFile_text (P : Prims) (priv : Private) (name m : Bytes) : signatureFile P priv name m =
    commentPrefix ++ (b!"verify with " ++ name) ++ [10] ++
      B64.encode (Signature.encode { pkAlgo := priv.keyAlgo, keyNum := priv.keyNum, sig := P.edSign priv.key m }) ++ [10] := by
  rw [signatureFile, encode_eq_base64, Signature.encode, ← List.append_assoc commentPrefix]; rfl

/-- Every beginning of the comment line of a public key file is no public key. -/
theorem comment_only : ∀ k, k < 38 → ∀ p, readPublicKeyFile ((commentPrefix ++ b!"signify public key").take k) ≠ .ok p := by
  have h : ∀ k, k < 38 → (match readDataFileBytes ((commentPrefix ++ b!"signify public key").take k) with
      | .ok d => d.data.length != 42
      | _ => true) = true := by decide +kernel
  intro k hk p hp
  obtain ⟨d, h1, h2⟩ := (publicFile_ok_iff _ _).1 hp
  have h3 := h k hk
  rw [h1] at h3
  have h4 := (C13_public_length d.data).1 ⟨p, h2⟩
  simp [h4] at h3

/-- C86, public keys: if a public key file that was cut off anywhere is still read as a public key, then it is the same key, and at
most the final newline is missing. -/
theorem C86_public_partial (pub pub' : Public) (k : Nat) (h : readPublicKeyFile ((publicFile pub).take k) = .ok pub') :
    pub' = pub ∧ (publicFile pub).length ≤ k + 1 := by
  have hel : (B64.encode pub.encode).length = 56 := by rw [encode_length, pub.encode_length]; decide
  have hcl : (commentPrefix ++ b!"signify public key").length = 37 := rfl
  have hfl : (publicFile pub).length = 95 := by
    rw [publicFile_text]; simp only [List.length_append, hel, hcl, List.length_cons, List.length_nil]
  by_cases hk : k < 38
  · exfalso
    refine comment_only k hk pub' ?_
    rw [publicFile_text, List.append_assoc, List.append_assoc] at h
    by_cases hk' : k ≤ 37
    · rwa [List.take_append_of_le_length (by rw [hcl]; exact hk')] at h
    · omega
  · by_cases hk2 : k < 94
    · exfalso
      obtain ⟨n, rfl⟩ : ∃ n, k = 37 + 1 + n := ⟨k - 38, by omega⟩
      have hn : n < (B64.encode pub.encode).length := by omega
      rw [publicFile_text, ← hcl, take_file _ _ _ (by omega)] at h
      obtain ⟨d, h1, h2⟩ := (publicFile_ok_iff _ _).1 h
      rw [readDataFile_cut _ _ n (by decide) (by decide) (by rw [pub.encode_length]; decide) hn] at h1
      split at h1
      · obtain rfl := Res.ok.inj h1
        have h3 := (C13_public_length _).1 ⟨pub', h2⟩
        simp only [List.length_take, pub.encode_length] at h3
        omega
      · cases h1
    · refine ⟨?_, by omega⟩
      by_cases hk3 : k = 94
      · subst hk3
        have h4 : (publicFile pub).take 94 ++ [10] = publicFile pub := by
          rw [publicFile_text]
          generalize he : commentPrefix ++ b!"signify public key" ++ [10] ++ B64.encode pub.encode = t
          have ht : t.length = 94 := by rw [← he]; simp only [List.length_append, hel, hcl, List.length_cons, List.length_nil]
          rw [List.take_left' ht]
        have h5 := readPublicKeyFile_public pub
        -- a final newline more or less makes no difference
        have h6 : readPublicKeyFile ((publicFile pub).take 94) = readPublicKeyFile (publicFile pub) := by
          have e1 : (publicFile pub).take 94 = (commentPrefix ++ b!"signify public key") ++ 10 :: B64.encode pub.encode := by
            rw [publicFile_text, show 94 = (commentPrefix ++ b!"signify public key").length + 1 + 56 by rfl,
              take_file _ _ _ (by omega), List.take_of_length_le (by omega)]
          rw [readPublicKeyFile, readPublicKeyFile, readDataFileBytes, readDataFileBytes, e1, publicFile_text]
          have hs1 := scanLine_line (l := commentPrefix ++ b!"signify public key") (rest := B64.encode pub.encode) (by decide) (by decide)
          have hs2 := scanLine_line (l := commentPrefix ++ b!"signify public key") (rest := B64.encode pub.encode ++ [10]) (by decide) (by decide)
          rw [dropCR_prefix] at hs1 hs2
          have hs3 := scanLine_last (encode_not_nl_mem pub.encode) (by intro h0; rw [h0] at hel; simp at hel) (by omega)
          have hs4 := scanLine_line (rest := []) (encode_not_nl_mem pub.encode) (by omega)
          rw [dropCR_of_not (encode_last_ne_cr _)] at hs3 hs4
          rw [scanLoop_comment hs1, scanLoop_data hs3 (encode_not_comment _),
            show commentPrefix ++ b!"signify public key" ++ [10] ++ B64.encode pub.encode ++ [10] =
              commentPrefix ++ b!"signify public key" ++ 10 :: (B64.encode pub.encode ++ [10]) by simp,
            scanLoop_comment hs2, scanLoop_data hs4 (encode_not_comment _)]
        rw [h6, h5] at h
        exact (Res.ok.inj h).symm
      · rw [List.take_of_length_le (by omega), readPublicKeyFile_public] at h
        exact (Res.ok.inj h).symm

theorem zero_fill (hdr key : Bytes) (n a : Nat) (hk : key.length = 64) (ha : hdr.length = a) (hn : a ≤ n) :
    ((hdr ++ key).take n ++ List.replicate 64 0).take (a + 64) = hdr ++ (copyZ 64 (key.take (n - a))).toList := by
  have h1 : (hdr ++ key).take n = hdr ++ key.take (n - a) := by
    rw [List.take_append, List.take_of_length_le (by omega), ha]
  rw [h1, List.append_assoc, List.take_append, List.take_of_length_le (l := hdr) (by omega), ha, Nat.add_sub_cancel_left,
    copyZ_toList]

/-- C86 is false for secret keys: a secret key file, cut off after any number of whole groups of the second half of its data line,
is read without complaint as a key in which the missing bytes are zero. For j ≤ 33, or if the last two bytes are not zero, this is a
different key. -/
theorem C86_secret_negation (priv : Private) (j : Nat) (h1 : 24 ≤ j) (h2 : j ≤ 34) :
    readPrivateKeyFile ((secretFile priv).take (39 + 4 * j)) =
      .ok { priv with key := copyZ 64 (priv.key.toList.take (3 * j - 40)) } := by
  have hel : (B64.encode priv.encode).length = 140 := by rw [encode_length, priv.encode_length]; decide
  have hcl : (commentPrefix ++ b!"signify private key").length = 38 := rfl
  rw [secretFile_text, show 39 + 4 * j = (commentPrefix ++ b!"signify private key").length + 1 + 4 * j by rw [hcl],
    take_file _ _ _ (by omega), readPrivateKeyFile,
    readDataFile_cut _ _ _ (by decide) (by decide) (by rw [priv.encode_length]; decide) (by omega), if_pos (by omega), Res.bind_ok]
  simp only
  rw [show 4 * j / 4 * 3 = 3 * j by omega]
  obtain ⟨p, hp, he⟩ := readPrivateKeyData_ok (priv.encode.take (3 * j)) (by rw [List.length_take, priv.encode_length]; omega)
  rw [hp]
  congr 1
  refine (C14_private_injective _ _).2 ?_
  rw [he, show (104 : Nat) = 40 + 64 by rfl]
  exact zero_fill (priv.keyAlgo.toList ++ priv.kdfAlgo.toList ++ be32 priv.kdfRounds ++ priv.salt.toList ++
    priv.checksum.toList ++ priv.keyNum.toList) priv.key.toList (3 * j) 40 (by simp) (by simp [be32]) (by omega)

/-- C86 is false for signatures in the same way. -/
theorem C86_signature_negation (P : Prims) (priv : Private) (name m : Bytes) (hname : 10 ∉ name) (hlen : name.length < 64000)
    (j : Nat) (h1 : 4 ≤ j) (h2 : j ≤ 24) :
    readSignatureFile ((signatureFile P priv name m).take (name.length + 32 + 4 * j)) =
      .ok { pkAlgo := priv.keyAlgo, keyNum := priv.keyNum,
            sig := copyZ 64 ((P.edSign priv.key m).toList.take (3 * j - 10)) } := by
  generalize hs : (Signature.encode { pkAlgo := priv.keyAlgo, keyNum := priv.keyNum, sig := P.edSign priv.key m }) = enc
  have hl : enc.length = 74 := by rw [← hs, Signature.encode_length]
  have hel : (B64.encode enc).length = 100 := by rw [encode_length, hl]; decide
  have hcl : (commentPrefix ++ (b!"verify with " ++ name)).length = name.length + 31 := by
    simp [show commentPrefix.length = 19 by rfl]; omega
  rw [signatureFile_text, hs, show name.length + 32 + 4 * j = (commentPrefix ++ (b!"verify with " ++ name)).length + 1 + 4 * j by rw [hcl],
    take_file _ _ _ (by omega), readSignatureFile,
    readDataFile_cut _ _ _ (by
      intro hm
      rcases List.mem_append.1 hm with hm | hm
      · revert hm; decide
      · exact hname hm) (by simp; omega) (by omega) (by omega), if_pos (by omega), Res.bind_ok]
  simp only
  rw [show 4 * j / 4 * 3 = 3 * j by omega]
  obtain ⟨p, hp, he⟩ := readSignatureData_ok (enc.take (3 * j)) (by rw [List.length_take]; omega)
  rw [hp]
  congr 1
  refine Signature.encode_inj ?_
  rw [he, ← hs, show (74 : Nat) = 10 + 64 by rfl]
  exact zero_fill (priv.keyAlgo.toList ++ priv.keyNum.toList) (P.edSign priv.key m).toList (3 * j) 10 (by simp) (by simp) (by omega)

/-- C86, signatures: a signature file that was cut off after the first half of the signature, and is nevertheless accepted with a
public key that accepts the complete file, holds the complete signature. -/
theorem C86_signature_partial (P : Prims) (hV : GoVerifies P) (pub : Public) (priv : Private) (name m : Bytes) (hname : 10 ∉ name)
    (hlen : name.length < 64000) (j : Nat) (h1 : 14 ≤ j) (h2 : j ≤ 24)
    (hfull : Accepts P (publicFile pub) m (signatureFile P priv name m))
    (hcut : Accepts P (publicFile pub) m ((signatureFile P priv name m).take (name.length + 32 + 4 * j))) :
    readSignatureFile ((signatureFile P priv name m).take (name.length + 32 + 4 * j)) =
      readSignatureFile (signatureFile P priv name m) := by
  obtain ⟨s, s', e1, e2, he⟩ := C82_files P hV pub m _ _ hfull hcut
  rw [e1, e2]
  congr 1
  refine (he ?_).symm
  rw [C86_signature_negation P priv name m hname hlen j (by omega) h2] at e2
  rw [readSignatureFile_signature P priv name m hname (by omega)] at e1
  rw [← Res.ok.inj e2, ← Res.ok.inj e1]
  simp only
  rw [copyZ_toList, List.take_take, List.take_append_of_le_length (by simp; omega), List.take_take]
  congr 1; omega

/-- A key that changes when the last two bytes are lost. -/
example : ({ lockedKey with key := copyZ 64 (List.replicate 64 1) } : Private) ≠
    { lockedKey with key := copyZ 64 ((copyZ 64 (List.replicate 64 1)).toList.take 62) } := by
  intro h
  have h1 := congrArg (fun p : Private => p.key.toList) h
  revert h1
  decide +kernel

end Verif.Props
