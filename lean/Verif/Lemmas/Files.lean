/-
The key and signature files that are written, and reading them back.
-/
import Verif.Lemmas.Keygen
import Verif.Props.DataFiles

namespace Verif
open World Spec

theorem secText_eq (priv : Private) : secText priv = secretFile priv := by
  simp only [secText, secretFile, DataFile.encode, encode_eq_base64, Private.encode]; rfl

theorem pubText_eq (pub : Public) : pubText pub = publicFile pub := by
  simp only [pubText, publicFile, DataFile.encode, encode_eq_base64, Public.encode]; rfl

theorem base64_short {l : Bytes} (h : l.length ≤ 200) : (base64 l).length < 65536 := by
  rw [← encode_eq_base64, encode_length, B64.encodedLen]; omega

theorem readPrivateKeyFile_secret (priv : Private) : readPrivateKeyFile (secretFile priv) = .ok priv := by
  rw [← secText_eq]
  have h := Props.C08_roundtrip b!"signify private key" priv.encode (by decide) (by decide) (by decide)
    (base64_short (by rw [priv.encode_length]; decide))
  unfold readPrivateKeyFile
  rw [show secText priv = DataFile.encode { comment := commentTag ++ b!"signify private key", data := B64.encode priv.encode }
    from rfl, h, Res.bind_ok]
  obtain ⟨q, h1, h2⟩ := readPrivateKeyData_ok priv.encode (by rw [priv.encode_length]; decide)
  rw [List.take_append_of_le_length (by rw [priv.encode_length]; decide),
    List.take_of_length_le (by rw [priv.encode_length]; decide)] at h2
  simp only
  rw [h1, Private.encode_inj h2]

theorem readPublicKeyFile_public (pub : Public) : readPublicKeyFile (publicFile pub) = .ok pub := by
  rw [← pubText_eq]
  have h := Props.C08_roundtrip b!"signify public key" pub.encode (by decide) (by decide) (by decide)
    (base64_short (by rw [pub.encode_length]; decide))
  unfold readPublicKeyFile
  rw [show pubText pub = DataFile.encode { comment := commentTag ++ b!"signify public key", data := B64.encode pub.encode }
    from rfl, h, Res.bind_ok]
  obtain ⟨q, h1, h2⟩ := readPublicKeyData_ok pub.encode (by rw [pub.encode_length])
  simp only
  rw [h1, Public.encode_inj h2]

theorem readSignatureFile_signature (P : Prims) (priv : Private) (name m : Bytes) (hnl : 10 ∉ name)
    (hlen : name.length < 65000) :
    readSignatureFile (signatureFile P priv name m) =
      .ok { pkAlgo := priv.keyAlgo, keyNum := priv.keyNum, sig := P.edSign priv.key m } := by
  generalize hs : ({ pkAlgo := priv.keyAlgo, keyNum := priv.keyNum, sig := P.edSign priv.key m } : Signature) = sg
  have he : priv.keyAlgo.toList ++ priv.keyNum.toList ++ (P.edSign priv.key m).toList = sg.encode := by
    rw [← hs]; rfl
  have h := Props.C08_trailing_cr (b!"verify with " ++ name) sg.encode
    (by intro hm; rcases List.mem_append.mp hm with hm | hm
        · revert hm; decide
        · exact hnl hm)
    (by rw [List.length_append]; simp only [commentTag, List.length_cons, List.length_nil]; omega)
    (base64_short (by rw [sg.encode_length]; decide))
  unfold readSignatureFile
  rw [show signatureFile P priv name m =
      DataFile.encode { comment := commentTag ++ (b!"verify with " ++ name), data := B64.encode sg.encode } by
    simp only [signatureFile, DataFile.encode, encode_eq_base64, he, List.append_assoc], h, Res.bind_ok]
  obtain ⟨q, h1, h2⟩ := readSignatureData_ok sg.encode (by rw [sg.encode_length]; decide)
  rw [List.take_append_of_le_length (by rw [sg.encode_length]; decide),
    List.take_of_length_le (by rw [sg.encode_length]; decide)] at h2
  simp only
  rw [h1, Signature.encode_inj h2]

theorem takeWhile_append_stop {p : UInt8 → Bool} {a b : Bytes} (ha : ∀ x ∈ a, p x = true) (hb : b = [] ∨ ∃ c t, b = c :: t ∧ p c = false) :
    (a ++ b).takeWhile p = a := by
  induction a with
  | nil =>
    rcases hb with rfl | ⟨c, t, rfl, hc⟩
    · rfl
    · simp [hc]
  | cons x xs ih =>
    rw [List.cons_append, List.takeWhile_cons, ha x (by simp)]
    simp only [if_true]
    rw [ih (fun y hy => ha y (by simp [hy]))]

theorem pathBase_split {path dir name : Path} (h : Splits path dir name) (hne : name ≠ []) : pathBase path = name := by
  obtain ⟨rfl, hd, hn⟩ := h
  obtain ⟨c, t, ht⟩ : ∃ c t, name.reverse = c :: t := by
    cases hr : name.reverse with
    | nil => simp at hr; exact absurd hr hne
    | cons c t => exact ⟨c, t, rfl⟩
  have hc : c ≠ 47 := by
    intro h0; apply hn; rw [← List.mem_reverse, ht, h0]; simp
  have hrev : (dir ++ name).reverse = name.reverse ++ dir.reverse := List.reverse_append
  have hstrip : ((dir ++ name).reverse.dropWhile (· == 47)).reverse = dir ++ name := by
    rw [hrev, ht, List.cons_append, List.dropWhile_cons, if_neg (by simpa using hc), ← List.cons_append, ← ht, ← hrev,
      List.reverse_reverse]
  have hne2 : dir ++ name ≠ [] := by simp [hne]
  unfold pathBase
  rw [if_neg hne2]
  simp only [hstrip]
  rw [if_neg hne2, hrev, takeWhile_append_stop, List.reverse_reverse]
  · intro x hx
    have : x ≠ 47 := by rintro rfl; exact hn (List.mem_reverse.mp hx)
    simpa using this
  · rcases hd with rfl | hd
    · left; rfl
    · right
      rw [List.getLast?_eq_head?_reverse] at hd
      cases hr : dir.reverse with
      | nil => rw [hr] at hd; simp at hd
      | cons a as => rw [hr] at hd; simp at hd; exact ⟨a, as, rfl, by simp [hd]⟩

theorem isSuffixOf_append (a b : Bytes) : b.isSuffixOf (a ++ b) = true := by simp

theorem signText_eq (P : Prims) (priv : Private) {pk dir name : Path} (m : Bytes) (h : Splits pk dir (name ++ b!".sec")) :
    signText P priv pk m = signatureFile P priv (name ++ b!".pub") m := by
  have hp : pathBase (trimSuffix pk b!".sec" ++ b!".pub") = name ++ b!".pub" := by
    apply pathBase_split (dir := dir)
    · refine ⟨?_, h.dir, ?_⟩
      · rw [h.eq, ← List.append_assoc, trimSuffix, if_pos (isSuffixOf_append _ _), List.length_append, Nat.add_sub_cancel, List.take_left, List.append_assoc]
      · have := h.name
        intro hm
        rcases List.mem_append.mp hm with hm | hm
        · exact this (List.mem_append_left _ hm)
        · revert hm; decide
    · simp
  simp only [signText, signatureFile, DataFile.encode, encode_eq_base64, signComment, hp, Private.sign, Signature.encode]
  simp only [← List.append_assoc]
  rfl

theorem signText_eq' (P : Prims) (priv : Private) {pk dir name : Path} (m : Bytes) (h : Splits pk dir name)
    (hs : ¬ b!".sec" <:+ name) : signText P priv pk m = signatureFile P priv (name ++ b!".pub") m := by
  have hs2 : ¬ (b!".sec" : Bytes).isSuffixOf pk = true := by
    intro hx
    rw [List.isSuffixOf_iff_suffix] at hx
    rw [h.eq] at hx
    -- a suffix without '/' of `dir ++ name` is a suffix of `name`
    rcases h.dir with hd | hd
    · rw [hd] at hx; exact hs hx
    · by_cases hl : (b!".sec" : Bytes).length ≤ name.length
      · exact hs (List.suffix_of_suffix_length_le hx (List.suffix_append dir name) hl)
      · have h2 : name <:+ b!".sec" := List.suffix_of_suffix_length_le (List.suffix_append dir name) hx (by omega)
        obtain ⟨t, ht⟩ := h2
        obtain ⟨u, hu⟩ := hx
        rw [← ht, ← List.append_assoc] at hu
        have h3 := List.append_cancel_right hu
        have htne : t ≠ [] := by rintro rfl; apply hl; rw [← ht]; simp
        rw [← h3, List.getLast?_append] at hd
        cases hlast : t.getLast? with
        | none => rw [List.getLast?_eq_none_iff] at hlast; exact htne hlast
        | some x =>
          rw [hlast] at hd; simp only [Option.some_or, Option.some.injEq] at hd
          have hm : x ∈ t := List.mem_of_getLast? hlast
          have hm2 : x ∈ (b!".sec" : Bytes) := by rw [← ht]; exact List.mem_append_left _ hm
          rw [hd] at hm2; revert hm2; decide
  have hp : pathBase (trimSuffix pk b!".sec" ++ b!".pub") = name ++ b!".pub" := by
    apply pathBase_split (dir := dir)
    · refine ⟨?_, h.dir, ?_⟩
      · rw [trimSuffix, if_neg hs2, h.eq, List.append_assoc]
      · have := h.name
        intro hm
        rcases List.mem_append.mp hm with hm | hm
        · exact this hm
        · revert hm; decide
    · simp
  simp only [signText, signatureFile, DataFile.encode, encode_eq_base64, signComment, hp, Private.sign, Signature.encode]
  simp only [← List.append_assoc]
  rfl

end Verif
