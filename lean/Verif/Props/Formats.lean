/-
Properties C13-C17: the binary formats of keys and signatures (signify/key.go, signify/signature.go).
-/
import Verif.Lemmas.Keys

namespace Verif.Props

/-! ### C13 -/

/-- C13: parsing accepts a payload exactly if it is the encoding of the result. -/
theorem C13_public_exact (data : Bytes) (p : Public) : readPublicKeyData data = .ok p ↔ data = p.encode := by
  constructor
  · intro h
    by_cases hl : data.length = 42
    · obtain ⟨q, h1, h2⟩ := readPublicKeyData_ok data hl
      rw [h1] at h
      cases h
      exact h2.symm
    · rw [readPublicKeyData, if_pos (by omega)] at h
      cases h
  · rintro rfl
    obtain ⟨q, h1, h2⟩ := readPublicKeyData_ok p.encode p.encode_length
    rw [h1, Public.encode_inj h2]

/-- C13: exactly the payloads of 42 bytes are accepted. -/
theorem C13_public_length (data : Bytes) : (∃ p, readPublicKeyData data = .ok p) ↔ data.length = 42 := by
  constructor
  · rintro ⟨p, h⟩
    rw [(C13_public_exact data p).mp h, p.encode_length]
  · intro h
    obtain ⟨p, h1, -⟩ := readPublicKeyData_ok data h
    exact ⟨p, h1⟩

/-- C13: every other length is reported as an error naming the length. -/
theorem C13_public_error (data : Bytes) (h : data.length ≠ 42) :
    readPublicKeyData data = .err (.publicKeyLength data.length) := by
  rw [readPublicKeyData, if_pos (by omega)]

/-- C13: the layout: two bytes algorithm, eight bytes key number, the key. -/
theorem C13_public_layout (data : Bytes) (p : Public) (h : readPublicKeyData data = .ok p) :
    p.keyAlgo.toList = data.take 2 ∧ p.keyNum.toList = (data.drop 2).take 8 ∧ p.key.toList = data.drop 10 := by
  rw [(C13_public_exact data p).mp h, Public.encode]
  refine ⟨?_, ?_, ?_⟩
  · rw [List.append_assoc, List.take_append_of_le_length (by simp), List.take_of_length_le (by simp)]
  · rw [List.append_assoc, List.drop_append_of_le_length (by simp), List.drop_of_length_le (by simp), List.nil_append,
      List.take_append_of_le_length (by simp), List.take_of_length_le (by simp)]
  · rw [List.drop_append, List.drop_of_length_le (by simp)]; simp

example : (List.replicate 42 (7 : UInt8)).length = 42 ∧ (List.replicate 41 (7 : UInt8)).length ≠ 42 := by decide

/-! ### C14 -/

/-- C14: parsing the encoding of a private key gives the key back. -/
theorem C14_private_roundtrip (p : Private) : readPrivateKeyData p.encode = .ok p := by
  obtain ⟨q, h1, h2⟩ := readPrivateKeyData_ok p.encode (by rw [p.encode_length]; decide)
  rw [List.take_append_of_le_length (by rw [p.encode_length]; decide),
    List.take_of_length_le (by rw [p.encode_length]; decide)] at h2
  rw [h1, Private.encode_inj h2]

/-- C14: the round count is stored big-endian in bytes 4 to 7. -/
theorem C14_rounds_big_endian (p : Private) : beVal ((p.encode.drop 4).take 4) = p.kdfRounds.toNat := by
  have : (p.encode.drop 4).take 4 = be32 p.kdfRounds := by
    simp only [Private.encode, List.append_assoc]
    rw [List.drop_append, List.drop_of_length_le (by simp), List.nil_append]
    simp only [Vector.length_toList, Nat.reduceSub]
    rw [List.drop_append, List.drop_of_length_le (by simp), List.nil_append]
    simp only [Vector.length_toList, Nat.reduceSub, List.drop_zero]
    rw [List.take_append_of_le_length (by simp [be32_length]), List.take_of_length_le (by simp [be32_length])]
  rw [this, beVal_be32]

/-- C14: the encoding has 104 bytes and determines the key. -/
theorem C14_private_injective (p q : Private) : p.encode.length = 104 ∧ (p.encode = q.encode → p = q) :=
  ⟨p.encode_length, Private.encode_inj⟩

/-! ### C15 -/

/-- C15, what is true: the payloads of at least 41 bytes are exactly those accepted. (That only the 104-byte encoding is
accepted is false, see `C15_length_negation`.) -/
theorem C15_length_partial (data : Bytes) : (∃ p, readPrivateKeyData data = .ok p) ↔ 41 ≤ data.length := by
  constructor
  · rintro ⟨p, h⟩
    apply Nat.le_of_not_lt
    intro hl
    exact readPrivateKeyData_short data hl p h
  · intro h
    obtain ⟨p, h1, -⟩ := readPrivateKeyData_ok data h
    exact ⟨p, h1⟩

/-- C15: the fields are those of the payload cut to 104 bytes and filled up with zeros. -/
theorem C15_fill (data : Bytes) (p : Private) (h : readPrivateKeyData data = .ok p) :
    p.encode = (data ++ List.replicate 64 0).take 104 := by
  obtain ⟨q, h1, h2⟩ := readPrivateKeyData_ok data ((C15_length_partial data).mp ⟨p, h⟩)
  rw [h] at h1
  cases h1
  exact h2

/-- C15: shorter payloads are an error (never a panic). -/
theorem C15_short_is_error (data : Bytes) (h : data.length < 41) : ∃ e, readPrivateKeyData data = .err e := by
  have key : ∀ (n : Nat) (buf : Bytes), (bufRead n buf).Clean := by
    intro n buf; rw [bufRead]; split
    · exact .inr ⟨_, rfl⟩
    · exact .inl ⟨_, rfl⟩
  have key2 : ∀ (buf : Bytes), (binReadU32 buf).Clean := by
    intro buf; rw [binReadU32]; split
    · exact .inr ⟨_, rfl⟩
    · split
      · exact .inr ⟨_, rfl⟩
      · exact .inl ⟨_, rfl⟩
  have hc : (readPrivateKeyData data).Clean := by
    rw [readPrivateKeyData]
    refine (key _ _).bind fun _ => (key _ _).bind fun _ => (key2 _).bind fun _ => (key _ _).bind fun _ =>
      (key _ _).bind fun _ => (key _ _).bind fun _ => (key _ _).bind fun _ => .inl ⟨_, rfl⟩
  rcases hc with ⟨p, hp⟩ | he
  · exact absurd hp (readPrivateKeyData_short data h p)
  · exact he

/-- C15 is false: there are accepted payloads of any length from 41 bytes on. -/
theorem C15_length_negation (n : Nat) (h : 41 ≤ n) :
    ∃ data : Bytes, data.length = n ∧ ∃ p, readPrivateKeyData data = .ok p :=
  ⟨List.replicate n 0, by simp, (C15_length_partial _).mpr (by simpa using h)⟩

/-! ### C16 -/

/-- C16: parsing the encoding of a signature gives the signature back. -/
theorem C16_signature_roundtrip (s : Signature) : readSignatureData s.encode = .ok s := by
  obtain ⟨q, h1, h2⟩ := readSignatureData_ok s.encode (by rw [s.encode_length]; decide)
  rw [List.take_append_of_le_length (by rw [s.encode_length]; decide),
    List.take_of_length_le (by rw [s.encode_length]; decide)] at h2
  rw [h1, Signature.encode_inj h2]

/-- C16: distinct 74-byte payloads parse to distinct signatures. -/
theorem C16_signature_injective (a b : Bytes) (s : Signature) (ha : a.length = 74) (hb : b.length = 74)
    (h1 : readSignatureData a = .ok s) (h2 : readSignatureData b = .ok s) : a = b := by
  have key : ∀ c : Bytes, c.length = 74 → readSignatureData c = .ok s → c = s.encode := by
    intro c hc h
    obtain ⟨q, h3, h4⟩ := readSignatureData_ok c (by omega)
    rw [h] at h3
    cases h3
    rw [List.take_append_of_le_length (by omega), List.take_of_length_le (by omega)] at h4
    exact h4.symm
  rw [key a ha h1, key b hb h2]

/-! ### C17 -/

/-- C17, what is true: payloads of 74 bytes parse to their fields. For other lengths the code does not report an error (see
`C17_length_negation`): payloads of at least 10 bytes are cut or filled with zeros. -/
theorem C17_fill_partial (data : Bytes) (h : 10 ≤ data.length) :
    ∃ s, readSignatureData data = .ok s ∧ s.encode = (data ++ List.replicate 64 0).take 74 :=
  readSignatureData_ok data h

/-- C17: the parser panics exactly on payloads shorter than 10 bytes. -/
theorem C17_panic_iff (data : Bytes) : readSignatureData data = .panic ↔ data.length < 10 := by
  rw [readSignatureData]
  split
  · rename_i h; simpa using h
  · rename_i h; simpa using h

/-- C17 is false: no payload at all, of whatever length, is reported as an error. -/
theorem C17_length_negation (data : Bytes) (e : GoErr) : readSignatureData data ≠ .err e := by
  rw [readSignatureData]; split <;> simp

end Verif.Props
