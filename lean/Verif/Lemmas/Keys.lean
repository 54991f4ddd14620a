/-
Lemmas about the encodings of signify/key.go and signify/signature.go.
-/
import Verif.Model.Keys
import Verif.Lemmas.Bytes
import Verif.Lemmas.Act
import Verif.Lemmas.DataFile

namespace Verif

theorem Public.encode_length (p : Public) : p.encode.length = 42 := by
  simp [Public.encode]

theorem Private.encode_length (p : Private) : p.encode.length = 104 := by
  simp [Private.encode, be32_length]

theorem Signature.encode_length (s : Signature) : s.encode.length = 74 := by
  simp [Signature.encode]

theorem readPublicKeyData_ok (data : Bytes) (h : data.length = 42) :
    ∃ p, readPublicKeyData data = .ok p ∧ p.encode = data := by
  refine ⟨_, by rw [readPublicKeyData, if_neg (by omega)], ?_⟩
  simp only [Public.encode]
  rw [copyZ_toList_eq (by simp; omega), copyZ_toList_eq (by simp; omega), copyZ_toList_eq (by simp; omega)]
  rw [List.take_of_length_le (l := data.drop 10) (by simp; omega), List.append_assoc]
  have : data.drop 10 = (data.drop 2).drop 8 := by rw [List.drop_drop]
  rw [this, List.take_append_drop, List.take_append_drop]

theorem Public.ext' {a b : Public} (h1 : a.keyAlgo = b.keyAlgo) (h2 : a.keyNum = b.keyNum) (h3 : a.key = b.key) :
    a = b := by cases a; cases b; simp_all

theorem Public.encode_inj {a b : Public} (h : a.encode = b.encode) : a = b := by
  simp only [Public.encode, List.append_assoc] at h
  obtain ⟨h1, h⟩ := List.append_inj h (by simp)
  obtain ⟨h2, h3⟩ := List.append_inj h (by simp)
  exact Public.ext' (arr_ext h1) (arr_ext h2) (arr_ext h3)

theorem Signature.encode_inj {a b : Signature} (h : a.encode = b.encode) : a = b := by
  simp only [Signature.encode, List.append_assoc] at h
  obtain ⟨h1, h⟩ := List.append_inj h (by simp)
  obtain ⟨h2, h3⟩ := List.append_inj h (by simp)
  cases a; cases b
  simp only [Signature.mk.injEq]
  exact ⟨arr_ext h1, arr_ext h2, arr_ext h3⟩

theorem be32_inj {a b : BitVec 32} (h : be32 a = be32 b) : a = b := by
  have := congrArg beVal h
  rw [beVal_be32, beVal_be32] at this
  exact BitVec.eq_of_toNat_eq this

theorem Private.encode_inj {a b : Private} (h : a.encode = b.encode) : a = b := by
  simp only [Private.encode, List.append_assoc] at h
  obtain ⟨h1, h⟩ := List.append_inj h (by simp)
  obtain ⟨h2, h⟩ := List.append_inj h (by simp)
  obtain ⟨h3, h⟩ := List.append_inj h (by simp [be32_length])
  obtain ⟨h4, h⟩ := List.append_inj h (by simp)
  obtain ⟨h5, h⟩ := List.append_inj h (by simp)
  obtain ⟨h6, h7⟩ := List.append_inj h (by simp)
  cases a; cases b
  simp only [Private.mk.injEq]
  exact ⟨arr_ext h1, arr_ext h2, be32_inj h3, arr_ext h4, arr_ext h5, arr_ext h6, arr_ext h7⟩

theorem bufRead_of_pos {n : Nat} {buf : Bytes} (h : 0 < buf.length) : bufRead n buf = .ok (buf.take n, buf.drop n) := by
  rw [bufRead, if_neg]
  intro h0; rw [h0] at h; simp at h

/-- `be32` of the value of four bytes gives the bytes back. -/
theorem be32_beVal (l : Bytes) (h : l.length = 4) : be32 (BitVec.ofNat 32 (beVal l)) = l := by
  match l, h with
  | [a, b, c, d], _ =>
    have ha := a.toNat_lt; have hb := b.toNat_lt; have hc := c.toNat_lt; have hd := d.toNat_lt
    have hv : (BitVec.ofNat 32 (beVal [a, b, c, d])).toNat =
        a.toNat * 16777216 + b.toNat * 65536 + c.toNat * 256 + d.toNat := by
      rw [BitVec.toNat_ofNat]; simp only [beVal, List.foldl]; omega
    simp only [be32, hv, List.cons.injEq, and_true]
    refine ⟨?_, ?_, ?_, ?_⟩ <;> apply UInt8.toNat_inj.mp <;> rw [toUInt8_toNat] <;> omega

/-- The payloads accepted as a private key are those of at least 41 bytes; the fields are those of the payload filled with
zeros up to 104 bytes. -/
theorem readPrivateKeyData_ok (data : Bytes) (h : 41 ≤ data.length) :
    ∃ p, readPrivateKeyData data = .ok p ∧ p.encode = (data ++ List.replicate 64 0).take 104 := by
  have hl : ∀ k, (data.drop k).length = data.length - k := fun k => List.length_drop
  rw [readPrivateKeyData, bufRead_of_pos (by omega), Res.bind_ok]
  simp only
  rw [bufRead_of_pos (by simp; omega), Res.bind_ok]
  simp only [List.drop_drop]
  rw [binReadU32, if_neg (by intro h0; have := hl 4; rw [h0] at this; simp at this; omega),
    if_neg (by rw [hl]; omega), Res.bind_ok]
  simp only [List.drop_drop]
  rw [bufRead_of_pos (by simp; omega), Res.bind_ok]
  simp only [List.drop_drop]
  rw [bufRead_of_pos (by simp; omega), Res.bind_ok]
  simp only [List.drop_drop]
  rw [bufRead_of_pos (by simp; omega), Res.bind_ok]
  simp only [List.drop_drop]
  rw [bufRead_of_pos (by simp; omega), Res.bind_ok]
  refine ⟨_, rfl, ?_⟩
  simp only [Private.encode]
  rw [be32_beVal _ (by simp; omega)]
  rw [copyZ_toList_eq (n := 2) (by simp; omega), copyZ_toList_eq (n := 2) (by simp; omega),
    copyZ_toList_eq (n := 16) (by simp; omega), copyZ_toList_eq (src := (data.drop 24).take 8) (by simp; omega),
    copyZ_toList_eq (src := (data.drop 32).take 8) (by simp; omega)]
  rw [copyZ_toList]
  have e1 : (data ++ List.replicate 64 0).take 104 =
      data.take 40 ++ (data.drop 40 ++ List.replicate 64 0).take 64 := by
    conv => lhs; rw [← List.take_append_drop 40 data, List.append_assoc]
    rw [List.take_append, List.take_take]
    simp only [List.length_take]
    rw [show min 40 data.length = 40 by omega]
    rfl
  have e2 : data.take 40 = data.take 2 ++ (data.drop 2).take 2 ++ (data.drop 4).take 4 ++ (data.drop 8).take 16 ++
      (data.drop 24).take 8 ++ (data.drop 32).take 8 := by
    have key : ∀ a b : Nat, data.take (a + b) = data.take a ++ (data.drop a).take b := fun a b => List.take_add
    rw [show (40 : Nat) = 2 + 2 + 4 + 16 + 8 + 8 from rfl]
    simp only [key]
  have e3 : ((data.drop 40).take 64 ++ List.replicate 64 0).take 64 = (data.drop 40 ++ List.replicate 64 0).take 64 := by
    rw [List.take_append, List.take_append, List.take_take]
    simp only [List.length_take, List.take_replicate, Nat.min_self]
    congr 2
    omega
  rw [e1, e2, ← e3]

theorem readPrivateKeyData_short (data : Bytes) (h : data.length < 41) : ∀ p, readPrivateKeyData data ≠ .ok p := by
  intro p hp
  rw [readPrivateKeyData] at hp
  have key : ∀ (n : Nat) (buf : Bytes) (x : Bytes × Bytes), bufRead n buf = .ok x → 0 < buf.length ∧ x.2 = buf.drop n := by
    intro n buf x hx
    rw [bufRead] at hx
    split at hx
    · cases hx
    · rename_i h0; cases hx; exact ⟨List.length_pos_iff.mpr h0, rfl⟩
  obtain ⟨x1, h1, hp⟩ := Res.bind_ok_inv hp
  obtain ⟨x2, h2, hp⟩ := Res.bind_ok_inv hp
  obtain ⟨x3, h3, hp⟩ := Res.bind_ok_inv hp
  obtain ⟨x4, h4, hp⟩ := Res.bind_ok_inv hp
  obtain ⟨x5, h5, hp⟩ := Res.bind_ok_inv hp
  obtain ⟨x6, h6, hp⟩ := Res.bind_ok_inv hp
  obtain ⟨x7, h7, hp⟩ := Res.bind_ok_inv hp
  have k1 := key _ _ _ h1; have k2 := key _ _ _ h2; have k4 := key _ _ _ h4
  have k5 := key _ _ _ h5; have k6 := key _ _ _ h6; have k7 := key _ _ _ h7
  have k3 : 4 ≤ x2.2.length ∧ x3.2 = x2.2.drop 4 := by
    rw [binReadU32] at h3
    split at h3
    · cases h3
    · split at h3
      · cases h3
      · cases h3; exact ⟨by omega, rfl⟩
  rw [k6.2, k5.2, k4.2, k3.2, k2.2, k1.2] at k7
  simp at k7; omega

theorem readSignatureData_ok (data : Bytes) (h : 10 ≤ data.length) :
    ∃ s, readSignatureData data = .ok s ∧ s.encode = (data ++ List.replicate 64 0).take 74 := by
  refine ⟨_, by rw [readSignatureData, if_neg (by omega)], ?_⟩
  simp only [Signature.encode]
  rw [copyZ_toList_eq (n := 2) (by simp; omega), copyZ_toList_eq (n := 8) (by simp; omega), copyZ_toList]
  have e1 : (data ++ List.replicate 64 0).take 74 =
      data.take 10 ++ (data.drop 10 ++ List.replicate 64 0).take 64 := by
    conv => lhs; rw [← List.take_append_drop 10 data, List.append_assoc]
    rw [List.take_append, List.take_take]
    simp only [List.length_take]
    rw [show min 10 data.length = 10 by omega]
    rfl
  rw [e1, show (10 : Nat) = 2 + 8 from rfl, List.take_add]

end Verif
