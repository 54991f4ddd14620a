/-
Base64 text and data files that end early.
-/
import Verif.Lemmas.DataFile
import Verif.Lemmas.Files
import Verif.Spec.Lines

namespace Verif
open B64

/-- Fewer than four characters of a group. -/
theorem quantum_cut (bs : Bytes) (r : Nat) (h1 : 0 < r) (h4 : r < 4) (hr : r < (encode bs).length) :
    quantum [] ((encode bs).take r) = .corrupt := by
  have hm : ∀ n : Nat, n % 64 < 64 := fun n => Nat.mod_lt _ (by decide)
  have hp : isNL padChar = false := rfl
  have hr' : r = 1 ∨ r = 2 ∨ r = 3 := by omega
  rcases bs with _ | ⟨a, _ | ⟨b, _ | ⟨c, rest⟩⟩⟩
  · simp [encode] at hr
  · rcases hr' with rfl | rfl | rfl <;>
      simp [encode, quantum, decChar_encChar _ (hm _), padChar_dec, hp]
  · rcases hr' with rfl | rfl | rfl <;>
      simp [encode, quantum, decChar_encChar _ (hm _)]
  · rcases hr' with rfl | rfl | rfl <;>
      simp [encode, encGroup, quantum, decChar_encChar _ (hm _)]

theorem decodeLoop_append (cap : Nat) (bs out t : Bytes) (h3 : 3 ∣ bs.length) (h : out.length + bs.length ≤ cap) :
    decodeLoop cap out (encode bs ++ t) = decodeLoop cap (out ++ bs) t := by
  induction bs using encode.induct generalizing out with
  | case1 => simp [encode]
  | case2 a => simp at h3
  | case3 a b => simp at h3
  | case4 a b c rest ih =>
    rw [decodeLoop]; simp only [encode]
    split <;> rename_i hq <;> rw [List.append_assoc, quantum_group] at hq <;> simp only [reduceCtorEq, Quantum.full.injEq] at hq
    obtain ⟨rfl, rfl⟩ := hq
    simp only [List.length_cons, List.length_nil] at h h3 ⊢
    rw [if_pos (by omega), ih _ (by omega) (by simp; omega)]
    simp

theorem decodeLoop_corrupt (cap : Nat) (out t : Bytes) (h : quantum [] t = .corrupt) : decodeLoop cap out t = .corrupt := by
  rw [decodeLoop]
  split <;> rename_i hq <;> rw [h] at hq <;> simp_all

/-- What a proper prefix of an encoding decodes to. -/
theorem decodeString_take (d : Bytes) (n : Nat) (hn : n < (encode d).length) :
    decodeString ((encode d).take n) = if n % 4 = 0 then .ok (d.take (n / 4 * 3)) else .corrupt := by
  have hlen := encode_length d
  rw [encodedLen] at hlen
  have h3 : n / 4 * 3 < d.length := by omega
  have hsplit : encode d = encode (d.take (n / 4 * 3)) ++ encode (d.drop (n / 4 * 3)) := by
    rw [← encode_append _ _ (by rw [List.length_take, Nat.min_eq_left (by omega)]; exact Nat.dvd_mul_left ..), List.take_append_drop]
  have hl1 : (encode (d.take (n / 4 * 3))).length = n / 4 * 4 := by
    rw [encode_length, encodedLen, List.length_take, Nat.min_eq_left (by omega)]; omega
  have hl2 : 4 ≤ (encode (d.drop (n / 4 * 3))).length := by
    rw [encode_length, encodedLen, List.length_drop]; omega
  have htake : (encode d).take n = encode (d.take (n / 4 * 3)) ++ (encode (d.drop (n / 4 * 3))).take (n % 4) := by
    rw [hsplit, List.take_append, hl1, List.take_of_length_le (by rw [hl1]; omega)]
    congr 2
    omega
  by_cases h0 : n % 4 = 0
  · rw [if_pos h0, htake, h0, List.take_zero, List.append_nil, decodeString_encode]
  · rw [if_neg h0, htake, decodeString, decode]
    have hc : (d.take (n / 4 * 3)).length ≤ decodedLen (encode (d.take (n / 4 * 3)) ++ (encode (d.drop (n / 4 * 3))).take (n % 4)).length := by
      rw [List.length_append, hl1, decodedLen, List.length_take, List.length_take]; omega
    rw [decodeLoop_append _ _ _ _ (by rw [List.length_take, Nat.min_eq_left (by omega)]; exact Nat.dvd_mul_left ..) (by simpa using hc)]
    exact decodeLoop_corrupt _ _ _ (quantum_cut _ _ (by omega) (by omega) (by omega))

theorem encode_take_ne (bs : Bytes) (n : Nat) (c : UInt8) (h : c = 10 ∨ c = 13) : c ∉ (encode bs).take n := by
  intro hm
  have := encode_no_nl bs c (List.mem_of_mem_take hm)
  rcases h with rfl | rfl <;> simp [isNL] at this

/-- A data file that ends `n` characters into its data line. -/
theorem readDataFile_cut (text d : Bytes) (n : Nat) (hnl : 10 ∉ text) (hl : text.length < 65000) (hd : d.length < 40000)
    (hn : n < (encode d).length) :
    readDataFileBytes (commentPrefix ++ text ++ 10 :: (encode d).take n) =
      if n ≠ 0 ∧ n % 4 = 0 then .ok { comment := dropCR text, data := d.take (n / 4 * 3) } else .err .corruptBase64 := by
  have hn' : 10 ∉ commentPrefix ++ text := by
    intro hm
    rcases List.mem_append.mp hm with hm | hm
    · revert hm; decide
    · exact hnl hm
  have hcl : commentPrefix.length = 19 := rfl
  have h1 := scanLine_line (rest := (encode d).take n) hn' (by rw [List.length_append, hcl]; omega)
  rw [dropCR_prefix] at h1
  rw [readDataFileBytes, scanLoop_comment h1]
  by_cases h0 : n = 0
  · subst h0
    rw [List.take_zero, scanLoop_eof]
    simp only [decodeString_comment]
    simp
  · have hlen := encode_length d
    rw [encodedLen] at hlen
    have hne : (encode d).take n ≠ [] := by
      intro h
      have := congrArg List.length h
      rw [List.length_take] at this
      simp only [List.length_nil] at this
      omega
    have h2 := scanLine_last (encode_take_ne d n 10 (.inl rfl)) hne (by rw [List.length_take]; omega)
    rw [dropCR_of_not fun h => encode_take_ne d n 13 (.inr rfl) (List.mem_of_getLast? h)] at h2
    rw [scanLoop_data h2 (by
      apply Bool.eq_false_iff.2
      intro hp
      rw [List.isPrefixOf_iff_prefix] at hp
      have h3 : commentPrefix <+: encode d := hp.trans (List.take_prefix _ _)
      rw [← List.isPrefixOf_iff_prefix, encode_not_comment] at h3
      cases h3)]
    simp only [decodeString_take d n hn]
    by_cases h4 : n % 4 = 0
    · simp [h0, h4]
    · simp [h4]

end Verif
