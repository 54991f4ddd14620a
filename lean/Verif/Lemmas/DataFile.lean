/-
Lemmas about signify/common.go.
-/
import Verif.Model.DataFile
import Verif.Lemmas.Base64
import Verif.Lemmas.Act

namespace Verif
open B64

theorem takeWhile_ne_append {l rest : Bytes} (h : 10 ∉ l) :
    (l ++ 10 :: rest).takeWhile (· != 10) = l := by
  rw [List.takeWhile_append_of_pos (by intro c hc; simp; rintro rfl; exact h hc)]
  simp

theorem takeWhile_ne_self {l : Bytes} (h : 10 ∉ l) : l.takeWhile (· != 10) = l := by
  induction l with
  | nil => rfl
  | cons c cs ih =>
    have hc : c ≠ 10 := fun h0 => h (by simp [h0])
    rw [List.takeWhile_cons_of_pos (by simpa using hc)]
    congr 1
    exact ih (fun h0 => h (List.mem_cons_of_mem _ h0))

/-- A terminated line that fits the buffer. -/
theorem scanLine_line {l rest : Bytes} (h : 10 ∉ l) (hlen : l.length < 65536) :
    scanLine (l ++ 10 :: rest) = some (dropCR l, rest) := by
  unfold scanLine
  rw [if_neg (by simp)]
  simp only [takeWhile_ne_append h]
  rw [if_neg (by simp only [maxScanTokenSize]; omega)]
  simp

/-- A last line without newline. -/
theorem scanLine_last {l : Bytes} (h : 10 ∉ l) (hne : l ≠ []) (hlen : l.length < 65536) :
    scanLine l = some (dropCR l, []) := by
  unfold scanLine
  rw [if_neg hne]
  simp only [takeWhile_ne_self h]
  rw [if_neg (by simp only [maxScanTokenSize]; omega)]
  simp

theorem scanLine_overlong {l rest : Bytes} (h : 10 ∉ l) (hrest : rest = [] ∨ ∃ t, rest = 10 :: t)
    (hlen : 65536 ≤ l.length) : scanLine (l ++ rest) = none := by
  unfold scanLine
  have hne : l ++ rest ≠ [] := by
    intro h0; simp at h0; rw [h0.1] at hlen; simp at hlen
  rw [if_neg hne]
  have : (l ++ rest).takeWhile (· != 10) = l := by
    rcases hrest with rfl | ⟨t, rfl⟩
    · rw [List.append_nil]; exact takeWhile_ne_self h
    · exact takeWhile_ne_append h
  simp only [this]
  rw [if_pos (by simp only [maxScanTokenSize]; omega)]

theorem dropCR_of_not {l : Bytes} (h : l.getLast? ≠ some 13) : dropCR l = l := by
  unfold dropCR; rw [if_neg h]

theorem dropCR_append_cr (l : Bytes) : dropCR (l ++ [13]) = l := by
  unfold dropCR; simp

theorem dropCR_prefix (l : Bytes) : dropCR (commentPrefix ++ l) = commentPrefix ++ dropCR l := by
  unfold dropCR
  by_cases hl : l = []
  · subst hl; decide
  · have h1 : (commentPrefix ++ l).getLast? = l.getLast? := by
      rw [List.getLast?_append]
      cases h : l.getLast? with
      | none => simp at h; exact absurd h hl
      | some x => rfl
    have h2 : (commentPrefix ++ l).dropLast = commentPrefix ++ l.dropLast := List.dropLast_append_of_ne_nil hl
    rw [h1, h2]
    by_cases hc : l.getLast? = some 13
    · rw [if_pos hc, if_pos hc]
    · rw [if_neg hc, if_neg hc]

theorem commentPrefix_isPrefixOf (l : Bytes) : commentPrefix.isPrefixOf (commentPrefix ++ l) = true := by
  rw [List.isPrefixOf_iff_prefix]; exact List.prefix_append _ _

theorem drop_commentPrefix (l : Bytes) : (commentPrefix ++ l).drop commentPrefix.length = l := by
  simp

theorem scanLoop_none {line comment data : Bytes} (h : scanLine data = none) :
    scanLoop line comment data = (line, comment) := by
  unfold scanLoop; split
  · rfl
  · rename_i tok rest h2; rw [h] at h2; cases h2

theorem scanLoop_comment {line comment data tok rest : Bytes}
    (h : scanLine data = some (commentPrefix ++ tok, rest)) :
    scanLoop line comment data = scanLoop (commentPrefix ++ tok) (comment ++ tok) rest := by
  conv => lhs; unfold scanLoop
  split
  · rename_i h2; rw [h] at h2; cases h2
  · rename_i tok' rest' h2
    rw [h] at h2
    simp only [Option.some.injEq, Prod.mk.injEq] at h2
    obtain ⟨rfl, rfl⟩ := h2
    rw [if_pos (commentPrefix_isPrefixOf _), drop_commentPrefix]

theorem scanLoop_data {line comment data tok rest : Bytes} (h : scanLine data = some (tok, rest))
    (hp : commentPrefix.isPrefixOf tok = false) : scanLoop line comment data = (tok, comment) := by
  conv => lhs; unfold scanLoop
  split
  · rename_i h2; rw [h] at h2; cases h2
  · rename_i tok' rest' h2
    rw [h] at h2
    simp only [Option.some.injEq, Prod.mk.injEq] at h2
    obtain ⟨rfl, rfl⟩ := h2
    rw [if_neg (by rw [hp]; decide)]

theorem scanLoop_eof (line comment : Bytes) : scanLoop line comment [] = (line, comment) :=
  scanLoop_none (by simp [scanLine])

/-- A line with the comment prefix is not base64. -/
theorem decodeString_comment (l : Bytes) : decodeString (commentPrefix ++ l) = .corrupt := by
  have hlen : (commentPrefix ++ l).length = 19 + l.length := by simp [commentPrefix]; omega
  rw [decodeString, decode, hlen]
  have hcap : 12 ≤ decodedLen (19 + l.length) := by rw [decodedLen]; omega
  generalize decodedLen (19 + l.length) = cap at hcap
  rw [decodeLoop]
  have q1 : quantum [] (commentPrefix ++ l) =
      .full (groupBytes 46 39 45 43) (b!"usted comment: " ++ l) := by rfl
  have q2 : quantum [] (b!"usted comment: " ++ l) = .full (groupBytes 46 44 45 30) (b!"d comment: " ++ l) := by rfl
  have q3 : quantum [] (b!"d comment: " ++ l) = .corrupt := by rfl
  split <;> rename_i hq <;> rw [q1] at hq <;> simp only [reduceCtorEq, Quantum.full.injEq] at hq
  obtain ⟨rfl, rfl⟩ := hq
  rw [if_pos (by simp [groupBytes]; omega), decodeLoop]
  split <;> rename_i hq <;> rw [q2] at hq <;> simp only [reduceCtorEq, Quantum.full.injEq] at hq
  obtain ⟨rfl, rfl⟩ := hq
  rw [if_pos (by simp [groupBytes]; omega), decodeLoop]
  split <;> rename_i hq <;> rw [q3] at hq <;> simp only [reduceCtorEq] at hq

/-- Base64 text is not a comment line. -/
theorem encode_not_comment (bs : Bytes) : commentPrefix.isPrefixOf (encode bs) = false := by
  cases h : commentPrefix.isPrefixOf (encode bs) with
  | false => rfl
  | true =>
    rw [List.isPrefixOf_iff_prefix] at h
    obtain ⟨t, ht⟩ := h
    have h1 := decodeString_encode bs
    rw [← ht, decodeString_comment] at h1
    cases h1

theorem encode_not_nl_mem (bs : Bytes) : 10 ∉ encode bs := fun h => encode_ne_nl bs _ h rfl

theorem encode_last_ne_cr (bs : Bytes) : (encode bs).getLast? ≠ some 13 := by
  intro h
  have := encode_no_nl bs 13 (List.mem_of_getLast? h)
  revert this; decide

end Verif
