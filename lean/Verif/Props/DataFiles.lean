/-
Properties C08-C12: data files (signify/common.go).
-/
import Verif.Lemmas.DataFile
import Verif.Spec.Lines

namespace Verif.Props
open Spec

theorem scanLine_render (l : Line) (h : l.Ok) (rest : Bytes) : scanLine (l.render ++ rest) = some (l.text, rest) := by
  have hraw : 10 ∉ l.raw := by
    unfold Line.raw
    intro hm
    rcases List.mem_append.mp hm with hm | hm
    · exact h.noNL hm
    · split at hm <;> simp at hm
  have : l.render ++ rest = l.raw ++ 10 :: rest := by simp [Line.render]
  rw [this, scanLine_line hraw h.short]
  congr 2
  unfold Line.raw
  cases hc : l.crlf with
  | true => exact dropCR_append_cr _
  | false => simpa using dropCR_of_not h.noCR

/-- Reading past comment lines. -/
theorem scanLoop_comments (cs : List (Bytes × Bool)) (h : ∀ c ∈ cs, (commentLine c.1 c.2).Ok) (line comment rest : Bytes) :
    scanLoop line comment (renderAll (cs.map fun c => commentLine c.1 c.2) ++ rest) =
      scanLoop (match cs.getLast? with | none => line | some c => commentTag ++ c.1)
        (comment ++ (cs.map (·.1)).flatten) rest := by
  induction cs generalizing line comment with
  | nil => simp [renderAll]
  | cons c cs ih =>
    have h1 := h c (by simp)
    have happ : renderAll ((c :: cs).map fun c => commentLine c.1 c.2) ++ rest =
        (commentLine c.1 c.2).render ++ (renderAll (cs.map fun c => commentLine c.1 c.2) ++ rest) := by
      simp [renderAll]
    rw [happ, scanLoop_comment (tok := c.1) (scanLine_render _ h1 _),
      ih (fun c' hc' => h c' (List.mem_cons_of_mem _ hc'))]
    congr 1
    · cases hc : cs.getLast? with
      | none => simp at hc; subst hc; rfl
      | some x => rw [List.getLast?_cons, hc]; rfl
    · simp

/-! ### C08 -/

/-- C08: what `writeDataFile` writes for a comment line and a payload reads back as the comment text and the payload. -/
theorem C08_roundtrip (text payload : Bytes) (hnl : 10 ∉ text) (hcr : text.getLast? ≠ some 13)
    (hc : commentTag.length + text.length < 65536) (hp : (base64 payload).length < 65536) :
    readDataFileBytes (DataFile.encode { comment := commentTag ++ text, data := B64.encode payload }) =
      .ok { comment := text, data := payload } := by
  have hok : (commentLine text false).Ok := by
    refine ⟨?_, ?_, ?_⟩
    · simp only [commentLine]
      intro hm
      rcases List.mem_append.mp hm with hm | hm
      · revert hm; decide
      · exact hnl hm
    · simp only [commentLine]
      rw [List.getLast?_append]
      cases hl : text.getLast? with
      | none => decide
      | some x => rw [hl] at hcr; simpa using hcr
    · simpa [Line.raw, commentLine] using hc
  have heq : DataFile.encode { comment := commentTag ++ text, data := B64.encode payload } =
      (commentLine text false).render ++ (B64.encode payload ++ 10 :: []) := by
    simp [DataFile.encode, Line.render, Line.raw, commentLine]
  rw [← encode_eq_base64] at hp
  rw [heq, readDataFileBytes, scanLoop_comment (tok := text) (scanLine_render _ hok _),
    scanLoop_data (scanLine_line (encode_not_nl_mem payload) hp)
      (by rw [dropCR_of_not (encode_last_ne_cr _)]; exact encode_not_comment _)]
  simp only [dropCR_of_not (encode_last_ne_cr payload), decodeString_encode]
  rfl

/-- If the comment text ends with CR, this CR is dropped from the reported comment; the payload is not affected. -/
theorem C08_trailing_cr (text payload : Bytes) (hnl : 10 ∉ text)
    (hc : commentTag.length + text.length < 65536) (hp : (base64 payload).length < 65536) :
    readDataFileBytes (DataFile.encode { comment := commentTag ++ text, data := B64.encode payload }) =
      .ok { comment := dropCR text, data := payload } := by
  rw [← encode_eq_base64] at hp
  have hn : 10 ∉ commentPrefix ++ text := by
    intro hm
    rcases List.mem_append.mp hm with hm | hm
    · revert hm; decide
    · exact hnl hm
  have h1 := scanLine_line (rest := B64.encode payload ++ 10 :: []) hn (by rw [List.length_append]; exact hc)
  rw [dropCR_prefix] at h1
  have heq : DataFile.encode { comment := commentTag ++ text, data := B64.encode payload } =
      (commentPrefix ++ text) ++ 10 :: (B64.encode payload ++ 10 :: []) := by
    simp [DataFile.encode, commentTag, commentPrefix]
  rw [heq, readDataFileBytes, scanLoop_comment h1,
    scanLoop_data (scanLine_line (encode_not_nl_mem payload) hp)
      (by rw [dropCR_of_not (encode_last_ne_cr _)]; exact encode_not_comment _)]
  simp only [dropCR_of_not (encode_last_ne_cr payload), decodeString_encode]
  rfl

example : 10 ∉ b!"signify public key" ∧ (b!"signify public key").getLast? ≠ some 13 ∧
    commentTag.length + (b!"signify public key").length < 65536 ∧ (B64.encode (List.replicate 42 7)).length < 65536 := by
  decide +kernel

/-! ### C09 -/

/-- C09: comment lines before the data line (LF or CRLF) and anything after it do not influence the data; the comment is the
concatenation of the comment texts. The data line is any line without comment prefix. -/
theorem C09_framing (cs : List (Bytes × Bool)) (hcs : ∀ c ∈ cs, (commentLine c.1 c.2).Ok) (dl : Line) (hdl : dl.Ok)
    (hnc : ¬ commentTag <+: dl.text) (junk : Bytes) :
    readDataFileBytes (renderAll (cs.map fun c => commentLine c.1 c.2) ++ dl.render ++ junk) =
      match readDataFileBytes (dl.text ++ [10]) with
      | .ok d => .ok { comment := (cs.map (·.1)).flatten, data := d.data }
      | r => r := by
  have hp : commentPrefix.isPrefixOf dl.text = false := by
    cases h : commentPrefix.isPrefixOf dl.text with
    | false => rfl
    | true => exact absurd (List.isPrefixOf_iff_prefix.mp h) hnc
  have hlen : dl.text.length < 65536 := by
    have := hdl.short; unfold Line.raw at this; simp only [List.length_append] at this; omega
  have h1 : scanLoop [] [] (dl.text ++ [10]) = (dl.text, []) := by
    have := scanLine_line (rest := []) hdl.noNL hlen
    rw [dropCR_of_not hdl.noCR] at this
    exact scanLoop_data this hp
  have h2 : scanLoop [] [] (renderAll (cs.map fun c => commentLine c.1 c.2) ++ dl.render ++ junk) =
      (dl.text, (cs.map (·.1)).flatten) := by
    rw [List.append_assoc, scanLoop_comments cs hcs, scanLoop_data (scanLine_render dl hdl junk) hp]
    simp
  rw [readDataFileBytes, readDataFileBytes, h1, h2]
  simp only
  cases B64.decodeString dl.text <;> rfl

/-- C09: the same when the data line is the last line of the file and has no newline. -/
theorem C09_unterminated (cs : List (Bytes × Bool)) (hcs : ∀ c ∈ cs, (commentLine c.1 c.2).Ok) (t : Bytes)
    (hnl : 10 ∉ t) (hcr : t.getLast? ≠ some 13) (hne : t ≠ []) (hlen : t.length < 65536) (hnc : ¬ commentTag <+: t) :
    readDataFileBytes (renderAll (cs.map fun c => commentLine c.1 c.2) ++ t) =
      match readDataFileBytes (t ++ [10]) with
      | .ok d => .ok { comment := (cs.map (·.1)).flatten, data := d.data }
      | r => r := by
  have hp : commentPrefix.isPrefixOf t = false := by
    cases h : commentPrefix.isPrefixOf t with
    | false => rfl
    | true => exact absurd (List.isPrefixOf_iff_prefix.mp h) hnc
  have h1 : scanLoop [] [] (t ++ [10]) = (t, []) := by
    have := scanLine_line (rest := []) hnl hlen
    rw [dropCR_of_not hcr] at this
    exact scanLoop_data this hp
  have h2 : scanLoop [] [] (renderAll (cs.map fun c => commentLine c.1 c.2) ++ t) = (t, (cs.map (·.1)).flatten) := by
    have := scanLine_last hnl hne hlen
    rw [dropCR_of_not hcr] at this
    rw [scanLoop_comments cs hcs, scanLoop_data this hp]
    simp
  rw [readDataFileBytes, readDataFileBytes, h1, h2]
  simp only
  cases B64.decodeString t <;> rfl

/-- Non-vacuity: two comment lines, one with CRLF, data "QUJD" with CRLF, and junk. -/
example : (∀ c ∈ [(b!"x", true), (b!"y", false)], (commentLine c.1 c.2).Ok) ∧ ({ text := b!"QUJD", crlf := true } : Line).Ok ∧
    ¬ commentTag <+: b!"QUJD" ∧ readDataFileBytes (b!"QUJD" ++ [10]) = .ok { comment := [], data := b!"ABC" } := by
  refine ⟨?_, ⟨by decide, by decide, by decide⟩, by decide, ?_⟩
  · intro c hc
    simp only [List.mem_cons, List.not_mem_nil, or_false] at hc
    rcases hc with rfl | rfl <;> exact ⟨by decide, by decide, by decide⟩
  · have : scanLine (b!"QUJD" ++ [10]) = some (b!"QUJD", []) := by decide +kernel
    rw [readDataFileBytes, scanLoop_data this (by decide)]
    have := decodeString_encode b!"ABC"
    rw [show B64.encode b!"ABC" = b!"QUJD" by decide +kernel] at this
    simp only [this]

/-! ### C10 -/

/-- C10: a file made of at least one comment line, and nothing else, is an error. -/
theorem C10_only_comments (cs : List (Bytes × Bool)) (hcs : ∀ c ∈ cs, (commentLine c.1 c.2).Ok) (hne : cs ≠ []) :
    readDataFileBytes (renderAll (cs.map fun c => commentLine c.1 c.2)) = .err .corruptBase64 := by
  have := scanLoop_comments cs hcs [] [] []
  rw [List.append_nil, scanLoop_eof] at this
  rw [readDataFileBytes, this]
  cases hl : cs.getLast? with
  | none => simp at hl; exact absurd hl hne
  | some c => simp only [show commentTag = commentPrefix from rfl, decodeString_comment]

/-- C10: the same if the last comment line has no newline. -/
theorem C10_unterminated (cs : List (Bytes × Bool)) (hcs : ∀ c ∈ cs, (commentLine c.1 c.2).Ok) (t : Bytes)
    (hnl : 10 ∉ t) (hlen : commentTag.length + t.length < 65536) :
    readDataFileBytes (renderAll (cs.map fun c => commentLine c.1 c.2) ++ (commentTag ++ t)) = .err .corruptBase64 := by
  have hn : 10 ∉ commentPrefix ++ t := by
    intro hm
    rcases List.mem_append.mp hm with hm | hm
    · revert hm; decide
    · exact hnl hm
  have h1 := scanLine_last hn (by simp [commentPrefix]) (by rw [List.length_append]; exact hlen)
  rw [dropCR_prefix] at h1
  rw [readDataFileBytes, scanLoop_comments cs hcs, show commentTag ++ t = commentPrefix ++ t from rfl,
    scanLoop_comment h1, scanLoop_eof]
  simp only [decodeString_comment]

example : ∀ c ∈ [(b!"only", false)], (commentLine c.1 c.2).Ok := by
  intro c hc
  simp only [List.mem_cons, List.not_mem_nil, or_false] at hc
  subst hc; exact ⟨by decide, by decide, by decide⟩

/-! ### C11 -/

/-- C11: a line of 64 KiB or more after a comment line is an error. -/
theorem C11_overlong_after_comment (cs : List (Bytes × Bool)) (hcs : ∀ c ∈ cs, (commentLine c.1 c.2).Ok) (hne : cs ≠ [])
    (l rest : Bytes) (hnl : 10 ∉ l) (hlen : 65536 ≤ l.length) (hrest : rest = [] ∨ ∃ t, rest = 10 :: t) :
    readDataFileBytes (renderAll (cs.map fun c => commentLine c.1 c.2) ++ (l ++ rest)) = .err .corruptBase64 := by
  rw [readDataFileBytes, scanLoop_comments cs hcs, scanLoop_none (scanLine_overlong hnl hrest hlen)]
  cases hl : cs.getLast? with
  | none => simp at hl; exact absurd hl hne
  | some c => simp only [show commentTag = commentPrefix from rfl, decodeString_comment]

/-- C11: as the first line it makes the file read as empty data, whatever it and the rest contain. -/
theorem C11_overlong_first (l rest : Bytes) (hnl : 10 ∉ l) (hlen : 65536 ≤ l.length)
    (hrest : rest = [] ∨ ∃ t, rest = 10 :: t) :
    readDataFileBytes (l ++ rest) = .ok { comment := [], data := [] } := by
  rw [readDataFileBytes, scanLoop_none (scanLine_overlong hnl hrest hlen)]
  have := decodeString_encode []
  simp only [show B64.encode [] = [] from rfl] at this
  simp only [this]

example : ∃ l : Bytes, 10 ∉ l ∧ 65536 ≤ l.length :=
  ⟨List.replicate 65536 65, fun h => by have := List.eq_of_mem_replicate h; revert this; decide,
    by rw [List.length_replicate]; exact Nat.le_refl _⟩

/-! ### C12 -/

/-- C12: decoding a payload line never panics, whatever it is. -/
theorem C12_no_panic (line : Bytes) : B64.decodeString line ≠ .panic := decodeString_ne_panic line

/-- C12: reading a data file always returns data or a decoding error. -/
theorem C12_total (file : Bytes) :
    (∃ d, readDataFileBytes file = .ok d) ∨ readDataFileBytes file = .err .corruptBase64 := by
  rw [readDataFileBytes]
  simp only
  cases h : B64.decodeString (scanLoop [] [] file).1 with
  | ok out => exact .inl ⟨_, rfl⟩
  | corrupt => exact .inr rfl
  | panic => exact absurd h (decodeString_ne_panic _)

/-- C12: what the writer encodes decodes to the same bytes. -/
theorem C12_exact (payload : Bytes) : B64.decodeString (base64 payload) = .ok payload := by
  rw [← encode_eq_base64]; exact decodeString_encode payload

/-- C12: distinct payloads have distinct texts. -/
theorem C12_injective (a b : Bytes) (h : base64 a = base64 b) : a = b := by
  have h1 := C12_exact a
  rw [h, C12_exact b] at h1
  exact (B64.Dec.ok.inj h1).symm

end Verif.Props
