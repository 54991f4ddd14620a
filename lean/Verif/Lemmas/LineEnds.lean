/-
Lemmas about converted line ends: data files, base64 decoding, `Open`.
-/
import Verif.Spec.LineEnds
import Verif.Lemmas.DataFile
import Verif.Lemmas.OpenFile

namespace Verif
open B64 Spec World

theorem toCRLF_append (a b : Bytes) : toCRLF (a ++ b) = toCRLF a ++ toCRLF b := by
  unfold toCRLF; rw [List.flatMap_append]

theorem toCRLF_nl (t : Bytes) : toCRLF (10 :: t) = 13 :: 10 :: toCRLF t := rfl

theorem toCRLF_of_not_mem {t : Bytes} (h : 10 ∉ t) : toCRLF t = t := by
  induction t with
  | nil => rfl
  | cons c cs ih =>
    rw [List.mem_cons, not_or] at h
    unfold toCRLF at ih ⊢
    rw [List.flatMap_cons, if_neg (fun h0 => h.1 h0.symm), ih h.2]
    rfl

/-- Number of characters that the base64 decoder does not skip. -/
def symbols (src : Bytes) : Nat := (src.filter fun c => !isNL c).length

theorem symbols_cons (c : UInt8) (cs : Bytes) : symbols (c :: cs) = (if isNL c then 0 else 1) + symbols cs := by
  unfold symbols
  cases h : isNL c <;> simp [h]; omega

theorem symbols_dropWhile (cs : Bytes) : symbols (cs.dropWhile isNL) = symbols cs := by
  induction cs with
  | nil => rfl
  | cons c cs ih =>
    cases h : isNL c with
    | true => rw [List.dropWhile_cons_of_pos h, ih, symbols_cons, h]; simp
    | false => rw [List.dropWhile_cons_of_neg (by simp [h])]

theorem isNL_of_decChar {c : UInt8} {v : Nat} (h : decChar c = some v) : isNL c = false := by
  cases hc : isNL c with
  | false => rfl
  | true =>
    unfold isNL at hc
    simp only [Bool.or_eq_true, beq_iff_eq] at hc
    rcases hc with rfl | rfl <;> · exfalso; revert h; revert v; decide

theorem quantum_symbols (acc : List Nat) (src : Bytes) (hacc : acc.length ≤ 3) :
    (∀ out rest, quantum acc src = .full out rest → out.length = 3 ∧ symbols rest + 4 ≤ symbols src + acc.length) ∧
    (∀ out t, quantum acc src = .last out t → out.length ≤ 2 ∧ 4 ≤ symbols src + acc.length) := by
  induction src generalizing acc with
  | nil => unfold quantum; split <;> simp
  | cons c cs ih =>
    unfold quantum
    split
    · rename_i v hv
      have hs : symbols (c :: cs) = 1 + symbols cs := by rw [symbols_cons, isNL_of_decChar hv]; simp
      rw [hs]
      split
      · refine ⟨fun out rest h => ?_, by simp⟩
        simp only [Quantum.full.injEq] at h
        obtain ⟨rfl, rfl⟩ := h
        exact ⟨rfl, by simp; omega⟩
      · rename_i hne
        have hlt : acc.length ≤ 2 := by
          rcases acc with _ | ⟨a, _ | ⟨b, _ | ⟨d, _ | ⟨e, t⟩⟩⟩⟩ <;> simp_all
        have := ih (acc ++ [v]) (by simp; omega)
        refine ⟨fun out rest h => ?_, fun out t h => ?_⟩
        · have := this.1 out rest h; simp at this ⊢; omega
        · have := this.2 out t h; simp at this ⊢; omega
    · split
      · rename_i hc
        have hs : symbols (c :: cs) = symbols cs := by rw [symbols_cons, if_pos hc]; omega
        rw [hs]
        exact ih acc hacc
      · rename_i hc
        have hs : symbols (c :: cs) = 1 + symbols cs := by rw [symbols_cons, if_neg hc]
        rw [hs]
        split
        · simp
        · split
          · split
            · simp
            · rename_i c2 rest2 hdw
              have hl := symbols_dropWhile cs
              rw [hdw, symbols_cons] at hl
              split
              · simp
              · rename_i hp
                have hp : c2 = padChar := by simpa using hp
                subst hp
                rw [show isNL padChar = false by decide] at hl
                simp only [Bool.false_eq_true, if_false] at hl
                refine ⟨by simp, fun out t h => ?_⟩
                simp only [Quantum.last.injEq] at h
                obtain ⟨rfl, rfl⟩ := h
                simp [groupBytes]; omega
          · refine ⟨by simp, fun out t h => ?_⟩
            simp only [Quantum.last.injEq] at h
            obtain ⟨rfl, rfl⟩ := h
            simp [groupBytes]
          · simp

theorem decodeLoop_symbols (cap : Nat) (out src r : Bytes) (h : decodeLoop cap out src = .ok r) :
    4 * r.length ≤ 4 * out.length + 3 * symbols src := by
  induction hn : src.length using Nat.strongRecOn generalizing out src with
  | ind n ih =>
    have hq := quantum_symbols [] src (by simp)
    rw [decodeLoop] at h
    split at h
    · obtain rfl := Dec.ok.inj h; omega
    · simp at h
    · rename_i bs rest he
      have h1 := hq.1 _ _ he
      have h2 := quantum_full_lt he
      split at h
      · have := ih rest.length (by omega) _ _ h rfl
        simp at this h1; omega
      · simp at h
    · rename_i bs t he
      have h1 := hq.2 _ _ he
      split at h
      · split at h
        · simp at h
        · obtain rfl := Dec.ok.inj h
          simp at h1 ⊢; omega
      · simp at h

/-- A block of 96 characters among which is a CR decodes to fewer than 72 bytes, if at all. -/
theorem decode_cr_short (cap : Nat) (src out : Bytes) (h : decode cap src = .ok out) (hl : src.length ≤ 96) (hcr : 13 ∈ src) :
    out.length < 72 := by
  have h1 := decodeLoop_symbols cap [] src out h
  have h2 : symbols src < src.length := by
    unfold symbols
    rw [List.length_filter_lt_length_iff_exists]
    exact ⟨13, hcr, by decide⟩
  simp at h1; omega

/-- If a CR is among the first 96 characters that are no newlines, the header is not read: the destination stays empty. -/
theorem openTail_cr (P : Prims) (fuel : Nat) (priv : Private) {w0 w : World} {ep mp : Path} {mode hE hM : Nat} {d : Bytes}
    (hne : hE ≠ hM) (hfe : ∃ fe, w0.fs ep = some fe) (hO : Opening w0 ep mp mode hE hM d w)
    (hr : 13 ∈ (stripNL (remaining hE w)).take 96) :
    (openTail P fuel priv hE hM w).1 ≠ .ok () ∧ Opening w0 ep mp mode hE hM d (openTail P fuel priv hE hM w).2 := by
  unfold openTail openBox
  rw [Act.bind_eq]
  obtain ⟨hO1, hr1⟩ := hO.toBox P (priv := priv)
  rcases h1 : Private.toBox P (priv, w) with ⟨r1, k1, w1⟩
  rw [h1] at hO1 hr1
  simp only at hO1 hr1
  cases r1 with
  | err e => exact ⟨by simp, hO1⟩
  | panic => exact ⟨by simp, hO1⟩
  | crash => exact ⟨by simp, hO1⟩
  | hang => exact ⟨by simp, hO1⟩
  | ok edpriv =>
    simp only
    rw [Act.bind_eq, Act.onSnd_apply]
    obtain ⟨r2, w2, t, h2, hO2, h3, h4, -⟩ :=
      decReadLoop_on (opening_bytewise hne hfe d) (encodedLen headerSize) fuel 0 [] w1 hO1 (by simp)
    unfold decRead
    rw [Act.bind_eq, h2]
    cases r2 with
    | err e => exact ⟨by simp, hO2⟩
    | panic => exact ⟨by simp, hO2⟩
    | crash => exact ⟨by simp, hO2⟩
    | hang => exact ⟨by simp, hO2⟩
    | ok buf =>
      obtain ⟨rfl, hle, hor⟩ := h4 buf rfl
      rw [List.nil_append] at *
      have h96 : encodedLen headerSize = 96 := by decide
      rw [h96] at hle hor
      have ht : 13 ∈ stripNL t := by
        rw [← hr1, h3, stripNL_append] at hr
        rcases hor with h | h
        · rwa [List.take_append_of_le_length (by omega), List.take_of_length_le (by omega)] at hr
        · rw [h] at hr
          exact List.mem_of_mem_take (by simpa [stripNL] using hr)
      simp only
      cases hd : B64.decode headerSize (stripNL t) with
      | corrupt => exact ⟨by simp [Act.fail], hO2⟩
      | panic => exact ⟨by simp, hO2⟩
      | ok header =>
        have hlt := decode_cr_short _ _ _ hd hle ht
        have hh : header.length ≠ headerSize := by rw [show headerSize = 72 by decide]; omega
        show _ ∧ _
        simp only [Act.pure_apply]
        rw [if_pos hh]
        exact ⟨by simp, hO2⟩

/-- `Open` on such a file, in every world. -/
theorem Open_cr (P : Prims) (fuel : Nat) (kp ep mp : Path) (w : World) {fe : File} {first text : Bytes} (hfe : w.fs ep = some fe)
    (hdata : fe.data = first ++ 10 :: text) (hno : 10 ∉ first) (hcr : 13 ∈ (stripNL text).take 96) :
    (Open P fuel kp ep mp w).1 ≠ .ok () ∧ ((Open P fuel kp ep mp w).2.fs = w.fs ∨
      (Open P fuel kp ep mp w).2.fs = (w.setFile mp ⟨[], (w.truncated mp 0o666).mode⟩).fs) := by
  rcases Open_start P fuel kp ep mp w with ⟨-, h2, h3, -⟩ | ⟨priv, hE, hM, first', text', w', hR, he⟩
  · exact ⟨h2, h3.imp id And.left⟩
  · rw [he]
    obtain ⟨fe', hfe', hdata'⟩ := hR.file
    rw [hfe] at hfe'; obtain rfl := Option.some.inj hfe'
    obtain ⟨rfl, rfl⟩ := firstLine_unique hno hR.noNL (by rw [← hdata, hdata'])
    by_cases hpath : ep = mp
    · obtain ⟨a1, a2⟩ := openTail_empty P fuel priv hR.ne ⟨fe, hfe⟩ hR.opening (by rw [hR.same hpath]; rfl)
      exact ⟨a1, .inr a2.dest.fs⟩
    · obtain ⟨a1, a2⟩ := openTail_cr P fuel priv hR.ne ⟨fe, hfe⟩ hR.opening (by rw [hR.rest hpath]; exact hcr)
      exact ⟨a1, .inr a2.dest.fs⟩

end Verif
