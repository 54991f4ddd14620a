/-
Lemmas about the decoder of base64/coding.go and the return count of the encoder.
-/
import Verif.Lemmas.Coding

namespace Verif
open Spec B64

variable {σ : Type} {rd : Reader σ} {left : σ → Bytes}

theorem stripNL_cons_nl (t : Bytes) : stripNL (10 :: t) = stripNL t := rfl

theorem stripNL_cons {c : UInt8} (h : c ≠ 10) (t : Bytes) : stripNL (c :: t) = c :: stripNL t := by
  simp [stripNL, h]

theorem stripNL_append (a b : Bytes) : stripNL (a ++ b) = stripNL a ++ stripNL b := by simp [stripNL]

theorem stripNL_eq_self {a : Bytes} (h : ∀ c ∈ a, c ≠ 10) : stripNL a = a := by
  simp only [stripNL, List.filter_eq_self]; intro c hc; simpa using h c hc

theorem decReadLoop_spec (hd : Delivers rd left) (enclen fuel : Nat) (c : UInt8) (buf : Bytes) (s : σ)
    (hfuel : (left s).length < fuel) (hbuf : buf.length ≤ enclen) :
    ∃ s', decReadLoop rd enclen fuel c buf s = (.ok (buf ++ (stripNL (left s)).take (enclen - buf.length)), s') ∧
      stripNL (left s') = (stripNL (left s)).drop (enclen - buf.length) ∧ (left s').length ≤ (left s).length := by
  induction fuel generalizing c buf s with
  | zero => omega
  | succ fuel ih =>
    unfold decReadLoop
    by_cases he : buf.length = enclen
    · refine ⟨s, ?_, ?_, Nat.le_refl _⟩
      · simp [he]
      · simp [he]
    · rw [if_neg he]
      cases hl : left s with
      | nil =>
        obtain ⟨s', h1, h2⟩ := hd.eof s hl
        exact ⟨s', by rw [h1]; simp [stripNL], by simp [h2, stripNL], by simp [h2]⟩
      | cons x t =>
        obtain ⟨s', h1, h2⟩ := hd.byte s x t hl
        rw [hl] at hfuel
        simp only [List.length_cons] at hfuel
        rw [h1]
        show ∃ s'', (if ([x] : Bytes).headD c = 10 then _ else _) = _ ∧ _
        rw [show ([x] : Bytes).headD c = x from rfl]
        by_cases hx : x = 10
        · rw [if_pos hx, hx, stripNL_cons_nl]
          obtain ⟨s'', a1, a2, a3⟩ := ih 10 buf s' (by rw [h2]; omega) hbuf
          rw [h2] at a1 a2 a3
          exact ⟨s'', a1, a2, by simp; omega⟩
        · rw [if_neg hx, stripNL_cons hx]
          obtain ⟨s'', a1, a2, a3⟩ := ih x (buf ++ [x]) s' (by rw [h2]; omega) (by simp; omega)
          rw [h2] at a1 a2 a3
          have : enclen - buf.length = (enclen - (buf ++ [x]).length) + 1 := by simp; omega
          refine ⟨s'', ?_, ?_, by simp; omega⟩
          · rw [a1, this]; simp
          · rw [a2, this]; simp

theorem encode_take (data : Bytes) (n : Nat) (h3 : 3 ∣ n) :
    (encode data).take (encodedLen n) = encode (data.take n) ∧
    (encode data).drop (encodedLen n) = encode (data.drop n) := by
  by_cases hn : data.length ≤ n
  · have hl : (encode data).length ≤ encodedLen n := by
      rw [encode_length]; simp only [encodedLen]; omega
    rw [List.take_of_length_le hl, List.take_of_length_le hn, List.drop_of_length_le hl, List.drop_of_length_le hn]
    simp [encode]
  · have hl : (data.take n).length = n := by simp; omega
    have hel : (encode (data.take n)).length = encodedLen n := by rw [encode_length, hl]
    have := encode_append (data.take n) (data.drop n) (by rw [hl]; exact h3)
    rw [List.take_append_drop] at this
    rw [this, ← hel]
    simp

theorem decRead_spec (hd : Delivers rd left) (fuel n : Nat) (h3 : 3 ∣ n) (data : Bytes) (s : σ)
    (hfuel : (left s).length < fuel) (htext : stripNL (left s) = encode data) :
    ∃ s', decRead fuel rd n s = (.ok (data.take n), s') ∧ stripNL (left s') = encode (data.drop n) ∧
      (left s').length ≤ (left s).length := by
  obtain ⟨s', h1, h2, h3'⟩ := decReadLoop_spec hd (encodedLen n) fuel 0 [] s hfuel (by simp)
  simp only [List.nil_append, List.length_nil, Nat.sub_zero, htext] at h1 h2
  rw [(encode_take data n h3).1] at h1
  rw [(encode_take data n h3).2] at h2
  refine ⟨s', ?_, h2, h3'⟩
  simp only [decRead]
  rw [Act.bind_ok h1, decode_encode _ _ (by simp; omega)]
  rfl

theorem decReadLoop_length (enclen fuel : Nat) (c : UInt8) (buf : Bytes) (s : σ) (hbuf : buf.length ≤ enclen) :
    (∀ out s', decReadLoop rd enclen fuel c buf s = (.ok out, s') → out.length ≤ enclen) ∧
    (∀ s', decReadLoop rd enclen fuel c buf s ≠ (.err .eof, s')) := by
  induction fuel generalizing c buf s with
  | zero => simp [decReadLoop]
  | succ fuel ih =>
    unfold decReadLoop
    by_cases he : buf.length = enclen
    · rw [if_pos he]
      refine ⟨fun out s' h => ?_, by simp⟩
      simp only [Prod.mk.injEq, Res.ok.injEq] at h; rw [← h.1, he]; exact Nat.le_refl _
    · rw [if_neg he]
      rcases rd 1 s with ⟨r, s1⟩
      cases r with
      | ok got =>
        simp only
        split
        · exact ih _ _ _ hbuf
        · exact ih _ _ _ (by simp; omega)
      | err e =>
        cases e <;> simp
        omega
      | _ => simp

theorem decReadLoop_ne_panic (hrd : ∀ s s', rd 1 s ≠ (.panic, s')) (enclen fuel : Nat) (c : UInt8) (buf : Bytes) (s : σ) :
    ∀ s', decReadLoop rd enclen fuel c buf s ≠ (.panic, s') := by
  induction fuel generalizing c buf s with
  | zero => simp [decReadLoop]
  | succ fuel ih =>
    unfold decReadLoop
    by_cases he : buf.length = enclen
    · simp [he]
    · rw [if_neg he]
      rcases hr : rd 1 s with ⟨r, s1⟩
      cases r with
      | ok got =>
        simp only
        split <;> exact ih _ _ _
      | err e => cases e <;> simp
      | panic => exact absurd hr (hrd s s1)
      | _ => simp

section
variable {under : Writer σ}

theorem encWriteLoop_total (hn : NeverFails under) (bs d : Bytes) (k : Nat) (s : σ) :
    ∃ s', encWriteLoop under k bs (stateOf d, s) =
      (.ok (k + 3 * ((d.length + bs.length) / 3 - d.length / 3)), (stateOf (d ++ bs), s')) := by
  induction bs generalizing d k s with
  | nil => exact ⟨s, by simp [encWriteLoop]⟩
  | cons b bs ih =>
    simp only [encWriteLoop]
    rw [Act.bind_ok (Act.getFst_apply _)]
    have happ : d ++ b :: bs = (d ++ [b]) ++ bs := by simp
    have hp := pending_lt d
    have hpl : (stateOf d).pending.length = d.length - d.length / 3 * 3 := by simp [stateOf]
    by_cases h3 : ((stateOf d).pending ++ [b]).length = 3
    · rw [if_pos h3]
      obtain ⟨hst, -⟩ := step_full d b h3
      obtain ⟨n1, hu1⟩ := hn (encode ((stateOf d).pending ++ [b])) s
      simp only [List.length_append, List.length_singleton] at h3
      have hdiv : (d ++ [b]).length / 3 = d.length / 3 + 1 := by simp; omega
      have hcount : ∀ k, k + 3 + 3 * (((d ++ [b]).length + bs.length) / 3 - (d ++ [b]).length / 3) =
          k + 3 * ((d.length + (b :: bs).length) / 3 - d.length / 3) := by
        intro k; rw [hdiv]; simp; omega
      rw [Act.bind_ok (Act.setFst_apply _ _)]
      rw [Act.bind_eq, Act.onSnd_apply]
      simp only [hu1]
      rw [Act.bind_ok (Act.setFst_apply _ _)]
      by_cases hl : (stateOf d).line + 3 = decodedSize
      · rw [if_pos hl]
        obtain ⟨n2, hu2⟩ := hn [10] (under (encode ((stateOf d).pending ++ [b])) s).2
        rw [Act.bind_eq, Act.onSnd_apply]
        simp only [hu2]
        rw [Act.bind_ok (Act.setFst_apply _ _)]
        simp only [hl, if_true] at hst
        rw [← hst]
        obtain ⟨s', h⟩ := ih (d ++ [b]) (k + 3) (under [10] (under (encode ((stateOf d).pending ++ [b])) s).2).2
        exact ⟨s', by rw [h, hcount, happ]⟩
      · rw [if_neg hl]
        simp only [hl, if_false] at hst
        rw [← hst]
        obtain ⟨s', h⟩ := ih (d ++ [b]) (k + 3) (under (encode ((stateOf d).pending ++ [b])) s).2
        exact ⟨s', by rw [h, hcount, happ]⟩
    · rw [if_neg h3, Act.bind_ok (Act.setFst_apply _ _)]
      obtain ⟨hst, -⟩ := step_partial d b h3
      rw [← hst]
      obtain ⟨s', h⟩ := ih (d ++ [b]) k s
      refine ⟨s', ?_⟩
      simp only [List.length_append, List.length_singleton] at h3
      rw [h, happ]
      congr 3
      simp; omega

theorem writeAll_total (hn : NeverFails under) (ps : List Bytes) (d : Bytes) (s : σ) :
    ∃ s', writeAll under ps (stateOf d, s) = (.ok (), (stateOf (d ++ ps.flatten), s')) := by
  induction ps generalizing d s with
  | nil => exact ⟨s, by simp [writeAll]⟩
  | cons p ps ih =>
    obtain ⟨s1, h1⟩ := encWriteLoop_total hn p d 0 s
    obtain ⟨s2, h2⟩ := ih (d ++ p) s1
    refine ⟨s2, ?_⟩
    simp only [writeAll, encWrite]
    rw [Act.bind_ok h1, h2]; simp

theorem encClose_total (hn : NeverFails under) (e : EncState) (s : σ) :
    (encClose under (e, s)).1 = .ok () := by
  simp only [encClose]
  rw [Act.bind_ok (Act.getFst_apply _)]
  simp only
  split
  · obtain ⟨n1, hu1⟩ := hn (encode e.pending) s
    rw [Act.bind_eq, Act.onSnd_apply]
    simp only [hu1]
    rw [Act.bind_ok (Act.setFst_apply _ _)]
    obtain ⟨n2, hu2⟩ := hn [10] (under (encode e.pending) s).2
    rw [Act.bind_eq, Act.onSnd_apply]
    simp only [hu2]
    rfl
  · obtain ⟨n2, hu2⟩ := hn [10] s
    rw [Act.bind_eq, Act.onSnd_apply]
    simp only [hu2]
    rfl

theorem encodeSession_total (hn : NeverFails under) (ps : List Bytes) (s : σ) :
    (encodeSession under ps (EncState.new, s)).1 = .ok () := by
  obtain ⟨s1, h1⟩ := writeAll_total hn ps [] s
  rw [stateOf_nil] at h1
  simp only [encodeSession]
  rw [Act.bind_ok h1]
  exact encClose_total hn _ _

end

/-- The text of complete lines of 72 characters. -/
theorem brk_lines (t : Bytes) (hnl : ∀ c ∈ t, c ≠ 10) :
    ∃ lines : List Bytes, ∃ last : Bytes, brk t = (lines.map (· ++ [10])).flatten ++ last ∧
      (∀ l ∈ lines, l.length = 72 ∧ 10 ∉ l) ∧ last.length < 72 ∧ 10 ∉ last ∧ lines.flatten ++ last = t := by
  induction hn : t.length using Nat.strongRecOn generalizing t with
  | ind n ih =>
    have hnot : 10 ∉ t := fun h => hnl 10 h rfl
    by_cases hl : t.length < 72
    · exact ⟨[], t, by rw [brk_short hl]; simp, by simp, hl, hnot, by simp⟩
    · have hl : 72 ≤ t.length := by omega
      obtain ⟨lines, last, h1, h2, h3, h4, h5⟩ := ih (t.drop 72).length (by simp; omega) (t.drop 72)
        (fun c hc => hnl c (List.mem_of_mem_drop hc)) rfl
      refine ⟨t.take 72 :: lines, last, ?_, ?_, h3, h4, ?_⟩
      · rw [brk_long hl, h1]; simp
      · intro l hl'
        rcases List.mem_cons.mp hl' with h | h
        · subst h; exact ⟨by simp; omega, fun h => hnot (List.mem_of_mem_take h)⟩
        · exact h2 l h
      · rw [List.flatten_cons, List.append_assoc, h5, List.take_append_drop]

theorem mod4_of_brk {lines : List Bytes} {last t : Bytes} (h : ∀ l ∈ lines, l.length = 72 ∧ 10 ∉ l)
    (he : lines.flatten ++ last = t) : t.length % 4 = last.length % 4 := by
  induction lines generalizing t with
  | nil => simp at he; rw [he]
  | cons l ls ih =>
    have h1 := (h l (by simp)).1
    have := ih (fun l' hl' => h l' (List.mem_cons_of_mem _ hl')) rfl
    rw [← he]; simp at this ⊢; omega

end Verif
