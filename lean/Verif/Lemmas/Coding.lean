/-
Lemmas about base64/coding.go.
-/
import Verif.Model.Coding
import Verif.Spec.Stream
import Verif.Lemmas.Base64
import Verif.Lemmas.Act

namespace Verif
open Spec B64

abbrev brk (t : Bytes) : Bytes := breakEvery 72 (by decide) t

theorem brk_short {t : Bytes} (h : t.length < 72) : brk t = t := by
  unfold brk; rw [breakEvery, if_pos h]

theorem brk_long {t : Bytes} (h : 72 ≤ t.length) : brk t = t.take 72 ++ [10] ++ brk (t.drop 72) := by
  show breakEvery 72 _ t = _
  rw [breakEvery, if_neg (by omega)]

theorem brk_append (a g : Bytes) (h : a.length % 72 + g.length ≤ 72) :
    brk (a ++ g) = brk a ++ g ++ (if a.length % 72 + g.length = 72 then [10] else []) := by
  induction hn : a.length using Nat.strongRecOn generalizing a with
  | ind n ih =>
    by_cases hl : a.length < 72
    · rw [Nat.mod_eq_of_lt hl] at h
      subst hn
      rw [brk_short hl, Nat.mod_eq_of_lt hl]
      by_cases he : a.length + g.length = 72
      · rw [brk_long (by simp; omega), if_pos he]
        rw [List.take_of_length_le (by simp; omega), List.drop_of_length_le (by simp; omega)]
        rw [brk_short (by simp)]; simp
      · rw [brk_short (by simp; omega), if_neg he]; simp
    · have hl : 72 ≤ a.length := by omega
      subst hn
      rw [brk_long (t := a ++ g) (by simp; omega), brk_long hl, List.take_append_of_le_length hl,
        List.drop_append_of_le_length hl]
      have hm : (a.drop 72).length % 72 = a.length % 72 := by simp; omega
      rw [ih (a.drop 72).length (by simp; omega) (a.drop 72) (by omega) rfl, hm]
      simp [List.append_assoc]

/-- State of the encoder after the bytes `d` were written. -/
def stateOf (d : Bytes) : EncState := { line := 3 * (d.length / 3 % 18), pending := d.drop (d.length / 3 * 3) }

/-- Text emitted by the encoder after the bytes `d` were written. -/
def emitted (d : Bytes) : Bytes := brk (encode (d.take (d.length / 3 * 3)))

theorem stateOf_nil : stateOf [] = EncState.new := rfl
theorem emitted_nil : emitted [] = [] := by unfold emitted; rw [brk_short (by simp [encode])]; simp [encode]

theorem pending_lt (d : Bytes) : (stateOf d).pending.length < 3 := by simp [stateOf]; omega

theorem step_partial (d : Bytes) (b : UInt8) (h : ((stateOf d).pending ++ [b]).length ≠ 3) :
    stateOf (d ++ [b]) = { line := (stateOf d).line, pending := (stateOf d).pending ++ [b] } ∧
    emitted (d ++ [b]) = emitted d := by
  have hp := pending_lt d
  simp only [stateOf, List.length_append, List.length_drop, List.length_singleton] at h hp
  have h1 : (d ++ [b]).length / 3 = d.length / 3 := by simp; omega
  constructor
  · simp only [stateOf, h1]
    rw [List.drop_append_of_le_length (by omega)]
  · simp only [emitted, h1]
    rw [List.take_append_of_le_length (by omega)]

theorem step_full (d : Bytes) (b : UInt8) (h : ((stateOf d).pending ++ [b]).length = 3) :
    stateOf (d ++ [b]) = { line := if (stateOf d).line + 3 = decodedSize then 0 else (stateOf d).line + 3, pending := [] } ∧
    emitted (d ++ [b]) = emitted d ++ encode ((stateOf d).pending ++ [b]) ++
      (if (stateOf d).line + 3 = decodedSize then [10] else []) := by
  simp only [stateOf, List.length_append, List.length_drop, List.length_singleton] at h
  have h1 : (d ++ [b]).length / 3 = d.length / 3 + 1 := by simp; omega
  have h2 : (d ++ [b]).length / 3 * 3 = (d ++ [b]).length := by simp; omega
  have hds : decodedSize = 54 := rfl
  have hline : (stateOf d).line = 3 * (d.length / 3 % 18) := rfl
  have hst : stateOf (d ++ [b]) = { line := 3 * ((d.length / 3 + 1) % 18), pending := [] } := by
    simp only [stateOf]
    rw [h2, List.drop_length, h1]
  have hem : emitted (d ++ [b]) = emitted d ++ encode ((stateOf d).pending ++ [b]) ++
      (if d.length / 3 * 4 % 72 + 4 = 72 then [10] else []) := by
    simp only [emitted, stateOf]
    rw [h2, List.take_length]
    conv => lhs; rw [← List.take_append_drop (d.length / 3 * 3) d, List.append_assoc]
    have hl : (d.take (d.length / 3 * 3)).length = d.length / 3 * 3 := by simp; omega
    rw [encode_append _ _ (by rw [hl]; exact Nat.dvd_mul_left 3 _)]
    have hlen : (encode (d.take (d.length / 3 * 3))).length = d.length / 3 * 4 := by
      rw [encode_length, hl, encodedLen]; omega
    have hg : (encode (d.drop (d.length / 3 * 3) ++ [b])).length = 4 := by
      rw [encode_length, encodedLen]; simp; omega
    rw [brk_append _ _ (by rw [hlen, hg]; omega), hlen, hg]
  rw [hst, hem]
  by_cases hc : (stateOf d).line + 3 = decodedSize
  · rw [if_pos hc, if_pos hc, if_pos (by omega)]
    exact ⟨by congr 1; omega, rfl⟩
  · rw [if_neg hc, if_neg hc, if_neg (by omega)]
    exact ⟨by congr 1; omega, rfl⟩

variable {σ : Type} {under : Writer σ} {recv : σ → Bytes}

/-- What a run of the encoder starting with `have_` written may look like: the accepted text is a prefix of the goal, and
equal to it on success. -/
structure Advances (base : Bytes) (recv : σ → Bytes) (s s' : σ) (goal : Bytes) (success : Prop) : Prop where
  pre : ∃ ext, recv s' = recv s ++ ext ∧ base ++ ext <+: goal
  full : success → ∃ ext, recv s' = recv s ++ ext ∧ base ++ ext = goal

theorem encWriteLoop_spec (hf : Faithful under recv) (bs d : Bytes) (k : Nat) (s : σ) :
    let r := encWriteLoop under k bs (stateOf d, s)
    Advances (emitted d) recv s r.2.2 (emitted (d ++ bs)) (∃ n, r.1 = .ok n) ∧
    ((∃ n, r.1 = .ok n) → r.2.1 = stateOf (d ++ bs)) := by
  induction bs generalizing d k s with
  | nil =>
    simp only [encWriteLoop, Act.pure_apply, List.append_nil]
    exact ⟨⟨⟨[], by simp⟩, fun _ => ⟨[], by simp⟩⟩, by simp⟩
  | cons b bs ih =>
    simp only [encWriteLoop]
    rw [Act.bind_ok (Act.getFst_apply _)]
    have happ : d ++ b :: bs = (d ++ [b]) ++ bs := by simp
    have hmono : emitted (d ++ [b]) <+: emitted (d ++ b :: bs) := by
      rw [happ]
      obtain ⟨⟨ext, h1, h2⟩, -⟩ := (ih (d ++ [b]) 0 s).1
      exact (List.prefix_append _ _).trans h2
    by_cases h3 : ((stateOf d).pending ++ [b]).length = 3
    · rw [if_pos h3]
      obtain ⟨hst, hem⟩ := step_full d b h3
      rw [Act.bind_ok (Act.setFst_apply _ _)]
      rw [Act.bind_eq, Act.onSnd_apply]
      simp only
      rcases hu : under (encode ((stateOf d).pending ++ [b])) s with ⟨r1, s1⟩
      have hok1 := hf.ok (encode ((stateOf d).pending ++ [b])) s
      obtain ⟨k1, hany1⟩ := hf.any (encode ((stateOf d).pending ++ [b])) s
      rw [hu] at hok1 hany1
      simp only at hok1 hany1
      have hpre1 : emitted d ++ (encode ((stateOf d).pending ++ [b])).take k1 <+: emitted (d ++ b :: bs) := by
        refine List.IsPrefix.trans ?_ hmono
        rw [hem, List.append_assoc]
        exact (List.prefix_append_right_inj _).mpr ((List.take_prefix _ _).trans (List.prefix_append _ _))
      cases r1 with
      | ok n1 =>
        have hok1 := hok1 n1 rfl
        simp only
        rw [Act.bind_ok (Act.setFst_apply _ _)]
        by_cases hl : (stateOf d).line + 3 = decodedSize
        · simp only [hl, if_true] at hst hem ⊢
          rw [Act.bind_eq, Act.onSnd_apply]
          simp only
          rcases hu2 : under [10] s1 with ⟨r2, s2⟩
          have hok2 := hf.ok [10] s1
          obtain ⟨k2, hany2⟩ := hf.any [10] s1
          rw [hu2] at hok2 hany2
          simp only at hok2 hany2
          have hpre2 : emitted d ++ (encode ((stateOf d).pending ++ [b]) ++ [(10 : UInt8)].take k2) <+:
              emitted (d ++ b :: bs) := by
            refine List.IsPrefix.trans ?_ hmono
            rw [hem, List.append_assoc]
            exact (List.prefix_append_right_inj _).mpr ((List.prefix_append_right_inj _).mpr (List.take_prefix _ _))
          cases r2 with
          | ok n2 =>
            simp only
            rw [Act.bind_ok (Act.setFst_apply _ _)]
            have hih := ih (d ++ [b]) (k + 3) s2
            rw [hst, ← happ] at hih
            obtain ⟨⟨⟨e1, ha1, hb1⟩, hfull⟩, hstate⟩ := hih
            have hok2 := hok2 n2 rfl
            refine ⟨⟨⟨encode ((stateOf d).pending ++ [b]) ++ [10] ++ e1, ?_, ?_⟩, ?_⟩, hstate⟩
            · rw [ha1, hok2, hok1]; simp
            · rw [hem] at hb1; simpa using hb1
            · intro hs
              obtain ⟨e2, ha2, hb2⟩ := hfull hs
              refine ⟨encode ((stateOf d).pending ++ [b]) ++ [10] ++ e2, ?_, ?_⟩
              · rw [ha2, hok2, hok1]; simp
              · rw [hem] at hb2; simpa using hb2
          | _ =>
            refine ⟨⟨⟨_, ?_, hpre2⟩, by simp⟩, by simp⟩
            rw [hany2, hok1]; simp
        · simp only [hl, if_false, List.append_nil] at hst hem ⊢
          have hih := ih (d ++ [b]) (k + 3) s1
          rw [hst, ← happ] at hih
          obtain ⟨⟨⟨e1, ha1, hb1⟩, hfull⟩, hstate⟩ := hih
          refine ⟨⟨⟨encode ((stateOf d).pending ++ [b]) ++ e1, ?_, ?_⟩, ?_⟩, hstate⟩
          · rw [ha1, hok1]; simp
          · rw [hem] at hb1; simpa using hb1
          · intro hs
            obtain ⟨e2, ha2, hb2⟩ := hfull hs
            refine ⟨encode ((stateOf d).pending ++ [b]) ++ e2, ?_, ?_⟩
            · rw [ha2, hok1]; simp
            · rw [hem] at hb2; simpa using hb2
      | _ => exact ⟨⟨⟨_, hany1, hpre1⟩, by simp⟩, by simp⟩
    · rw [if_neg h3, Act.bind_ok (Act.setFst_apply _ _)]
      obtain ⟨hst, hem⟩ := step_partial d b h3
      have hih := ih (d ++ [b]) k s
      rw [hst, hem, ← happ] at hih
      exact hih

/-- All `Write` calls of a caller that stops at the first error. -/
def writeAll (under : Writer σ) : List Bytes → Act (EncState × σ) Unit
  | [] => pure ()
  | p :: ps => do
    let _ ← encWrite under p
    writeAll under ps

theorem writeAll_spec (hf : Faithful under recv) (ps : List Bytes) (d : Bytes) (s : σ) :
    let r := writeAll under ps (stateOf d, s)
    Advances (emitted d) recv s r.2.2 (emitted (d ++ ps.flatten)) (r.1 = .ok ()) ∧
    (r.1 = .ok () → r.2.1 = stateOf (d ++ ps.flatten)) := by
  induction ps generalizing d s with
  | nil =>
    simp only [writeAll, Act.pure_apply, List.flatten_nil, List.append_nil]
    exact ⟨⟨⟨[], by simp⟩, fun _ => ⟨[], by simp⟩⟩, by simp⟩
  | cons p ps ih =>
    simp only [writeAll, encWrite]
    obtain ⟨⟨⟨e1, ha1, hb1⟩, hfull⟩, hstate⟩ := encWriteLoop_spec hf p d 0 s
    rw [Act.bind_eq]
    rcases hw : encWriteLoop under 0 p (stateOf d, s) with ⟨r1, st1, s1⟩
    rw [hw] at ha1 hfull hstate
    have happ : d ++ (p :: ps).flatten = (d ++ p) ++ ps.flatten := by simp
    have hmono : emitted (d ++ p) <+: emitted (d ++ (p :: ps).flatten) := by
      rw [happ]
      obtain ⟨⟨ext, h1, h2⟩, -⟩ := (ih (d ++ p) s).1
      exact (List.prefix_append _ _).trans h2
    cases r1 with
    | ok n =>
      simp only at ha1 hfull hstate ⊢
      obtain ⟨e, ha, hb⟩ := hfull ⟨n, rfl⟩
      rw [hstate ⟨n, rfl⟩, happ]
      obtain ⟨⟨⟨e2, ha2, hb2⟩, hfull2⟩, hstate2⟩ := ih (d ++ p) s1
      refine ⟨⟨⟨e ++ e2, ?_, ?_⟩, ?_⟩, hstate2⟩
      · rw [ha2, ha]; simp
      · rw [← List.append_assoc, hb]; exact hb2
      · intro hs
        obtain ⟨e3, ha3, hb3⟩ := hfull2 hs
        refine ⟨e ++ e3, ?_, ?_⟩
        · rw [ha3, ha]; simp
        · rw [← List.append_assoc, hb]; exact hb3
    | _ => exact ⟨⟨⟨e1, ha1, hb1.trans hmono⟩, by simp⟩, by simp⟩

theorem encodedText_eq (d : Bytes) : encodedText d = emitted d ++ encode (stateOf d).pending ++ [10] := by
  simp [encodedText, emitted, stateOf, encode_eq_base64, brk]

theorem encClose_spec (hf : Faithful under recv) (d : Bytes) (s : σ) :
    let r := encClose under (stateOf d, s)
    Advances (emitted d) recv s r.2.2 (encodedText d) (r.1 = .ok ()) := by
  simp only [encClose]
  rw [Act.bind_ok (Act.getFst_apply _), encodedText_eq]
  simp only
  obtain ⟨k2, hany2⟩ := hf.any [10] s
  split
  · rw [Act.bind_eq, Act.onSnd_apply]
    simp only
    rcases hu : under (encode (stateOf d).pending) s with ⟨r1, s1⟩
    have hok1 := hf.ok (encode (stateOf d).pending) s
    obtain ⟨k1, hany1⟩ := hf.any (encode (stateOf d).pending) s
    rw [hu] at hok1 hany1
    simp only at hok1 hany1
    have hpre1 : emitted d ++ (encode (stateOf d).pending).take k1 <+:
        emitted d ++ encode (stateOf d).pending ++ [10] := by
      rw [List.append_assoc]
      exact (List.prefix_append_right_inj _).mpr ((List.take_prefix _ _).trans (List.prefix_append _ _))
    cases r1 with
    | ok n =>
      have hok1 := hok1 n rfl
      simp only
      rw [Act.bind_ok (Act.setFst_apply _ _), Act.bind_eq, Act.onSnd_apply]
      simp only
      rcases hu2 : under [10] s1 with ⟨r2, s2⟩
      have hok2 := hf.ok [10] s1
      obtain ⟨k2, hany2⟩ := hf.any [10] s1
      rw [hu2] at hok2 hany2
      simp only at hok2 hany2
      have hpre2 : emitted d ++ (encode (stateOf d).pending ++ [(10 : UInt8)].take k2) <+:
          emitted d ++ encode (stateOf d).pending ++ [10] := by
        rw [List.append_assoc]
        exact (List.prefix_append_right_inj _).mpr ((List.prefix_append_right_inj _).mpr (List.take_prefix _ _))
      cases r2 with
      | ok n2 =>
        have hok2 := hok2 n2 rfl
        have hr : recv s2 = recv s ++ (encode (stateOf d).pending ++ [10]) := by rw [hok2, hok1]; simp
        exact ⟨⟨_, hr, by simp⟩, fun _ => ⟨_, hr, by simp⟩⟩
      | _ => exact ⟨⟨_, by rw [hany2, hok1]; simp; rfl, by simpa using hpre2⟩, by simp⟩
    | _ => exact ⟨⟨_, hany1, hpre1⟩, by simp⟩
  · rename_i hp
    have hp : (stateOf d).pending = [] := by simpa using hp
    rw [Act.bind_eq, Act.onSnd_apply, hp]
    simp only
    rcases hu2 : under [10] s with ⟨r2, s2⟩
    have hok2 := hf.ok [10] s
    rw [hu2] at hok2 hany2
    simp only at hok2 hany2
    have hpre2 : emitted d ++ [(10 : UInt8)].take k2 <+: emitted d ++ encode [] ++ [10] := by
      simp only [encode, List.append_nil]
      exact (List.prefix_append_right_inj _).mpr (List.take_prefix _ _)
    cases r2 with
    | ok n2 =>
      have hok2 := hok2 n2 rfl
      exact ⟨⟨_, hok2, by simp [encode]⟩, fun _ => ⟨_, hok2, by simp [encode]⟩⟩
    | _ => exact ⟨⟨_, hany2, hpre2⟩, by simp⟩

/-- A caller that writes everything and then closes, stopping at the first error. -/
def encodeSession (under : Writer σ) (ps : List Bytes) : Act (EncState × σ) Unit := do
  writeAll under ps
  encClose under

theorem encodeSession_spec (hf : Faithful under recv) (ps : List Bytes) (s : σ) :
    let r := encodeSession under ps (EncState.new, s)
    Advances [] recv s r.2.2 (encodedText ps.flatten) (r.1 = .ok ()) := by
  simp only [encodeSession]
  obtain ⟨⟨⟨e1, ha1, hb1⟩, hfull⟩, hstate⟩ := writeAll_spec hf ps [] s
  rw [← stateOf_nil, Act.bind_eq]
  simp only [emitted_nil, List.nil_append] at ha1 hb1 hfull hstate
  rcases hw : writeAll under ps (stateOf [], s) with ⟨r1, st1, s1⟩
  rw [hw] at ha1 hfull hstate
  cases r1 with
  | ok n =>
    simp only at ha1 hfull hstate ⊢
    obtain ⟨e, ha, hb⟩ := hfull trivial
    rw [hstate trivial]
    obtain ⟨⟨e2, ha2, hb2⟩, hfull2⟩ := encClose_spec hf ps.flatten s1
    refine ⟨⟨e ++ e2, ?_, ?_⟩, ?_⟩
    · rw [ha2, ha]; simp
    · rw [List.nil_append, hb]; exact hb2
    · intro hs
      obtain ⟨e3, ha3, hb3⟩ := hfull2 hs
      refine ⟨e ++ e3, ?_, ?_⟩
      · rw [ha3, ha]; simp
      · rw [List.nil_append, hb]; exact hb3
  | _ =>
    refine ⟨⟨e1, ha1, ?_⟩, by simp⟩
    rw [List.nil_append, encodedText_eq, List.append_assoc]
    exact hb1.trans (List.prefix_append _ _)

end Verif
