/-
What `Private.ToBox` does.
-/
import Verif.Lemmas.Sign

namespace Verif
open World Spec

theorem toBox_checked (P : Prims) (priv : Private) (w : World) (h : priv.check P = .ok ()) :
    Private.toBox P (priv, w) = (.ok (boxScalar P priv.key).1, (priv, w)) := by
  simp only [Private.toBox, Act.bind_eq, Act.getFst_apply, h, Act.pure_apply]

/-- The world after a passphrase was typed. -/
def typed (w : World) (pw : Bytes) (rest : List (Option Bytes)) : World :=
  { w with prompts := w.prompts ++ [false], tty := rest, bufs := w.bufs ++ [pw],
           stdout := w.stdout ++ b!"Password: " ++ b!"\n" }

theorem toBox_typed (P : Prims) (priv : Private) (w : World) {pw rest} (h : priv.check P ≠ .ok ())
    (ht : w.tty = some pw :: rest) :
    Private.toBox P (priv, w) =
      ((Private.decrypt P pw priv).1 >>= fun _ => .ok (boxScalar P (Private.decrypt P pw priv).2.key).1,
        ((Private.decrypt P pw priv).2, typed w pw rest)) := by
  have hc : priv.check P = .err .badChecksum := by
    rcases check_cases P priv with h' | h'
    · exact absurd h' h
    · exact h'
  have hg : World.getBuf w.bufs.length (typed w pw rest) = (.ok pw, typed w pw rest) := by simp [World.getBuf, typed]
  have hp : passphrasePrompt false w = (.ok w.bufs.length, typed w pw rest) := passphrasePrompt_some ht
  rcases decrypt_clean P pw priv with hd | ⟨e, hd⟩ <;>
    simp only [Private.toBox, Act.bind_eq, Act.getFst_apply, hc, Act.onSnd_apply, hp, hg, Act.setFst_apply,
      Act.ofRes_apply, hd, Act.pure_apply, Res.bind_ok, Res.bind_err]

theorem toBox_noPrompt (P : Prims) (priv : Private) (w : World) (h : priv.check P ≠ .ok ())
    (ht : w.tty = [] ∨ ∃ rest, w.tty = none :: rest) :
    (Private.toBox P (priv, w)).1 = .err .io ∧ (Private.toBox P (priv, w)).2.1 = priv := by
  have hc : priv.check P = .err .badChecksum := by
    rcases check_cases P priv with h' | h'
    · exact absurd h' h
    · exact h'
  rcases ht with ht | ⟨rest, ht⟩
  · simp only [Private.toBox, Act.bind_eq, Act.getFst_apply, hc, Act.onSnd_apply, passphrasePrompt_nil ht, and_self]
  · simp only [Private.toBox, Act.bind_eq, Act.getFst_apply, hc, Act.onSnd_apply, passphrasePrompt_none ht, and_self]

theorem boxScalar_eq (P : Prims) (key : Arr 64) : (boxScalar P key).1 = boxSecret P (key.toList.take 32) := by
  unfold boxScalar boxSecret
  generalize P.sha512 (key.toList.take 32) = d
  apply Vector.ext
  intro i hi
  have hget : ∀ v : Arr 64, v.toList.getD i 0 = v[i] := by
    intro v
    rw [List.getD_eq_getElem?_getD, List.getElem?_eq_getElem (by simp; omega), Option.getD_some, Vector.getElem_toList]
  simp only [copyZ, Vector.getElem_ofFn, hget, Vector.getElem_set]
  by_cases h0 : i = 0
  · subst h0; simp
  · by_cases h31 : i = 31
    · subst h31; simp
    · simp [h0, h31, Ne.symm h0, Ne.symm h31]

/-- The conversion of a public key depends only on its key bytes. -/
theorem toBox_key {pub pub' : Public} (h : pub.key = pub'.key) : pub.toBox = pub'.toBox := congrArg Public.toBoxBytes h

/-- `ToBox` changes nothing but the terminal side of the world. -/
theorem toBox_world (P : Prims) (priv : Private) (w : World) :
    ∃ a b c d, (Private.toBox P (priv, w)).2.2 = { w with prompts := a, tty := b, bufs := c, stdout := d } := by
  by_cases h : priv.check P = .ok ()
  · rw [toBox_checked P priv w h]; exact ⟨_, _, _, _, rfl⟩
  · cases ht : w.tty with
    | nil =>
      have hc : priv.check P = .err .badChecksum := (check_cases P priv).resolve_left h
      simp only [Private.toBox, Act.bind_eq, Act.getFst_apply, hc, Act.onSnd_apply, passphrasePrompt_nil ht]
      exact ⟨_, _, _, _, rfl⟩
    | cons x rest =>
      cases x with
      | none =>
        have hc : priv.check P = .err .badChecksum := (check_cases P priv).resolve_left h
        simp only [Private.toBox, Act.bind_eq, Act.getFst_apply, hc, Act.onSnd_apply, passphrasePrompt_none ht]
        exact ⟨_, _, _, _, rfl⟩
      | some pw => rw [toBox_typed P priv w h ht]; exact ⟨_, _, _, _, rfl⟩

theorem toBox_ok_iff (P : Prims) (priv : Private) (w : World) (k : Arr 32) :
    (Private.toBox P (priv, w)).1 = .ok k ↔ BoxUsable P w.tty priv k := by
  have hiff := check_ok_iff P priv
  unfold BoxUsable
  simp only [ne_eq, ← hiff]
  by_cases h : priv.check P = .ok ()
  · rw [toBox_checked P priv w h, boxScalar_eq]
    simp only [h, Res.ok.injEq, true_and, not_true_eq_false, false_and, or_false]
    exact eq_comm
  · simp only [h, false_and, false_or, not_false_eq_true, true_and]
    rcases ht : w.tty with _ | ⟨_ | pw, rest⟩
    · rw [(toBox_noPrompt P priv w h (.inl ht)).1]; simp
    · rw [(toBox_noPrompt P priv w h (.inr ⟨rest, ht⟩)).1]; simp
    · rw [toBox_typed P priv w h ht]
      simp only [List.cons.injEq, Option.some.injEq, boxScalar_eq]
      constructor
      · intro hk
        refine ⟨pw, rest, ⟨rfl, rfl⟩, ?_⟩
        rcases decrypt_clean P pw priv with hd | ⟨e, hd⟩
        · rw [hd] at hk
          obtain rfl := Res.ok.inj hk
          by_cases h0 : priv.kdfRounds = 0
          · left; rw [decrypt_plain P pw h0]; exact ⟨h0, rfl⟩
          · right
            exact ⟨h0, _, (decrypt_ok_iff P pw h0).mp (Prod.ext hd rfl), rfl⟩
        · rw [hd] at hk; simp at hk
      · rintro ⟨pw', rest', ⟨rfl, rfl⟩, ⟨h0, rfl⟩ | ⟨h0, priv', hu, rfl⟩⟩
        · rw [decrypt_plain P _ h0]; rfl
        · rw [(decrypt_ok_iff P _ h0).mpr hu]; rfl

end Verif
