/-
What it means for a writer to be observed faithfully and for a reader to deliver a given text; independent of the model of
/repo.
-/
import Verif.Model.Go

namespace Verif.Spec

variable {σ : Type}

/-- `recv` is what the writer has accepted so far: a successful call accepts everything, any other call some prefix. -/
structure Faithful (under : Writer σ) (recv : σ → Bytes) : Prop where
  ok : ∀ bs s n, (under bs s).1 = .ok n → recv (under bs s).2 = recv s ++ bs
  any : ∀ bs s, ∃ k, recv (under bs s).2 = recv s ++ bs.take k

/-- Every call succeeds. -/
def NeverFails (under : Writer σ) : Prop := ∀ bs s, ∃ n, (under bs s).1 = .ok n

/-- Reading one byte at a time delivers the text `left s` and then io.EOF. -/
structure Delivers (rd : Reader σ) (left : σ → Bytes) : Prop where
  eof : ∀ s, left s = [] → ∃ s', rd 1 s = (.err .eof, s') ∧ left s' = []
  byte : ∀ s c t, left s = c :: t → ∃ s', rd 1 s = (.ok [c], s') ∧ left s' = t

/-- The text with the newlines removed. -/
def stripNL (t : Bytes) : Bytes := t.filter (· != 10)

/-- A writer that records what it receives; used for non-vacuity checks. -/
def recorder : Writer Bytes := fun bs s => (.ok bs.length, s ++ bs)

/-- A reader over a byte string; used for non-vacuity checks. -/
def stringReader : Reader Bytes := fun n s => if s = [] then (.err .eof, []) else (.ok (s.take n), s.drop n)

theorem recorder_faithful : Faithful recorder id :=
  ⟨fun _ _ _ _ => rfl, fun bs _ => ⟨bs.length, by simp [recorder]⟩⟩

theorem recorder_neverFails : NeverFails recorder := fun bs _ => ⟨bs.length, rfl⟩

theorem stringReader_delivers : Delivers stringReader id where
  eof := by intro s h; exact ⟨[], by simp_all [stringReader], rfl⟩
  byte := by intro s c t h; exact ⟨t, by simp only [id] at h; subst h; simp [stringReader], rfl⟩

end Verif.Spec
