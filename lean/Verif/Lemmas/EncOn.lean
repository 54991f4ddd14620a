/-
The encoder over a writer that behaves well on the states satisfying an invariant.
-/
import Verif.Lemmas.Rel
import Verif.Lemmas.Decoder

namespace Verif
open Spec B64

variable {σ : Type}

/-- `Faithful`, on the states that satisfy `I`. -/
structure FaithfulOn (I : σ → Prop) (under : Writer σ) (recv : σ → Bytes) : Prop where
  keeps : ∀ bs, Act.Keeps I (under bs)
  ok : ∀ bs s n, I s → (under bs s).1 = .ok n → recv (under bs s).2 = recv s ++ bs
  any : ∀ bs s, I s → ∃ k, recv (under bs s).2 = recv s ++ bs.take k

variable {I : σ → Prop} {under : Writer σ} {recv : σ → Bytes}

/-- The writer on the states that satisfy `I`. -/
def FaithfulOn.sub (h : FaithfulOn I under recv) : Writer { s // I s } := fun bs => Act.restrict (under bs) (h.keeps bs)

theorem FaithfulOn.faithful (h : FaithfulOn I under recv) : Faithful h.sub (fun s => recv s.1) :=
  ⟨fun bs s n => h.ok bs s.1 n s.2, fun bs s => h.any bs s.1 s.2⟩

theorem FaithfulOn.rel (h : FaithfulOn I under recv) (bs : Bytes) :
    Act.Rel (fun (x : { s // I s }) s => x.1 = s) (h.sub bs) (under bs) := Act.restrict_rel _ _

theorem encWrite_on (hf : FaithfulOn I under recv) (bs d : Bytes) (s : σ) (hI : I s) :
    let r := encWrite under bs (stateOf d, s)
    Advances (emitted d) recv s r.2.2 (emitted (d ++ bs)) (∃ n, r.1 = .ok n) ∧
    ((∃ n, r.1 = .ok n) → r.2.1 = stateOf (d ++ bs)) ∧ I r.2.2 := by
  have h1 := encWriteLoop_spec hf.faithful bs d 0 ⟨s, hI⟩
  obtain ⟨hr, he, hs⟩ := Act.Rel.encWriteLoop hf.rel 0 bs (stateOf d, ⟨s, hI⟩) (stateOf d, s) ⟨rfl, rfl⟩
  simp only [encWrite] at *
  rw [← hr, ← he, ← hs]
  obtain ⟨⟨hp, hfl⟩, h2⟩ := h1
  exact ⟨⟨hp, hfl⟩, h2, Subtype.property _⟩

theorem encClose_on (hf : FaithfulOn I under recv) (d : Bytes) (s : σ) (hI : I s) :
    let r := encClose under (stateOf d, s)
    Advances (emitted d) recv s r.2.2 (encodedText d) (r.1 = .ok ()) ∧ I r.2.2 := by
  have h1 := encClose_spec hf.faithful d ⟨s, hI⟩
  obtain ⟨hr, -, hs⟩ := Act.Rel.encClose hf.rel (stateOf d, ⟨s, hI⟩) (stateOf d, s) ⟨rfl, rfl⟩
  simp only at *
  rw [← hr, ← hs]
  obtain ⟨hp, hfl⟩ := h1
  exact ⟨⟨hp, hfl⟩, Subtype.property _⟩

theorem encWrite_on_total (hf : FaithfulOn I under recv) (hn : ∀ bs s, I s → ∃ n, (under bs s).1 = .ok n)
    (bs d : Bytes) (s : σ) (hI : I s) : ∃ n, (encWrite under bs (stateOf d, s)).1 = .ok n := by
  obtain ⟨s', h1⟩ := encWriteLoop_total (under := hf.sub) (fun bs s => hn bs s.1 s.2) bs d 0 ⟨s, hI⟩
  obtain ⟨hr, -, -⟩ := Act.Rel.encWriteLoop hf.rel 0 bs (stateOf d, ⟨s, hI⟩) (stateOf d, s) ⟨rfl, rfl⟩
  rw [h1] at hr
  exact ⟨_, hr.symm⟩

theorem encClose_on_total (hf : FaithfulOn I under recv) (hn : ∀ bs s, I s → ∃ n, (under bs s).1 = .ok n)
    (e : EncState) (s : σ) (hI : I s) : (encClose under (e, s)).1 = .ok () := by
  have h1 := encClose_total (under := hf.sub) (fun bs s => hn bs s.1 s.2) e ⟨s, hI⟩
  obtain ⟨hr, -, -⟩ := Act.Rel.encClose hf.rel (e, ⟨s, hI⟩) (e, s) ⟨rfl, rfl⟩
  rw [← hr, h1]

/-! ### Invariants -/

/-- An action keeps an invariant exactly if it is related to itself on the states satisfying it. -/
theorem Act.keeps_iff_rel {α : Type} {I : σ → Prop} {a : Act σ α} :
    Act.Keeps I a ↔ Act.Rel (fun s t => s = t ∧ I s) a a :=
  ⟨fun h s t ⟨hst, hI⟩ => by subst hst; exact ⟨rfl, rfl, h s hI⟩, fun h s hI => (h s s ⟨rfl, hI⟩).2.2⟩

theorem Act.keeps_of_sndRel {α γ : Type} {I : σ → Prop} {a : Act (γ × σ) α}
    (h : Act.Rel (SndRel fun s t => s = t ∧ I s) a a) : Act.Keeps (fun x => I x.2) a :=
  fun s hI => (h s s ⟨rfl, rfl, hI⟩).2.2.2

theorem Act.sndRel_of_keeps {α γ : Type} {I : σ → Prop} {a : Act (γ × σ) α}
    (h : Act.Keeps (fun x => I x.2) a) : Act.Rel (SndRel fun s t => s = t ∧ I s) a a := by
  rintro ⟨e, s⟩ ⟨e', t⟩ ⟨he, hst, hI⟩
  simp only at he hst hI
  subst he; subst hst
  exact ⟨rfl, rfl, rfl, h _ hI⟩

end Verif
