/-
Two runs of the same code on related states.
-/
import Verif.Model.Crypto
import Verif.Lemmas.World

namespace Verif

variable {σ τ α β γ : Type}

/-- On related states both actions give the same result and end in related states. -/
def Act.Rel (R : σ → τ → Prop) (a : Act σ α) (b : Act τ α) : Prop :=
  ∀ s t, R s t → (a s).1 = (b t).1 ∧ R (a s).2 (b t).2

namespace Act.Rel

variable {R : σ → τ → Prop}

theorem bind {a : Act σ α} {b : Act τ α} {f : α → Act σ β} {g : α → Act τ β} (h : Act.Rel R a b)
    (hf : ∀ x, Act.Rel R (f x) (g x)) : Act.Rel R (a >>= f) (b >>= g) := by
  intro s t hst
  have h1 := h s t hst
  rw [Act.bind_eq, Act.bind_eq]
  rcases ha : a s with ⟨r, s'⟩
  rcases hb : b t with ⟨r', t'⟩
  rw [ha, hb] at h1
  obtain ⟨h1, h2⟩ := h1
  simp only at h1 h2
  subst h1
  cases r with
  | ok x => exact hf x s' t' h2
  | _ => exact ⟨rfl, h2⟩

theorem pure (x : α) : Act.Rel R (Pure.pure x : Act σ α) (Pure.pure x : Act τ α) := fun _ _ h => ⟨rfl, h⟩
theorem fail (e : GoErr) : Act.Rel R (Act.fail e : Act σ α) (Act.fail e : Act τ α) := fun _ _ h => ⟨rfl, h⟩
theorem panic : Act.Rel R (Act.panic : Act σ α) (Act.panic : Act τ α) := fun _ _ h => ⟨rfl, h⟩
theorem hang : Act.Rel R (Act.hang : Act σ α) (Act.hang : Act τ α) := fun _ _ h => ⟨rfl, h⟩
theorem ofRes (r : Res α) : Act.Rel R (Act.ofRes r : Act σ α) (Act.ofRes r : Act τ α) := fun _ _ h => ⟨rfl, h⟩

end Act.Rel

/-- Equal first components, related second components. -/
def SndRel (R : σ → τ → Prop) (x : γ × σ) (y : γ × τ) : Prop := x.1 = y.1 ∧ R x.2 y.2

namespace Act.Rel

variable {R : σ → τ → Prop}

theorem onSnd {a : Act σ α} {b : Act τ α} (h : Act.Rel R a b) :
    Act.Rel (SndRel R) (Act.onSnd a : Act (γ × σ) α) (Act.onSnd b) := by
  intro s t hst
  have := h _ _ hst.2
  exact ⟨this.1, hst.1, this.2⟩

theorem getFst : Act.Rel (SndRel R) (Act.getFst : Act (γ × σ) γ) Act.getFst := fun s t h => ⟨by simp [h.1], h⟩
theorem setFst (x : γ) : Act.Rel (SndRel R) (Act.setFst x) (Act.setFst x) := fun _ _ h => ⟨rfl, rfl, h.2⟩

theorem encClose {w : Writer σ} {w' : Writer τ} (h : ∀ bs, Act.Rel R (w bs) (w' bs)) :
    Act.Rel (SndRel R) (Verif.encClose w) (Verif.encClose w') := by
  unfold Verif.encClose
  apply bind getFst
  intro e
  split
  · exact bind (onSnd (h _)) fun _ => bind (setFst _) fun _ => bind (onSnd (h _)) fun _ => pure _
  · exact bind (onSnd (h _)) fun _ => pure _

theorem encWriteLoop {w : Writer σ} {w' : Writer τ} (h : ∀ bs, Act.Rel R (w bs) (w' bs)) (k : Nat) (bs : Bytes) :
    Act.Rel (SndRel R) (Verif.encWriteLoop w k bs) (Verif.encWriteLoop w' k bs) := by
  induction bs generalizing k with
  | nil => unfold Verif.encWriteLoop; exact pure _
  | cons b bs ih =>
    unfold Verif.encWriteLoop
    apply bind getFst
    intro e
    dsimp only
    split
    · refine bind (setFst _) fun _ => bind (onSnd (h _)) fun _ => bind (setFst _) fun _ => ?_
      split
      · exact bind (onSnd (h _)) fun _ => bind (setFst _) fun _ => ih _
      · exact ih _
    · exact bind (setFst _) fun _ => ih _

theorem decReadLoop {rd : Reader σ} {rd' : Reader τ} (h : Act.Rel R (rd 1) (rd' 1)) (enclen fuel : Nat) (c : UInt8)
    (buf : Bytes) : Act.Rel R (Verif.decReadLoop rd enclen fuel c buf) (Verif.decReadLoop rd' enclen fuel c buf) := by
  induction fuel generalizing c buf with
  | zero => unfold Verif.decReadLoop; exact hang
  | succ fuel ih =>
    intro s t hst
    unfold Verif.decReadLoop
    by_cases hb : buf.length = enclen
    · simp only [hb, if_true]; exact ⟨trivial, hst⟩
    · simp only [hb, if_false]
      have h1 := h s t hst
      rcases hs : rd 1 s with ⟨r, s'⟩
      rcases ht : rd' 1 t with ⟨r', t'⟩
      rw [hs, ht] at h1
      obtain ⟨h1, h2⟩ := h1
      simp only at h1 h2
      subst h1
      cases r with
      | ok got =>
        simp only
        split
        · exact ih _ _ _ _ h2
        · exact ih _ _ _ _ h2
      | err e => cases e <;> exact ⟨rfl, h2⟩
      | _ => exact ⟨rfl, h2⟩

theorem decRead {rd : Reader σ} {rd' : Reader τ} (h : Act.Rel R (rd 1) (rd' 1)) (fuel n : Nat) :
    Act.Rel R (Verif.decRead fuel rd n) (Verif.decRead fuel rd' n) := by
  unfold Verif.decRead
  refine bind (decReadLoop h _ _ _ _) fun buf => ?_
  split
  · exact pure _
  · exact fail _
  · exact panic

theorem openLoop {rd : Reader σ} {rd' : Reader τ} {w : Writer σ} {w' : Writer τ} (hr : ∀ n, Act.Rel R (rd n) (rd' n))
    (hw : ∀ bs, Act.Rel R (w bs) (w' bs)) (P : Prims) (sh : Arr 32) (n i : Nat) (nonce : Arr 24) :
    Act.Rel R (Verif.openLoop P sh rd w n i nonce) (Verif.openLoop P sh rd' w' n i nonce) := by
  induction n generalizing i nonce with
  | zero => unfold Verif.openLoop; exact pure _
  | succ n ih =>
    unfold Verif.openLoop
    refine bind (hr _) fun chunk => ?_
    split
    · exact fail _
    · exact bind (hw _) fun _ => bind (ofRes _) fun _ => ih _ _

theorem openBox {rd : Reader σ} {rd' : Reader τ} {w : Writer σ} {w' : Writer τ} (hr : ∀ n, Act.Rel R (rd n) (rd' n))
    (hw : ∀ bs, Act.Rel R (w bs) (w' bs)) (P : Prims) {tb : Act σ (Arr 32)} {tb' : Act τ (Arr 32)} (ht : Act.Rel R tb tb') :
    Act.Rel R (Verif.openBox P tb rd w) (Verif.openBox P tb' rd' w') := by
  unfold Verif.openBox
  refine bind ht fun _ => bind (hr _) fun header => ?_
  split
  · exact fail _
  · dsimp only
    split
    · exact fail _
    · exact openLoop hr hw P _ _ _ _

theorem sealLoop {rd : Reader σ} {rd' : Reader τ} {w : Writer σ} {w' : Writer τ} (hr : ∀ n, Act.Rel R (rd n) (rd' n))
    (hw : ∀ bs, Act.Rel R (w bs) (w' bs)) (P : Prims) (sh : Arr 32) (n : Nat) (nonce : Arr 24) :
    Act.Rel R (Verif.sealLoop P sh rd w n nonce) (Verif.sealLoop P sh rd' w' n nonce) := by
  induction n generalizing nonce with
  | zero => unfold Verif.sealLoop; exact pure _
  | succ n ih =>
    unfold Verif.sealLoop
    exact bind (hr _) fun chunk => bind (hw _) fun _ => bind (ofRes _) fun _ => ih _

end Act.Rel

/-- The action on the states that satisfy an invariant. -/
def Act.restrict {I : σ → Prop} (a : Act σ α) (h : Act.Keeps I a) : Act { s // I s } α :=
  fun s => ((a s.1).1, ⟨(a s.1).2, h s.1 s.2⟩)

theorem Act.restrict_rel {I : σ → Prop} (a : Act σ α) (h : Act.Keeps I a) :
    Act.Rel (fun (x : { s // I s }) s => x.1 = s) (Act.restrict a h) a := by
  intro x s hx
  subst hx
  exact ⟨rfl, rfl⟩

end Verif
