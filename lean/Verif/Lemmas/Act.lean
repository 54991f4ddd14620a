/-
Basic facts about sequencing.
-/
import Verif.Model.Go

namespace Verif

variable {σ τ α β : Type}

namespace Act

theorem bind_eq (a : Act σ α) (f : α → Act σ β) (s : σ) :
    (a >>= f) s = match a s with
      | (.ok x, s') => f x s'
      | (.err e, s') => (.err e, s')
      | (.panic, s') => (.panic, s')
      | (.crash, s') => (.crash, s')
      | (.hang, s') => (.hang, s') := rfl

theorem bind_ok {a : Act σ α} {f : α → Act σ β} {s s' : σ} {x : α} (h : a s = (.ok x, s')) :
    (a >>= f) s = f x s' := by rw [bind_eq, h]

theorem bind_err {a : Act σ α} {f : α → Act σ β} {s s' : σ} {e : GoErr} (h : a s = (.err e, s')) :
    (a >>= f) s = (.err e, s') := by rw [bind_eq, h]

theorem bind_crash {a : Act σ α} {f : α → Act σ β} {s s' : σ} (h : a s = (.crash, s')) :
    (a >>= f) s = (.crash, s') := by rw [bind_eq, h]

@[simp] theorem pure_apply (x : α) (s : σ) : (pure x : Act σ α) s = (.ok x, s) := rfl
@[simp] theorem fail_apply (e : GoErr) (s : σ) : (Act.fail e : Act σ α) s = (.err e, s) := rfl
@[simp] theorem panic_apply (s : σ) : (Act.panic : Act σ α) s = (.panic, s) := rfl
@[simp] theorem hang_apply (s : σ) : (Act.hang : Act σ α) s = (.hang, s) := rfl
@[simp] theorem get_apply (s : σ) : (Act.get : Act σ σ) s = (.ok s, s) := rfl
@[simp] theorem put_apply (s t : σ) : (Act.put t) s = (.ok (), t) := rfl
@[simp] theorem modify_apply (f : σ → σ) (s : σ) : (Act.modify f) s = (.ok (), f s) := rfl
@[simp] theorem getFst_apply (s : σ × τ) : (Act.getFst) s = (.ok s.1, s) := rfl
@[simp] theorem setFst_apply (x : σ) (s : σ × τ) : (Act.setFst x) s = (.ok (), (x, s.2)) := rfl
@[simp] theorem ofRes_apply (r : Res α) (s : σ) : (Act.ofRes r) s = (r, s) := rfl
@[simp] theorem onSnd_apply (a : Act τ α) (s : σ × τ) : (Act.onSnd a) s = ((a s.2).1, (s.1, (a s.2).2)) := rfl

/-- If a sequence succeeds, both parts did. -/
theorem bind_ok_inv {a : Act σ α} {f : α → Act σ β} {s t : σ} {y : β} (h : (a >>= f) s = (.ok y, t)) :
    ∃ x s', a s = (.ok x, s') ∧ f x s' = (.ok y, t) := by
  rw [bind_eq] at h
  rcases ha : a s with ⟨r, s'⟩
  rw [ha] at h
  cases r with
  | ok x => exact ⟨x, s', rfl, h⟩
  | _ => simp at h

end Act

namespace Res

@[simp] theorem bind_ok (x : α) (f : α → Res β) : (Res.ok x >>= f) = f x := rfl
@[simp] theorem bind_err (e : GoErr) (f : α → Res β) : (Res.err e >>= f) = .err e := rfl
@[simp] theorem bind_panic (f : α → Res β) : (Res.panic >>= f) = .panic := rfl
@[simp] theorem bind_crash (f : α → Res β) : (Res.crash >>= f) = .crash := rfl
@[simp] theorem bind_hang (f : α → Res β) : (Res.hang >>= f) = .hang := rfl
@[simp] theorem pure_eq (x : α) : (pure x : Res α) = .ok x := rfl

theorem bind_ok_inv {a : Res α} {f : α → Res β} {y : β} (h : (a >>= f) = .ok y) :
    ∃ x, a = .ok x ∧ f x = .ok y := by
  cases a with
  | ok x => exact ⟨x, rfl, h⟩
  | _ => cases h

/-- The call returns normally, with or without an error. -/
def Clean (r : Res α) : Prop := (∃ x, r = .ok x) ∨ ∃ e, r = .err e

theorem Clean.bind {a : Res α} {f : α → Res β} (h : a.Clean) (hf : ∀ x, (f x).Clean) : (a >>= f).Clean := by
  rcases h with ⟨x, rfl⟩ | ⟨e, rfl⟩
  · exact hf x
  · exact .inr ⟨e, rfl⟩

end Res
end Verif
