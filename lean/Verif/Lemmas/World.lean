/-
Lemmas about the operating-system model: what each call can change, under every schedule.
-/
import Verif.Model.World
import Verif.Lemmas.Act

namespace Verif

variable {σ α β : Type}

/-- The invariant is kept by the action, however it ends. -/
def Act.Keeps (I : σ → Prop) (a : Act σ α) : Prop := ∀ s, I s → I (a s).2

namespace Act.Keeps

variable {I : σ → Prop}

theorem bind {a : Act σ α} {f : α → Act σ β} (h : Act.Keeps I a) (hf : ∀ x, Act.Keeps I (f x)) :
    Act.Keeps I (a >>= f) := by
  intro s hs
  have h1 := h s hs
  rw [Act.bind_eq]
  rcases ha : a s with ⟨r, s'⟩
  rw [ha] at h1
  cases r with
  | ok x => exact hf x s' h1
  | _ => exact h1

theorem pure (x : α) : Act.Keeps I (Pure.pure x : Act σ α) := fun _ h => h
theorem fail (e : GoErr) : Act.Keeps I (Act.fail e : Act σ α) := fun _ h => h
theorem ofRes (r : Res α) : Act.Keeps I (Act.ofRes r : Act σ α) := fun _ h => h
theorem hang : Act.Keeps I (Act.hang : Act σ α) := fun _ h => h
theorem panic : Act.Keeps I (Act.panic : Act σ α) := fun _ h => h

theorem deferring {c : σ → σ} {a : Act σ α} (h : Act.Keeps I a) (hc : ∀ s, I s → I (c s)) :
    Act.Keeps I (Act.deferring c a) := by
  intro s hs
  have h1 := h s hs
  simp only [Act.deferring]
  rcases ha : a s with ⟨r, s'⟩
  rw [ha] at h1
  cases r <;> first | exact h1 | exact hc _ h1

end Act.Keeps

/-- From now on every system call succeeds completely. -/
def World.Quiet (w : World) : Prop := ∀ i, w.tick ≤ i → w.sched i = .ok

/-- The new world differs from the old one at most in the files and the call counter. -/
def World.FrameFS (w w' : World) : Prop := w' = { w with fs := w'.fs, tick := w'.tick }

namespace World

theorem setFile_self (w : World) (p : Path) (f : File) : (w.setFile p f).fs p = some f := by simp [setFile]

theorem setFile_other (w : World) {p q : Path} (f : File) (h : q ≠ p) : (w.setFile p f).fs q = w.fs q := by
  simp [setFile, h]

theorem setFile_setFile (w : World) (p : Path) (f g : File) : (w.setFile p f).setFile p g = w.setFile p g := by
  simp only [setFile, World.mk.injEq, and_true]
  funext q
  by_cases h : q = p <;> simp [h]

theorem truncated_data (w : World) (p : Path) (perm : Nat) : (w.truncated p perm).data = [] := by
  unfold truncated; split <;> rfl

/-- Result of reading a file, under any schedule. -/
theorem readFile_spec (p : Path) (w : World) :
    (readFile p w).2 = { w with tick := w.tick + 1 } ∧
    (((∃ f, w.fs p = some f ∧ (readFile p w).1 = .ok f.data)) ∨
      ((readFile p w).1 = .err .io) ∨ ((readFile p w).1 = .crash) ∨
      (w.fs p = none ∧ (readFile p w).1 = .err .notExist)) := by
  unfold readFile
  simp only
  cases hs : w.sched w.tick <;> simp only [reduceCtorEq, and_false, exists_false, or_false, or_true, and_self,
    Res.err.injEq]
  all_goals
    cases hf : w.fs p with
    | none => simp
    | some f => simp

theorem readFile_quiet {p : Path} {w : World} {f : File} (hq : w.Quiet) (h : w.fs p = some f) :
    readFile p w = (.ok f.data, { w with tick := w.tick + 1 }) := by
  unfold readFile
  simp only [hq w.tick (Nat.le_refl _), h]

theorem readFile_quiet_none {p : Path} {w : World} (hq : w.Quiet) (h : w.fs p = none) :
    readFile p w = (.err .notExist, { w with tick := w.tick + 1 }) := by
  unfold readFile
  simp only [hq w.tick (Nat.le_refl _), h]

/-- If a read succeeds it delivers the file. -/
theorem readFile_ok {p : Path} {w w' : World} {d : Bytes} (h : readFile p w = (.ok d, w')) :
    ∃ f, w.fs p = some f ∧ f.data = d ∧ w' = { w with tick := w.tick + 1 } := by
  have h1 := readFile_spec p w
  rw [h] at h1
  rcases h1.2 with ⟨f, h2, h3⟩ | h3 | h3 | ⟨-, h3⟩
  · exact ⟨f, h2, (Res.ok.inj h3).symm, h1.1⟩
  · cases h3
  · cases h3
  · cases h3

theorem Quiet.tick {w : World} (h : w.Quiet) (n : Nat) : Quiet { w with tick := w.tick + n } :=
  fun i hi => h i (Nat.le_trans (Nat.le_add_right _ _) hi)

theorem pokeFile_setFile (w : World) (p : Path) (f : File) (off : Nat) (bs : Bytes) :
    (w.setFile p f).pokeFile p off bs = w.setFile p { f with data := overwrite f.data off bs } := by
  simp only [pokeFile, setFile_self, setFile_setFile]

theorem overwrite_nil (bs : Bytes) : overwrite [] 0 bs = bs := by simp [overwrite]

/-- What a `WriteFile` may leave behind: nothing changed, or the file holds a prefix of the data; on success all of it. -/
structure Wrote (p : Path) (data : Bytes) (perm : Nat) (w : World) (r : Res Unit × World) : Prop where
  frame : w.FrameFS r.2
  fs : (r.2.fs = w.fs ∧ r.1 ≠ .ok ()) ∨
    ∃ k, r.2.fs = (w.setFile p { data := data.take k, mode := (w.truncated p perm).mode }).fs ∧
      (r.1 = .ok () → data.take k = data)

theorem setFile_frame (w : World) (p : Path) (f : File) (t : Nat) :
    w.FrameFS { w.setFile p f with tick := t } := rfl

theorem writeFile_spec (p : Path) (data : Bytes) (perm : Nat) (w : World) :
    Wrote p data perm w (writeFile p data perm w) := by
  unfold writeFile
  rw [Act.bind_eq]
  have hempty : (w.truncated p perm) = { data := data.take 0, mode := (w.truncated p perm).mode } := by
    have := truncated_data w p perm
    cases h : w.truncated p perm with
    | mk d m => rw [h] at this; simp at this; simp [this]
  have hwritten : ∀ (n : Nat) (t : Nat),
      ({ w with tick := t }.setFile p (w.truncated p perm)).pokeFile p 0 (data.take n) =
        { w with tick := t }.setFile p { data := data.take n, mode := (w.truncated p perm).mode } := by
    intro n t
    rw [pokeFile_setFile, truncated_data, overwrite_nil]
  have hfull : ∀ (t : Nat),
      ({ w with tick := t }.setFile p (w.truncated p perm)).pokeFile p 0 data =
        { w with tick := t }.setFile p { data := data, mode := (w.truncated p perm).mode } := by
    intro t
    rw [pokeFile_setFile, truncated_data, overwrite_nil]
  -- the create succeeded: the write and the close
  have hrest : ∀ d, (d = .ok ∨ ∃ n, d = .short n) → w.sched w.tick = d →
      Wrote p data perm w ((do
        let d ← next
        match d with
        | .fail n => fun w => (.err .io, w.pokeFile p 0 (data.take n))
        | .crash n => fun w => (.crash, w.pokeFile p 0 (data.take n))
        | _ => fun w =>
          let w' := w.pokeFile p 0 data
          match w'.sched w'.tick with
          | .fail _ => (.err .io, { w' with tick := w'.tick + 1 })
          | .crash _ => (.crash, { w' with tick := w'.tick + 1 })
          | _ => (.ok (), { w' with tick := w'.tick + 1 }))
        ({ w with tick := w.tick + 1 }.setFile p (w.truncated p perm))) := by
    intro d _ _
    rw [Act.bind_eq]
    simp only [next]
    have ht : ∀ t, { { w with tick := w.tick + 1 }.setFile p (w.truncated p perm) with tick := t } =
        { w with tick := t }.setFile p (w.truncated p perm) := fun t => rfl
    rw [ht]
    have hpartial : ∀ (n : Nat) (r : Res Unit) (hr : r ≠ .ok ()) (t : Nat),
        Wrote p data perm w (r, ({ w with tick := t }.setFile p (w.truncated p perm)).pokeFile p 0 (data.take n)) := by
      intro n r hr t
      rw [hwritten]
      exact ⟨rfl, .inr ⟨n, rfl, fun h => absurd h hr⟩⟩
    have hclose : ∀ t, Wrote p data perm w (
        let w' := ({ w with tick := t }.setFile p (w.truncated p perm)).pokeFile p 0 data
        match w'.sched w'.tick with
          | .fail _ => (.err .io, { w' with tick := w'.tick + 1 })
          | .crash _ => (.crash, { w' with tick := w'.tick + 1 })
          | _ => (.ok (), { w' with tick := w'.tick + 1 })) := by
      intro t
      rw [hfull]
      simp only
      split <;> exact ⟨rfl, .inr ⟨data.length, by simp [setFile], by simp⟩⟩
    generalize ({ w with tick := w.tick + 1 }.setFile p (w.truncated p perm)).sched
      ({ w with tick := w.tick + 1 }.setFile p (w.truncated p perm)).tick = d2
    cases d2 with
    | fail n => exact hpartial _ _ (by simp) _
    | crash n => exact hpartial _ _ (by simp) _
    | ok => exact hclose _
    | short n => exact hclose _
  cases hs : w.sched w.tick with
  | ok =>
    rw [show createFile p perm w = (.ok (), { w with tick := w.tick + 1 }.setFile p (w.truncated p perm)) by
      simp only [createFile, hs]]
    exact hrest _ (.inl rfl) hs
  | short n =>
    rw [show createFile p perm w = (.ok (), { w with tick := w.tick + 1 }.setFile p (w.truncated p perm)) by
      simp only [createFile, hs]]
    exact hrest _ (.inr ⟨n, rfl⟩) hs
  | fail n =>
    rw [show createFile p perm w = (.err .io, { w with tick := w.tick + 1 }) by simp only [createFile, hs]]
    exact ⟨rfl, .inl ⟨rfl, by simp⟩⟩
  | crash n =>
    rw [show createFile p perm w = (.crash, if n = 0 then { w with tick := w.tick + 1 }
      else { w with tick := w.tick + 1 }.setFile p (w.truncated p perm)) by simp only [createFile, hs]]
    dsimp only
    split
    · exact ⟨rfl, .inl ⟨rfl, by simp⟩⟩
    · refine ⟨rfl, .inr ⟨0, ?_, by simp⟩⟩
      rw [← hempty]; rfl

/-- With no faults the file is written completely. -/
theorem writeFile_quiet (p : Path) (data : Bytes) (perm : Nat) (w : World) (hq : w.Quiet) :
    writeFile p data perm w =
      (.ok (), { w.setFile p { data := data, mode := (w.truncated p perm).mode } with tick := w.tick + 3 }) := by
  unfold writeFile
  rw [Act.bind_ok (show createFile p perm w = (.ok (), { w with tick := w.tick + 1 }.setFile p (w.truncated p perm)) by
      simp only [createFile, hq w.tick (Nat.le_refl _)])]
  rw [Act.bind_eq]
  simp only [next]
  have h1 : ({ w with tick := w.tick + 1 }.setFile p (w.truncated p perm)).sched
      ({ w with tick := w.tick + 1 }.setFile p (w.truncated p perm)).tick = .ok := hq _ (by simp [setFile])
  rw [h1]
  simp only
  have ht : ∀ t, { { w with tick := w.tick + 1 }.setFile p (w.truncated p perm) with tick := t } =
      { w with tick := t }.setFile p (w.truncated p perm) := fun t => rfl
  rw [ht, pokeFile_setFile, truncated_data, overwrite_nil]
  have h2 : ∀ t f, w.tick ≤ t → ({ w with tick := t }.setFile p f).sched ({ w with tick := t }.setFile p f).tick = .ok :=
    fun t f h => hq _ h
  rw [h2 _ _ (by simp only [setFile]; omega)]
  rfl

end World
end Verif
