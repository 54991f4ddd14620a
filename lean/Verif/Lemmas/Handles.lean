/-
Reading and writing through open files, under every schedule.
-/
import Verif.Lemmas.World

namespace Verif
namespace World

/-- The new world differs at most in files, handles and call counter. -/
def FrameIO (w w' : World) : Prop :=
  w' = { w with fs := w'.fs, handles := w'.handles, tick := w'.tick }

/-- The new world differs at most in files, handles, call counter and position in the entropy source. -/
def FrameIOR (w w' : World) : Prop :=
  w' = { w with fs := w'.fs, handles := w'.handles, tick := w'.tick, rngPos := w'.rngPos }

theorem FrameIO.toIOR {w w' : World} (h : FrameIO w w') : FrameIOR w w' := by
  unfold FrameIO at h; unfold FrameIOR; rw [h]

theorem FrameIOR.trans {a b c : World} (h1 : FrameIOR a b) (h2 : FrameIOR b c) : FrameIOR a c := by
  unfold FrameIOR at *; rw [h2, h1]

theorem FrameIOR.sched {a b : World} (h : FrameIOR a b) : b.sched = a.sched := by rw [h]
theorem FrameIOR.tty {a b : World} (h : FrameIOR a b) : b.tty = a.tty := by rw [h]
theorem FrameIO.rng {a b : World} (h : FrameIO a b) : b.rng = a.rng := by rw [h]
theorem FrameIO.rngPos {a b : World} (h : FrameIO a b) : b.rngPos = a.rngPos := by rw [h]

theorem FrameIO.refl (w : World) : FrameIO w w := rfl

theorem FrameIO.trans {a b c : World} (h1 : FrameIO a b) (h2 : FrameIO b c) : FrameIO a c := by
  unfold FrameIO at *; rw [h2, h1]

theorem FrameIO.tty {a b : World} (h : FrameIO a b) : b.tty = a.tty := by rw [h]
theorem FrameIO.sched {a b : World} (h : FrameIO a b) : b.sched = a.sched := by rw [h]
theorem FrameIO.bufs {a b : World} (h : FrameIO a b) : b.bufs = a.bufs := by rw [h]

theorem Quiet.mono {w w' : World} (h : w.Quiet) (hs : w'.sched = w.sched) (ht : w.tick ≤ w'.tick) : w'.Quiet :=
  fun i hi => by rw [hs]; exact h i (Nat.le_trans ht hi)

/-- The file `p` holds `c`, and the handle `h` is at its end; all other files are as in `w0`. -/
structure At (w0 : World) (p : Path) (mode h : Nat) (c : Bytes) (w : World) : Prop where
  fs : w.fs = (w0.setFile p ⟨c, mode⟩).fs
  hd : w.handles[h]? = some ⟨p, c.length⟩

theorem At.file {w0 : World} {p : Path} {mode h : Nat} {c : Bytes} {w : World} (a : At w0 p mode h c w) :
    w.fs p = some ⟨c, mode⟩ := by rw [a.fs, setFile_self]

theorem At.other {w0 : World} {p : Path} {mode h : Nat} {c : Bytes} {w : World} (a : At w0 p mode h c w) {q : Path}
    (hq : q ≠ p) : w.fs q = w0.fs q := by rw [a.fs, setFile_other _ _ hq]

theorem overwrite_end (c bs : Bytes) : overwrite c c.length bs = c ++ bs := by
  simp [overwrite]

theorem handles_modify_get (l : List Handle) (h : Nat) (f : Handle → Handle) (hd : Handle) (hh : l[h]? = some hd) :
    (l.modify h f)[h]? = some (f hd) := by
  rw [List.getElem?_modify, hh]; simp

theorem handles_modify_other (l : List Handle) {h h' : Nat} (f : Handle → Handle) (hne : h' ≠ h) :
    (l.modify h f)[h']? = l[h']? := by
  rw [List.getElem?_modify]; simp [Ne.symm hne]

/-- Writing at the end of a file. -/
theorem writeHandle_at {w0 : World} {p : Path} {mode h : Nat} {c : Bytes} {w : World} (hA : At w0 p mode h c w) (bs : Bytes) :
    ∃ k r w', writeHandle h bs w = (r, w') ∧ At w0 p mode h (c ++ bs.take k) w' ∧ ((∃ n, r = .ok n) → bs.take k = bs) ∧
      (∀ h', h' ≠ h → w'.handles[h']? = w.handles[h']?) ∧ FrameIO w w' ∧ w'.tick = w.tick + 1 ∧
      (w.Quiet → ∃ n, r = .ok n) ∧ (r = .ok bs.length ∨ r = .err .io ∨ r = .crash) := by
  have key : ∀ x : Bytes, At w0 p mode h (c ++ x)
      (({ w with tick := w.tick + 1 }.pokeFile p c.length x).advance h x.length) ∧
      (∀ h', h' ≠ h → (({ w with tick := w.tick + 1 }.pokeFile p c.length x).advance h x.length).handles[h']? = w.handles[h']?) ∧
      FrameIO w (({ w with tick := w.tick + 1 }.pokeFile p c.length x).advance h x.length) ∧
      (({ w with tick := w.tick + 1 }.pokeFile p c.length x).advance h x.length).tick = w.tick + 1 := by
    intro x
    have hp : ({ w with tick := w.tick + 1 } : World).pokeFile p c.length x =
        ({ w with tick := w.tick + 1 } : World).setFile p ⟨c ++ x, mode⟩ := by
      simp only [pokeFile, hA.file, overwrite_end]
    rw [hp]
    refine ⟨⟨?_, ?_⟩, ?_, rfl, rfl⟩
    · have : w.fs = (w0.setFile p ⟨c, mode⟩).fs := hA.fs
      simp only [advance, setFile, this]
      funext q
      by_cases hq : q = p <;> simp [hq]
    · simp only [advance, setFile]
      rw [handles_modify_get _ _ _ _ hA.hd]
      simp
    · intro h' hne
      simp only [advance, setFile]
      exact handles_modify_other _ _ hne
  unfold writeHandle
  simp only [hA.hd]
  cases hs : w.sched w.tick with
  | ok =>
    obtain ⟨k1, k2, k3, k4⟩ := key bs
    exact ⟨bs.length, _, _, rfl, by simpa using k1, fun _ => by simp, k2, k3, k4, fun _ => ⟨_, rfl⟩, .inl rfl⟩
  | short n =>
    obtain ⟨k1, k2, k3, k4⟩ := key bs
    exact ⟨bs.length, _, _, rfl, by simpa using k1, fun _ => by simp, k2, k3, k4, fun _ => ⟨_, rfl⟩, .inl rfl⟩
  | fail n =>
    obtain ⟨k1, k2, k3, k4⟩ := key (bs.take n)
    refine ⟨n, _, _, rfl, k1, by simp, k2, k3, k4, fun hq => ?_, .inr (.inl rfl)⟩
    have := hq w.tick (Nat.le_refl _); rw [hs] at this; cases this
  | crash n =>
    obtain ⟨k1, k2, k3, k4⟩ := key (bs.take n)
    refine ⟨n, _, _, rfl, k1, by simp, k2, k3, k4, fun hq => ?_, .inr (.inr rfl)⟩
    have := hq w.tick (Nat.le_refl _); rw [hs] at this; cases this

/-- Reading from a file: what comes is a piece of the file at the offset; with no faults it is as long as possible. -/
theorem readHandle_at {h : Nat} {p : Path} {off : Nat} {w : World} {f : File} (hh : w.handles[h]? = some ⟨p, off⟩)
    (hf : w.fs p = some f) {n : Nat} (hn : 0 < n) :
    ∃ r w', readHandle h n w = (r, w') ∧ w'.fs = w.fs ∧ FrameIO w w' ∧ w'.tick = w.tick + 1 ∧
      (∀ h', h' ≠ h → w'.handles[h']? = w.handles[h']?) ∧
      ((∃ got, r = .ok got ∧ got ≠ [] ∧ got = (f.data.drop off).take got.length ∧ got.length ≤ n ∧
          w'.handles[h]? = some ⟨p, off + got.length⟩ ∧ (w.Quiet → got = (f.data.drop off).take n) ∧
          (n = 1 → got = (f.data.drop off).take n)) ∨
        (r = .err .eof ∧ f.data.drop off = [] ∧ w'.handles[h]? = some ⟨p, off⟩) ∨
        (¬ w.Quiet ∧ (r = .err .io ∨ r = .crash) ∧ w'.handles[h]? = some ⟨p, off⟩)) := by
  unfold readHandle
  simp only [hh, hf]
  have hne : n ≠ 0 := by omega
  have hok : ∀ lim, 0 < lim → lim ≤ n → (w.Quiet → lim = n) → (n = 1 → lim = n) →
      ∃ r w', (if n = 0 then (Res.ok [], { w with tick := w.tick + 1 })
        else if f.data.drop off = [] then (.err .eof, { w with tick := w.tick + 1 })
        else (.ok ((f.data.drop off).take lim),
          ({ w with tick := w.tick + 1 } : World).advance h ((f.data.drop off).take lim).length)) = (r, w') ∧
      w'.fs = w.fs ∧ FrameIO w w' ∧ w'.tick = w.tick + 1 ∧ (∀ h', h' ≠ h → w'.handles[h']? = w.handles[h']?) ∧
      ((∃ got, r = .ok got ∧ got ≠ [] ∧ got = (f.data.drop off).take got.length ∧ got.length ≤ n ∧
          w'.handles[h]? = some ⟨p, off + got.length⟩ ∧ (w.Quiet → got = (f.data.drop off).take n) ∧
          (n = 1 → got = (f.data.drop off).take n)) ∨
        (r = .err .eof ∧ f.data.drop off = [] ∧ w'.handles[h]? = some ⟨p, off⟩) ∨
        (¬ w.Quiet ∧ (r = .err .io ∨ r = .crash) ∧ w'.handles[h]? = some ⟨p, off⟩)) := by
    intro lim hpos hle hq h1
    rw [if_neg hne]
    by_cases he : f.data.drop off = []
    · rw [if_pos he]
      exact ⟨_, _, rfl, rfl, rfl, rfl, fun _ _ => rfl, .inr (.inl ⟨rfl, he, hh⟩)⟩
    · rw [if_neg he]
      refine ⟨_, _, rfl, rfl, rfl, rfl, ?_, .inl ⟨_, rfl, ?_, ?_, ?_, ?_, ?_, ?_⟩⟩
      · intro h' hne'; simp only [advance]; exact handles_modify_other _ _ hne'
      · intro hx
        rcases List.take_eq_nil_iff.mp hx with hx | hx
        · omega
        · exact he hx
      · rw [List.length_take, ← List.take_eq_take_min]
      · rw [List.length_take]; omega
      · simp only [advance]
        rw [handles_modify_get _ _ _ _ hh]
      · intro h; rw [hq h]
      · intro h; rw [h1 h]
  cases hs : w.sched w.tick with
  | ok => exact hok n (by omega) (Nat.le_refl _) (fun _ => rfl) (fun _ => rfl)
  | short k =>
    refine hok (min n (k + 1)) (by omega) (Nat.min_le_left _ _) (fun hq => ?_) (by omega)
    have := hq w.tick (Nat.le_refl _); rw [hs] at this; cases this
  | fail k =>
    refine ⟨_, _, rfl, rfl, rfl, rfl, fun _ _ => rfl, .inr (.inr ⟨fun hq => ?_, .inl rfl, hh⟩)⟩
    have := hq w.tick (Nat.le_refl _); rw [hs] at this; cases this
  | crash k =>
    refine ⟨_, _, rfl, rfl, rfl, rfl, fun _ _ => rfl, .inr (.inr ⟨fun hq => ?_, .inr rfl, hh⟩)⟩
    have := hq w.tick (Nat.le_refl _); rw [hs] at this; cases this

/-- `os.Create`: nothing happened, or the file is empty; on success a new handle is at its end. -/
theorem create_spec (p : Path) (w : World) :
    ∃ r w', create p w = (r, w') ∧ FrameIO w w' ∧ w'.tick = w.tick + 1 ∧ (w.Quiet → ∃ h, r = .ok h) ∧
      ((r = .ok w.handles.length ∧ At w p (w.truncated p 0o666).mode w.handles.length [] w' ∧
          w'.handles = w.handles ++ [⟨p, 0⟩]) ∨
        ((r = .err .io ∨ r = .crash) ∧ w'.handles = w.handles ∧
          (w'.fs = w.fs ∨ w'.fs = (w.setFile p ⟨[], (w.truncated p 0o666).mode⟩).fs))) := by
  have ht : w.truncated p 0o666 = ⟨[], (w.truncated p 0o666).mode⟩ := by
    have := truncated_data w p 0o666
    cases h : w.truncated p 0o666 with
    | mk d m => rw [h] at this; simp at this; simp [this]
  have hsucc : createFile p 0o666 w = (.ok (), { w with tick := w.tick + 1 }.setFile p (w.truncated p 0o666)) →
      ∃ r w', create p w = (r, w') ∧ FrameIO w w' ∧ w'.tick = w.tick + 1 ∧ (w.Quiet → ∃ h, r = .ok h) ∧
      ((r = .ok w.handles.length ∧ At w p (w.truncated p 0o666).mode w.handles.length [] w' ∧
          w'.handles = w.handles ++ [⟨p, 0⟩]) ∨
        ((r = .err .io ∨ r = .crash) ∧ w'.handles = w.handles ∧
          (w'.fs = w.fs ∨ w'.fs = (w.setFile p ⟨[], (w.truncated p 0o666).mode⟩).fs))) := by
    intro h
    rw [show create p w = _ from Act.bind_ok h]
    refine ⟨_, _, rfl, rfl, rfl, fun _ => ⟨_, rfl⟩, .inl ⟨rfl, ⟨?_, ?_⟩, rfl⟩⟩
    · rw [← ht]; rfl
    · simp [setFile]
  cases hs : w.sched w.tick with
  | ok => exact hsucc (by simp only [createFile, hs])
  | short n => exact hsucc (by simp only [createFile, hs])
  | fail n =>
    rw [show create p w = (.err .io, { w with tick := w.tick + 1 })
      from Act.bind_err (by simp only [createFile, hs])]
    refine ⟨_, _, rfl, rfl, rfl, fun hq => ?_, .inr ⟨.inl rfl, rfl, .inl rfl⟩⟩
    have := hq w.tick (Nat.le_refl _); rw [hs] at this; cases this
  | crash n =>
    rw [show create p w = (.crash, if n = 0 then { w with tick := w.tick + 1 }
      else { w with tick := w.tick + 1 }.setFile p (w.truncated p 0o666))
      from Act.bind_crash (by simp only [createFile, hs])]
    have hq' : w.Quiet → ∃ h, (Res.crash : Res Nat) = .ok h := fun hq => by
      have := hq w.tick (Nat.le_refl _); rw [hs] at this; cases this
    split
    · exact ⟨_, _, rfl, rfl, rfl, hq', .inr ⟨.inr rfl, rfl, .inl rfl⟩⟩
    · refine ⟨_, _, rfl, rfl, rfl, hq', .inr ⟨.inr rfl, rfl, .inr ?_⟩⟩
      rw [← ht]; rfl

theorem openFile_spec (p : Path) (w : World) :
    ∃ r w', openFile p w = (r, w') ∧ FrameIO w w' ∧ w'.fs = w.fs ∧ w'.tick = w.tick + 1 ∧
      (w.Quiet → (∃ f, w.fs p = some f) → ∃ h, r = .ok h) ∧
      ((r = .ok w.handles.length ∧ w'.handles = w.handles ++ [⟨p, 0⟩] ∧ ∃ f, w.fs p = some f) ∨
        ((∃ e, r = .err e) ∨ r = .crash) ∧ w'.handles = w.handles) := by
  unfold openFile
  simp only
  have hq' : ∀ d, w.sched w.tick = d → d ≠ .ok → w.Quiet → False := fun d h hd hq => hd (by rw [← h, hq _ (Nat.le_refl _)])
  cases hs : w.sched w.tick with
  | fail n => exact ⟨_, _, rfl, rfl, rfl, rfl, fun hq => (hq' _ hs (by simp) hq).elim, .inr ⟨.inl ⟨_, rfl⟩, rfl⟩⟩
  | crash n => exact ⟨_, _, rfl, rfl, rfl, rfl, fun hq => (hq' _ hs (by simp) hq).elim, .inr ⟨.inr rfl, rfl⟩⟩
  | ok =>
    cases hf : w.fs p with
    | none => exact ⟨_, _, rfl, rfl, rfl, rfl, by simp, .inr ⟨.inl ⟨_, rfl⟩, rfl⟩⟩
    | some f => exact ⟨_, _, rfl, rfl, rfl, rfl, fun _ _ => ⟨_, rfl⟩, .inl ⟨rfl, rfl, f, rfl⟩⟩
  | short n =>
    cases hf : w.fs p with
    | none => exact ⟨_, _, rfl, rfl, rfl, rfl, by simp, .inr ⟨.inl ⟨_, rfl⟩, rfl⟩⟩
    | some f => exact ⟨_, _, rfl, rfl, rfl, rfl, fun _ _ => ⟨_, rfl⟩, .inl ⟨rfl, rfl, f, rfl⟩⟩

theorem fileSize_spec {h : Nat} {p : Path} {off : Nat} {w : World} {f : File} (hh : w.handles[h]? = some ⟨p, off⟩)
    (hf : w.fs p = some f) :
    (fileSize h w).2 = { w with tick := w.tick + 1 } ∧ (w.Quiet → (fileSize h w).1 = .ok f.data.length) ∧
      ((fileSize h w).1 = .ok f.data.length ∨ (fileSize h w).1 = .err .io ∨ (fileSize h w).1 = .crash) := by
  unfold fileSize
  simp only [hh, hf]
  have hq' : ∀ d, w.sched w.tick = d → d ≠ .ok → w.Quiet → False := fun d h hd hq => hd (by rw [← h, hq _ (Nat.le_refl _)])
  cases hs : w.sched w.tick with
  | ok => exact ⟨rfl, fun _ => rfl, .inl rfl⟩
  | short n => exact ⟨rfl, fun _ => rfl, .inl rfl⟩
  | fail n => exact ⟨rfl, fun hq => (hq' _ hs (by simp) hq).elim, .inr (.inl rfl)⟩
  | crash n => exact ⟨rfl, fun hq => (hq' _ hs (by simp) hq).elim, .inr (.inr rfl)⟩

end World
end Verif
