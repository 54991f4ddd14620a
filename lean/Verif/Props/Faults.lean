/-
C85: failures of the system are reported.
-/
import Verif.Lemmas.Masked
import Verif.Spec.History
import Verif.Props.SealFiles
import Verif.Props.Cli

namespace Verif.Props
open World Spec

/-- The calls other than `Seal`. -/
def Call.NoSeal : Call → Prop
  | .encrypt _ _ _ => False
  | _ => True

theorem Call.shows (P : Prims) (fuel : Nat) (c : Call) (h : Call.NoSeal c) : Shows (c.act P fuel) := by
  cases c with
  | generate base pw rounds => exact GenerateKey_shows P base pw rounds
  | sign k m s => exact Sign_shows P k m s
  | verify p m s => exact Verify_shows P p m s
  | encrypt p m e => exact absurd h id
  | decrypt k e m => exact Open_shows P fuel k e m

/-- C85, all calls but `Seal`: whatever the system does while the call runs, the call returns an I/O error or the process dies, or
the call returns exactly what it returns when nothing fails, and leaves the files, the terminal, the memory and the entropy source
exactly as it does then. Missing: `Seal`, for which this is false (`C85_negation`). -/
theorem C85_shown_partial (P : Prims) (fuel : Nat) (c : Call) (h : Call.NoSeal c) (w : World) :
    (c.act P fuel w).1.Fault ∨
      ((c.act P fuel w).1 = (c.act P fuel w.calmed).1 ∧ (c.act P fuel w.calmed).2 = (c.act P fuel w).2.calmed) := by
  rcases Call.shows P fuel c h w w.calmed rfl with h1 | ⟨h1, h2⟩
  · exact .inl h1
  · exact .inr ⟨h1, h2⟩

/-- A program that makes the calls one after the other and stops at the first that does not return nil. -/
def session (P : Prims) (fuel : Nat) : List Call → Act World Unit
  | [] => pure ()
  | c :: cs => do c.act P fuel; session P fuel cs

/-- C85, sequences: a program that makes any calls but `Seal`, stops at the first error and gets nil from all of them did what it
does on a machine on which nothing ever fails. -/
theorem C85_session_partial (P : Prims) (fuel : Nat) (cs : List Call) (h : ∀ c ∈ cs, Call.NoSeal c) (w : World)
    (hok : (session P fuel cs w).1 = .ok ()) :
    (session P fuel cs w.calmed).1 = .ok () ∧ (session P fuel cs w.calmed).2 = (session P fuel cs w).2.calmed ∧
    (session P fuel cs w.calmed).2.fs = (session P fuel cs w).2.fs := by
  have hs : Shows (session P fuel cs) := by
    clear hok
    induction cs with
    | nil => exact .pure ()
    | cons c cs ih =>
      exact (Call.shows P fuel c (h c (List.mem_cons_self ..))).bind fun _ => ih fun d hd => h d (List.mem_cons_of_mem _ hd)
  rcases hs w w.calmed rfl with (h1 | h1) | ⟨h1, h2⟩
  · rw [hok] at h1; cases h1
  · rw [hok] at h1; cases h1
  · have h2 : (session P fuel cs w.calmed).2 = (session P fuel cs w).2.calmed := h2
    exact ⟨h1 ▸ hok, h2, by rw [h2]; rfl⟩

/-- What a process does that ends with status 0 is what it does when nothing fails. -/
def ExitShows (x : World → Exit × World) : Prop :=
  ∀ w, (x w).1 = .status 0 → x w.calmed = (.status 0, (x w).2.calmed)

theorem orExit_shows {α : Type} {op : Act World α} (hop : Shows op) (m : GoErr → Bytes) {rest : α → World → Exit × World}
    (hr : ∀ a, ExitShows (rest a)) : ExitShows (orExit op m rest) := by
  intro w hw
  have h := hop w w.calmed rfl
  unfold orExit at hw ⊢
  rcases h1 : op w with ⟨r, w1⟩
  rcases h2 : op w.calmed with ⟨r2, w2⟩
  rw [h1] at h hw
  rw [h2] at h
  simp only at h hw ⊢
  rcases h with (rfl | rfl) | ⟨rfl, h⟩
  · cases hw
  · cases hw
  · obtain rfl : w2 = w1.calmed := h
    cases r with
    | ok a => exact hr a w1 hw
    | _ => cases hw

theorem done_shows (msg : Bytes) (u : Unit) : ExitShows (done msg u) := fun _ _ => rfl

theorem bad_shows {f : World → World} : ExitShows fun w => (.status 1, f w) := fun _ h => by cases h

theorem ite_shows {c : Prop} [Decidable c] {a b : World → Exit × World} (ha : c → ExitShows a) (hb : ¬ c → ExitShows b) :
    ExitShows fun w => if c then a w else b w := by
  by_cases h : c
  · simp only [if_pos h]; exact ha h
  · simp only [if_neg h]; exact hb h

/-- C85, the command: if the process ends with status 0 and was not asked to encrypt, then, whatever the system did meanwhile, it
ends with status 0 also when nothing fails, and with the same files and the same output. -/
theorem C85_process_partial (P : Prims) (fuel : Nat) (env : CliEnv) (f : Flags) (hop : Flags.op f ≠ some .encrypt) (w : World)
    (h : (cliMain P fuel env f w).1 = .status 0) :
    (cliMain P fuel env f w.calmed).1 = .status 0 ∧
    (cliMain P fuel env f w.calmed).2 = (cliMain P fuel env f w).2.calmed ∧
    (cliMain P fuel env f w.calmed).2.fs = (cliMain P fuel env f w).2.fs ∧
    (cliMain P fuel env f w.calmed).2.stdout = (cliMain P fuel env f w).2.stdout := by
  have key : ExitShows (cliMain P fuel env f) := by
    unfold cliMain
    refine ite_shows (fun _ => ?_) fun h1 => ite_shows (fun _ => ?_) fun h2 => ite_shows (fun _ => ?_) fun h3 =>
      ite_shows (fun h4 => ?_) fun h4 => ite_shows (fun _ => ?_) fun _ => bad_shows
    · unfold cliGenerate
      refine ite_shows (fun _ => bad_shows) fun _ => ite_shows (fun _ => ?_) fun _ => ?_
      · refine orExit_shows (passphrasePrompt_shows _) _ fun i w hw => ?_
        exact orExit_shows (GenerateKey_shows _ _ _ _) _ (fun _ => done_shows _ _) w hw
      · exact orExit_shows (GenerateKey_shows _ _ _ _) _ (fun _ => done_shows _ _)
    · exact ite_shows (fun _ => bad_shows) fun _ => orExit_shows (Sign_shows _ _ _ _) _ (fun _ => done_shows _ _)
    · exact orExit_shows (Verify_shows _ _ _ _) _ (fun _ => done_shows _ _)
    · exact absurd (by simp [Flags.op, h1, h2, h3, h4]) hop
    · exact orExit_shows (Open_shows _ _ _ _ _) _ (fun _ => done_shows _ _)
  have h1 := key w h
  rw [h1]
  exact ⟨rfl, rfl, rfl, rfl⟩

/-- The machine on which one read of the message is cut short. -/
def cutRead : World := { (sealWorld fun i => if i = 31 then .short 0 else .ok).setFile b!"m" ⟨b!"hi", 0⟩ with tick := 0 }

set_option maxRecDepth 100000 in
theorem cutRead_differs : (Seal toy b!"p" b!"m" [] cutRead).2.fs b!"m.enc" ≠ (Seal toy b!"p" b!"m" [] cutRead.calmed).2.fs b!"m.enc" := by
  intro h
  have h1 : (Seal toy b!"p" b!"m" [] cutRead).2.fs b!"m.enc" = some
      ⟨b!"untrusted comment: psignify encrypted file\nAAAAAAAAAAEBAgUKERolMkFSZXqRqsXiASJFapG65RJBcqXaEUqFwgACBQoRGiUyAAAAAAAA\nAAEBAgUKERolMkFSZXqRqsXiAAIFChEaJTJoAAAAAAAAAGg=\n", 0o644⟩ := by
    decide +kernel
  have h2 : (Seal toy b!"p" b!"m" [] cutRead.calmed).2.fs b!"m.enc" = some
      ⟨b!"untrusted comment: psignify encrypted file\nAAAAAAAAAAEBAgUKERolMkFSZXqRqsXiASJFapG65RJBcqXaEUqFwgACBQoRGiUyAAAAAAAA\nAAEBAgUKERolMkFSZXqRqsXiAAIFChEaJTJoawAAAAAAAGhr\n", 0o644⟩ := by
    decide +kernel
  rw [h1, h2] at h
  have h4 := congrArg (fun f : File => f.data.drop 160) (Option.some.inj h)
  revert h4
  decide +kernel

/-- C85 is false for `Seal`: the device fails while the last bytes are written, and `Seal` returns nil; or one read returns fewer
bytes than asked for, and `Seal` returns nil. In both cases the encrypted file is not the one of the run without faults. -/
theorem C85_negation :
    (∃ w : World, (Seal toy b!"p" b!"m" [] w).1 = .ok () ∧ (∀ i, w.sched i = .ok ∨ w.sched i = .fail 0) ∧
      (Seal toy b!"p" b!"m" [] w).2.fs b!"m.enc" ≠ (Seal toy b!"p" b!"m" [] w.calmed).2.fs b!"m.enc") ∧
    (∃ w : World, (Seal toy b!"p" b!"m" [] w).1 = .ok () ∧ (∀ i, w.sched i = .ok ∨ w.sched i = .short 0) ∧
      (Seal toy b!"p" b!"m" [] w).2.fs b!"m.enc" ≠ (Seal toy b!"p" b!"m" [] w.calmed).2.fs b!"m.enc") := by
  refine ⟨⟨sealWorld fun i => if i = 37 then .fail 0 else .ok, C44_negation.1, fun i => ?_, ?_⟩,
    ⟨cutRead, C45_file_negation.1, fun i => ?_, cutRead_differs⟩⟩
  · by_cases h : i = 37
    · exact .inr (by simp [sealWorld, h])
    · exact .inl (by simp [sealWorld, h])
  · obtain ⟨-, f, g, hf, hg, ⟨t, ht, hl⟩, -⟩ := C44_negation
    have e : (sealWorld fun i => if i = 37 then .fail 0 else .ok).calmed = sealWorld fun _ => .ok := rfl
    rw [e, hf, hg]
    intro h
    rw [Option.some.inj h] at ht
    have := congrArg List.length ht
    rw [List.length_append, hl] at this
    omega
  · by_cases h : i = 31
    · exact .inr (by simp [cutRead, sealWorld, setFile, h])
    · exact .inl (by simp [cutRead, sealWorld, setFile, h])

/-- Executions in which a system call fails: the call reports it, or (closing a file read from) the failure has no effect. -/
example : (Verify toy b!"k" b!"m" b!"s" { calm with sched := fun i => if i = 0 then .fail 0 else .ok }).1 = .err .io ∧
    (GenerateKey toy b!"k" [] none { calm with sched := fun i => if i = 4 then .fail 3 else .ok }).1 = .err .io ∧
    (GenerateKey toy b!"k" [] none { calm with sched := fun i => if i = 4 then .crash 3 else .ok }).1 = .crash := by
  decide +kernel

end Verif.Props
