/-
Runs with faults against the run without: a fault either ends the call with an I/O error or a crash, or has no effect.
-/
import Verif.Model.Cli
import Verif.Spec.Faults
import Verif.Lemmas.Rel
import Verif.Lemmas.OpenFile

namespace Verif
open World

variable {σ τ α β γ : Type}

/-- On related states the first action reports a fault, or both give the same result and end in related states. -/
def Act.Masked (R : σ → τ → Prop) (a : Act σ α) (b : Act τ α) : Prop :=
  ∀ s t, R s t → (a s).1.Fault ∨ ((a s).1 = (b t).1 ∧ R (a s).2 (b t).2)

namespace Act.Masked

variable {R : σ → τ → Prop}

theorem ofRel {a : Act σ α} {b : Act τ α} (h : Act.Rel R a b) : Act.Masked R a b := fun s t hst => .inr (h s t hst)

theorem bind {a : Act σ α} {b : Act τ α} {f : α → Act σ β} {g : α → Act τ β} (h : Act.Masked R a b)
    (hf : ∀ x, Act.Masked R (f x) (g x)) : Act.Masked R (a >>= f) (b >>= g) := by
  intro s t hst
  have h1 := h s t hst
  rw [Act.bind_eq, Act.bind_eq]
  rcases ha : a s with ⟨r, s'⟩
  rcases hb : b t with ⟨r', t'⟩
  rw [ha, hb] at h1
  simp only at h1
  rcases h1 with (rfl | rfl) | ⟨rfl, h2⟩
  · exact .inl (.inl rfl)
  · exact .inl (.inr rfl)
  · cases r with
    | ok x => exact hf x s' t' h2
    | _ => exact .inr ⟨rfl, h2⟩

theorem pure (x : α) : Act.Masked R (Pure.pure x : Act σ α) (Pure.pure x : Act τ α) := ofRel (.pure x)
theorem fail (e : GoErr) : Act.Masked R (Act.fail e : Act σ α) (Act.fail e : Act τ α) := ofRel (.fail e)
theorem panic : Act.Masked R (Act.panic : Act σ α) (Act.panic : Act τ α) := ofRel .panic
theorem hang : Act.Masked R (Act.hang : Act σ α) (Act.hang : Act τ α) := ofRel .hang
theorem ofRes (r : Res α) : Act.Masked R (Act.ofRes r : Act σ α) (Act.ofRes r : Act τ α) := ofRel (.ofRes r)

theorem deferring {f : σ → σ} {g : τ → τ} (hfg : ∀ s t, R s t → R (f s) (g t)) {a : Act σ α} {b : Act τ α} (h : Act.Masked R a b) :
    Act.Masked R (Act.deferring f a) (Act.deferring g b) := by
  intro s t hst
  have h1 := h s t hst
  unfold Act.deferring
  rcases ha : a s with ⟨r, s'⟩
  rcases hb : b t with ⟨r', t'⟩
  rw [ha, hb] at h1
  simp only at h1
  rcases h1 with (rfl | rfl) | ⟨rfl, h2⟩
  · exact .inl (.inl rfl)
  · exact .inl (.inr rfl)
  · cases r with
    | crash => exact .inr ⟨rfl, h2⟩
    | hang => exact .inr ⟨rfl, h2⟩
    | _ => exact .inr ⟨rfl, hfg _ _ h2⟩

theorem onSnd {a : Act σ α} {b : Act τ α} (h : Act.Masked R a b) :
    Act.Masked (SndRel R) (Act.onSnd a : Act (γ × σ) α) (Act.onSnd b) := by
  intro s t hst
  rcases h _ _ hst.2 with h | h
  · exact .inl h
  · exact .inr ⟨h.1, hst.1, h.2⟩

theorem decReadLoop {rd : Reader σ} {rd' : Reader τ} (h : Act.Masked R (rd 1) (rd' 1)) (enclen fuel : Nat) (c : UInt8)
    (buf : Bytes) : Act.Masked R (Verif.decReadLoop rd enclen fuel c buf) (Verif.decReadLoop rd' enclen fuel c buf) := by
  induction fuel generalizing c buf with
  | zero => unfold Verif.decReadLoop; exact hang
  | succ fuel ih =>
    intro s t hst
    unfold Verif.decReadLoop
    by_cases hb : buf.length = enclen
    · simp only [hb, if_true]; exact .inr ⟨trivial, hst⟩
    · simp only [hb, if_false]
      have h1 := h s t hst
      rcases hs : rd 1 s with ⟨r, s'⟩
      rcases ht : rd' 1 t with ⟨r', t'⟩
      rw [hs, ht] at h1
      simp only at h1
      rcases h1 with (rfl | rfl) | ⟨rfl, h2⟩
      · exact .inl (.inl rfl)
      · exact .inl (.inr rfl)
      · cases r with
        | ok got =>
          simp only
          split
          · exact ih _ _ _ _ h2
          · exact ih _ _ _ _ h2
        | err e => cases e <;> exact .inr ⟨rfl, h2⟩
        | _ => exact .inr ⟨rfl, h2⟩

theorem decRead {rd : Reader σ} {rd' : Reader τ} (h : Act.Masked R (rd 1) (rd' 1)) (fuel n : Nat) :
    Act.Masked R (Verif.decRead fuel rd n) (Verif.decRead fuel rd' n) := by
  unfold Verif.decRead
  refine bind (decReadLoop h _ _ _ _) fun buf => ?_
  split
  · exact pure _
  · exact fail _
  · exact panic

theorem skipComment {rd : Reader σ} {rd' : Reader τ} (h : Act.Masked R (rd 1) (rd' 1)) (fuel : Nat) :
    Act.Masked R (Verif.skipComment fuel rd) (Verif.skipComment fuel rd') := by
  have : ∀ c, Act.Masked R (Verif.skipCommentLoop rd fuel c) (Verif.skipCommentLoop rd' fuel c) := by
    induction fuel with
    | zero => intro c; unfold Verif.skipCommentLoop; exact hang
    | succ fuel ih =>
      intro c
      unfold Verif.skipCommentLoop
      refine bind h fun got => ?_
      dsimp only
      split
      · exact pure _
      · exact ih _
  exact this 0

theorem openLoop {rd : Reader σ} {rd' : Reader τ} {w : Writer σ} {w' : Writer τ} (hr : ∀ n, Act.Masked R (rd n) (rd' n))
    (hw : ∀ bs, Act.Masked R (w bs) (w' bs)) (P : Prims) (sh : Arr 32) (n i : Nat) (nonce : Arr 24) :
    Act.Masked R (Verif.openLoop P sh rd w n i nonce) (Verif.openLoop P sh rd' w' n i nonce) := by
  induction n generalizing i nonce with
  | zero => unfold Verif.openLoop; exact pure _
  | succ n ih =>
    unfold Verif.openLoop
    refine bind (hr _) fun chunk => ?_
    split
    · exact fail _
    · exact bind (hw _) fun _ => bind (ofRes _) fun _ => ih _ _

theorem openBox {rd : Reader σ} {rd' : Reader τ} {w : Writer σ} {w' : Writer τ} (hr : ∀ n, Act.Masked R (rd n) (rd' n))
    (hw : ∀ bs, Act.Masked R (w bs) (w' bs)) (P : Prims) {tb : Act σ (Arr 32)} {tb' : Act τ (Arr 32)} (ht : Act.Masked R tb tb') :
    Act.Masked R (Verif.openBox P tb rd w) (Verif.openBox P tb' rd' w') := by
  unfold Verif.openBox
  refine bind ht fun _ => bind (hr _) fun header => ?_
  split
  · exact fail _
  · dsimp only
    split
    · exact fail _
    · exact openLoop hr hw P _ _ _ _

end Act.Masked

/-- `w'` is `w` with the schedule without faults. -/
def CalmRel (w w' : World) : Prop := w' = w.calmed

/-- An action on the machine whose faults show. -/
abbrev Shows (a : Act World α) : Prop := Act.Masked CalmRel a a

theorem Act.Masked.ofFun {f : World → World} (h : ∀ w, f w.calmed = (f w).calmed) : Shows (Act.modify f) :=
  fun w w' hw => .inr ⟨rfl, by cases hw; exact h w⟩

theorem readFile_shows (p : Path) : Shows (readFile p) := by
  rintro w _ rfl
  unfold readFile
  simp only [calmed]
  cases h : w.sched w.tick with
  | fail n => exact .inl (.inl rfl)
  | crash n => exact .inl (.inr rfl)
  | _ =>
    right
    cases w.fs p <;> exact ⟨rfl, rfl⟩

theorem createFile_shows (p : Path) (perm : Nat) : Shows (createFile p perm) := by
  rintro w _ rfl
  unfold createFile
  cases h : w.sched w.tick with
  | fail n => exact .inl (.inl rfl)
  | crash n => exact .inl (.inr rfl)
  | _ => exact .inr ⟨rfl, rfl⟩

theorem pokeFile_calmed (w : World) (p : Path) (off : Nat) (bs : Bytes) : w.calmed.pokeFile p off bs = (w.pokeFile p off bs).calmed := by
  unfold pokeFile
  simp only [calmed]
  cases w.fs p <;> rfl

theorem pokeFile_sched (w : World) (p : Path) (off : Nat) (bs : Bytes) : (w.pokeFile p off bs).sched = w.sched ∧ (w.pokeFile p off bs).tick = w.tick ∧ (w.pokeFile p off bs).handles = w.handles := by
  unfold pokeFile
  cases w.fs p <;> exact ⟨rfl, rfl, rfl⟩

/-- The close at the end of `ioutil.WriteFile`. -/
private def closing : Act World Unit := fun v => match v.sched v.tick with
  | .fail _ => (.err .io, { v with tick := v.tick + 1 })
  | .crash _ => (.crash, { v with tick := v.tick + 1 })
  | _ => (.ok (), { v with tick := v.tick + 1 })

private theorem closing_shows : Shows closing := by
  rintro w _ rfl
  unfold closing
  simp only [calmed]
  cases h : w.sched w.tick with
  | fail n => exact .inl (.inl rfl)
  | crash n => exact .inl (.inr rfl)
  | _ => exact .inr ⟨rfl, rfl⟩

theorem writeFile_shows (p : Path) (data : Bytes) (perm : Nat) : Shows (writeFile p data perm) := by
  refine (createFile_shows p perm).bind fun _ => ?_
  rintro w _ rfl
  rw [Act.bind_eq, Act.bind_eq]
  unfold next
  simp only
  rw [show w.calmed.sched w.calmed.tick = .ok from rfl]
  have hc : ({ w.calmed with tick := w.calmed.tick + 1 } : World) = ({ w with tick := w.tick + 1 } : World).calmed := rfl
  rw [hc]
  generalize ({ w with tick := w.tick + 1 } : World) = v
  have key := closing_shows (v.pokeFile p 0 data) (v.calmed.pokeFile p 0 data) (pokeFile_calmed v p 0 data)
  cases h : w.sched w.tick with
  | fail n => exact .inl (.inl rfl)
  | crash n => exact .inl (.inr rfl)
  | _ => exact key

theorem openFile_shows (p : Path) : Shows (openFile p) := by
  rintro w _ rfl
  unfold openFile
  simp only [calmed]
  cases h : w.sched w.tick with
  | fail n => exact .inl (.inl rfl)
  | crash n => exact .inl (.inr rfl)
  | _ =>
    right
    cases w.fs p <;> exact ⟨rfl, rfl⟩

theorem create_shows (p : Path) : Shows (create p) :=
  (createFile_shows p _).bind fun _ => by rintro w _ rfl; exact .inr ⟨rfl, rfl⟩

theorem entropy_shows (n : Nat) : Shows (entropy n) := by
  rintro w _ rfl
  unfold entropy
  cases h : w.sched w.tick with
  | fail n => exact .inl (.inl rfl)
  | crash n => exact .inl (.inr rfl)
  | _ => exact .inr ⟨rfl, rfl⟩

/-- A read of one byte cannot be short. -/
theorem readHandle_shows (h : Nat) : Shows (readHandle h 1) := by
  rintro w _ rfl
  unfold readHandle
  simp only [calmed]
  cases hd : w.sched w.tick with
  | fail n => exact .inl (.inl rfl)
  | crash n => exact .inl (.inr rfl)
  | ok =>
    right
    cases w.handles[h]? with
    | none => exact ⟨rfl, rfl⟩
    | some hd =>
      simp only
      cases w.fs hd.path with
      | none => exact ⟨rfl, rfl⟩
      | some f =>
        simp only [Nat.one_ne_zero, if_false]
        split <;> exact ⟨rfl, rfl⟩
  | short k =>
    right
    cases w.handles[h]? with
    | none => exact ⟨rfl, rfl⟩
    | some hd =>
      simp only
      cases w.fs hd.path with
      | none => exact ⟨rfl, rfl⟩
      | some f =>
        simp only [Nat.one_ne_zero, if_false, show min 1 (k + 1) = 1 by omega]
        split <;> exact ⟨rfl, rfl⟩

theorem writeHandle_shows (h : Nat) (bs : Bytes) : Shows (writeHandle h bs) := by
  rintro w _ rfl
  unfold writeHandle
  rw [show w.calmed.handles[h]? = w.handles[h]? from rfl]
  cases w.handles[h]? with
  | none => exact .inl (.inl rfl)
  | some hd =>
    have hc : ({ w.calmed with tick := w.calmed.tick + 1 } : World) = ({ w with tick := w.tick + 1 } : World).calmed := rfl
    simp only
    rw [show w.calmed.sched w.calmed.tick = .ok from rfl]
    cases w.sched w.tick with
    | fail n => exact .inl (.inl rfl)
    | crash n => exact .inl (.inr rfl)
    | _ =>
      right
      simp only
      rw [hc, pokeFile_calmed]
      exact ⟨trivial, rfl⟩

theorem getBuf_shows (i : Nat) : Shows (getBuf i) := by rintro w _ rfl; exact .inr ⟨rfl, rfl⟩

theorem readPassword_shows : Shows readPassword := by
  rintro w _ rfl
  unfold readPassword
  simp only [calmed]
  cases h : w.tty with
  | nil => exact .inl (.inl rfl)
  | cons x rest => cases x with
    | none => exact .inl (.inl rfl)
    | some s => 
      exact .inr ⟨rfl, rfl⟩

theorem zeroBuf_calmed (i : Nat) (w : World) : World.zeroBuf i w.calmed = (World.zeroBuf i w).calmed := rfl

theorem print_shows (bs : Bytes) : Shows (Act.modify (World.print bs)) := Act.Masked.ofFun fun _ => rfl

theorem passphrasePrompt_shows (c : Bool) : Shows (passphrasePrompt c) := by
  unfold passphrasePrompt
  refine Act.Masked.bind (Act.Masked.ofFun fun w => ?_) fun _ => (print_shows _).bind fun _ => readPassword_shows.bind fun p =>
    (print_shows _).bind fun _ => ?_
  · rfl
  split
  · exact .pure _
  · refine (print_shows _).bind fun _ => readPassword_shows.bind fun q => .deferring (fun s t h => by cases h; rfl) ?_
    refine (print_shows _).bind fun _ => (getBuf_shows _).bind fun a => (getBuf_shows _).bind fun b => ?_
    split
    · exact .pure _
    · exact .fail _

theorem loadPublicKey_shows (p : Path) : Shows (loadPublicKey p) := (readFile_shows p).bind fun _ => .ofRes _
theorem loadPrivateKey_shows (p : Path) : Shows (loadPrivateKey p) := (readFile_shows p).bind fun _ => .ofRes _

theorem Verify_shows (P : Prims) (pp mp sp : Path) : Shows (Verify P pp mp sp) :=
  (loadPublicKey_shows _).bind fun _ => (readFile_shows _).bind fun _ => ((readFile_shows _).bind fun _ => .ofRes _).bind fun _ => .ofRes _

theorem signWith_shows (P : Prims) (priv : Private) (kp mp sp : Path) : Shows (signWith P priv kp mp sp) :=
  (readFile_shows _).bind fun _ => writeFile_shows _ _ _

theorem Sign_shows (P : Prims) (kp mp sp : Path) : Shows (Sign P kp mp sp) := by
  unfold Sign
  refine (loadPrivateKey_shows _).bind fun priv => ?_
  split
  · refine (passphrasePrompt_shows _).bind fun p => .deferring (fun s t h => by cases h; rfl) ?_
    exact (getBuf_shows _).bind fun pw => (Act.Masked.ofRes _).bind fun _ => signWith_shows P _ _ _ _
  · exact signWith_shows P _ _ _ _

theorem GenerateKeypair_shows (P : Prims) (pw : Bytes) (opts : Option Int) : Shows (GenerateKeypair P pw opts) :=
  (entropy_shows _).bind fun _ => (entropy_shows _).bind fun _ => (entropy_shows _).bind fun _ => .ofRes _

theorem GenerateKey_shows (P : Prims) (base : Path) (pw : Bytes) (opts : Option Int) : Shows (GenerateKey P base pw opts) :=
  (GenerateKeypair_shows P pw opts).bind fun _ => (writeFile_shows _ _ _).bind fun _ => writeFile_shows _ _ _

theorem toBox_shows (P : Prims) : Act.Masked (SndRel CalmRel) (Private.toBox P) (Private.toBox P) := by
  unfold Private.toBox
  refine (Act.Masked.ofRel .getFst).bind fun priv => ?_
  have fin : Act.Masked (SndRel CalmRel) (do let priv ← Act.getFst; pure (boxScalar P priv.key).1 : Act (Private × World) (Arr 32))
      (do let priv ← Act.getFst; pure (boxScalar P priv.key).1) := (Act.Masked.ofRel .getFst).bind fun _ => .pure _
  dsimp only
  split
  · exact fin
  · exact (passphrasePrompt_shows _).onSnd.bind fun p => (getBuf_shows _).onSnd.bind fun pw => (Act.Masked.ofRel .getFst).bind fun k =>
      (Act.Masked.ofRel (.setFst _)).bind fun _ => (Act.Masked.ofRes _).bind fun _ => fin

theorem openTail_shows (P : Prims) (fuel : Nat) (priv : Private) (hE hM : Nat) : Shows (openTail P fuel priv hE hM) := by
  rintro w w' hw
  exact (Act.Masked.openBox (fun n => (Act.Masked.decRead (readHandle_shows hE) fuel n).onSnd) (fun bs => (writeHandle_shows hM bs).onSnd) P
    (toBox_shows P) (priv, w) (priv, w') ⟨rfl, hw⟩).imp id fun h => ⟨h.1, h.2.2⟩

theorem Open_shows (P : Prims) (fuel : Nat) (kp ep mp : Path) : Shows (Open P fuel kp ep mp) := by
  rw [Open_unfold]
  exact (loadPrivateKey_shows _).bind fun priv => (openFile_shows _).bind fun e => (Act.Masked.skipComment (readHandle_shows e) fuel).bind fun _ =>
    (create_shows _).bind fun m => openTail_shows P fuel priv e m

end Verif
