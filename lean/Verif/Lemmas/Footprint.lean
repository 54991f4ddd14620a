/-
Two runs on machines that differ only in files outside a set of paths.
-/
import Verif.Model.Cli
import Verif.Spec.Footprint
import Verif.Lemmas.Rel
import Verif.Lemmas.OpenFile
import Verif.Lemmas.SealFile

namespace Verif
open World Spec

variable {σ τ α β γ : Type}

namespace Act.Rel

variable {R : σ → τ → Prop}

/-- As `bind`, when the values of the first action satisfy `Q`. -/
theorem bindQ {Q : α → Prop} {a : Act σ α} {b : Act τ α} {f : α → Act σ β} {g : α → Act τ β} (h : Act.Rel R a b)
    (hQ : ∀ s t, R s t → ∀ x, (a s).1 = .ok x → Q x) (hf : ∀ x, Q x → Act.Rel R (f x) (g x)) : Act.Rel R (a >>= f) (b >>= g) := by
  intro s t hst
  have h1 := h s t hst
  have h3 := hQ s t hst
  rw [Act.bind_eq, Act.bind_eq]
  rcases ha : a s with ⟨r, s'⟩
  rcases hb : b t with ⟨r', t'⟩
  rw [ha, hb] at h1
  rw [ha] at h3
  obtain ⟨h1, h2⟩ := h1
  simp only at h1 h2 h3
  subst h1
  cases r with
  | ok x => exact hf x (h3 x rfl) s' t' h2
  | _ => exact ⟨rfl, h2⟩

theorem modify {f : σ → σ} {g : τ → τ} (h : ∀ s t, R s t → R (f s) (g t)) : Act.Rel R (Act.modify f) (Act.modify g) :=
  fun s t hst => ⟨rfl, h s t hst⟩

theorem deferring {f : σ → σ} {g : τ → τ} (hfg : ∀ s t, R s t → R (f s) (g t)) {a : Act σ α} {b : Act τ α} (h : Act.Rel R a b) :
    Act.Rel R (Act.deferring f a) (Act.deferring g b) := by
  intro s t hst
  have h1 := h s t hst
  unfold Act.deferring
  rcases ha : a s with ⟨r, s'⟩
  rcases hb : b t with ⟨r', t'⟩
  rw [ha, hb] at h1
  obtain ⟨h1, h2⟩ := h1
  simp only at h1 h2
  subst h1
  cases r with
  | crash => exact ⟨rfl, h2⟩
  | hang => exact ⟨rfl, h2⟩
  | _ => exact ⟨rfl, hfg _ _ h2⟩

theorem skipComment {rd : Reader σ} {rd' : Reader τ} (h : Act.Rel R (rd 1) (rd' 1)) (fuel : Nat) :
    Act.Rel R (Verif.skipComment fuel rd) (Verif.skipComment fuel rd') := by
  have : ∀ c, Act.Rel R (Verif.skipCommentLoop rd fuel c) (Verif.skipCommentLoop rd' fuel c) := by
    induction fuel with
    | zero => intro c; unfold Verif.skipCommentLoop; exact hang
    | succ fuel ih =>
      intro c
      unfold Verif.skipCommentLoop
      refine bind h fun got => ?_
      dsimp only
      split
      · exact pure _
      · exact ih _
  exact this 0

theorem sealBox {rd : Reader σ} {rd' : Reader τ} {w : Writer σ} {w' : Writer τ} (hr : ∀ n, Act.Rel R (rd n) (rd' n))
    (hw : ∀ bs, Act.Rel R (w bs) (w' bs)) {rand : Act σ (Arr 32)} {rand' : Act τ (Arr 32)} (hrand : Act.Rel R rand rand')
    (P : Prims) (pub : Public) (len : Nat) : Act.Rel R (Verif.sealBox P pub rand rd len w) (Verif.sealBox P pub rand' rd' len w') := by
  unfold Verif.sealBox
  split
  · exact pure _
  · exact bind (ofRes _) fun _ => bind hrand fun _ => bind (hw _) fun _ => sealLoop hr hw P _ _ _

end Act.Rel

/-- As `SameFor`, with all files opened after the first `n` at paths of the set. -/
def Foot (S : Path → Prop) (n : Nat) (w w' : World) : Prop :=
  SameFor S w w' ∧ n ≤ w.handles.length ∧ ∀ h hd, n ≤ h → w.handles[h]? = some hd → S hd.path

/-- The action gives the same results on machines that differ only outside `S`. -/
abbrev On (S : Path → Prop) (n : Nat) (a : Act World α) : Prop := Act.Rel (Foot S n) a a

variable {S : Path → Prop} {n : Nat}

theorem Foot.split {w w' : World} (h : Foot S n w w') : ∃ fs : FS, (∀ p, S p → fs p = w.fs p) ∧ w' = { w with fs := fs } :=
  ⟨w'.fs, h.1.2, h.1.1⟩

theorem Foot.cases {w w' : World} (h : Foot S n w w') {motive : World → Prop}
    (k : ∀ fs : FS, (∀ p, S p → fs p = w.fs p) → motive { w with fs := fs }) : motive w' := by
  obtain ⟨⟨h1, h2⟩, -⟩ := h
  rw [h1]
  exact k _ h2

theorem readFile_on (p : Path) (hp : S p) : On S n (readFile p) := by
  intro w w' h
  obtain ⟨fs, hfs, rfl⟩ := h.split
  have ht : Foot S n { w with tick := w.tick + 1 } { w with fs := fs, tick := w.tick + 1 } := ⟨⟨rfl, hfs⟩, h.2⟩
  unfold readFile
  simp only
  cases w.sched w.tick with
  | fail n => exact ⟨rfl, ht⟩
  | crash n => exact ⟨rfl, ht⟩
  | _ => simp only; rw [hfs p hp]; cases w.fs p <;> exact ⟨rfl, ht⟩

theorem setFile_foot {w : World} {fs : FS} (hfs : ∀ p, S p → fs p = w.fs p) (p : Path) (f : File) :
    ∀ q, S q → ({ w with fs := fs }.setFile p f).fs q = (w.setFile p f).fs q := by
  intro q hq
  unfold setFile
  simp only
  split
  · rfl
  · exact hfs q hq

theorem truncated_foot {w : World} {fs : FS} (hfs : ∀ p, S p → fs p = w.fs p) {p : Path} (hp : S p) (perm : Nat) :
    ({ w with fs := fs } : World).truncated p perm = w.truncated p perm := by
  unfold truncated
  simp only
  rw [hfs p hp]

theorem createFile_on (p : Path) (hp : S p) (perm : Nat) : On S n (createFile p perm) := by
  intro w w' h
  obtain ⟨fs, hfs, rfl⟩ := h.split
  have ht : Foot S n { w with tick := w.tick + 1 } { w with fs := fs, tick := w.tick + 1 } := ⟨⟨rfl, hfs⟩, h.2⟩
  have hc : ∀ f : File, Foot S n ({ w with tick := w.tick + 1 }.setFile p f) (({ w with fs := fs, tick := w.tick + 1 } : World).setFile p f) :=
    fun f => ⟨⟨rfl, setFile_foot hfs p f⟩, h.2⟩
  unfold createFile
  simp only
  rw [truncated_foot hfs hp]
  cases w.sched w.tick with
  | fail n => exact ⟨rfl, ht⟩
  | crash n =>
    by_cases hn : n = 0
    · simp only [hn, if_true]; exact ⟨trivial, ht⟩
    · simp only [hn, if_false]; exact ⟨trivial, hc _⟩
  | _ => exact ⟨rfl, hc _⟩

theorem pokeFile_foot {w w' : World} (h : Foot S n w w') {p : Path} (hp : S p) (off : Nat) (bs : Bytes) :
    Foot S n (w.pokeFile p off bs) (w'.pokeFile p off bs) := by
  obtain ⟨fs, hfs, rfl⟩ := h.split
  unfold pokeFile
  simp only
  rw [hfs p hp]
  cases w.fs p with
  | none => exact h
  | some f => exact ⟨⟨rfl, setFile_foot hfs p _⟩, h.2⟩

theorem tick_foot {w w' : World} (h : Foot S n w w') : Foot S n { w with tick := w.tick + 1 } { w' with tick := w'.tick + 1 } :=
  h.cases (motive := fun w' => Foot S n { w with tick := w.tick + 1 } { w' with tick := w'.tick + 1 }) fun _ hfs => ⟨⟨rfl, hfs⟩, h.2⟩

theorem Foot.sched {w w' : World} (h : Foot S n w w') : w'.sched w'.tick = w.sched w.tick := by
  refine h.cases (motive := fun w' => w'.sched w'.tick = w.sched w.tick) fun _ _ => rfl

theorem Foot.handles {w w' : World} (h : Foot S n w w') : w'.handles = w.handles := by
  refine h.cases (motive := fun w' => w'.handles = w.handles) fun _ _ => rfl

theorem Foot.fs {w w' : World} (h : Foot S n w w') {p : Path} (hp : S p) : w'.fs p = w.fs p := h.1.2 p hp

theorem next_on : On S n next := by
  intro w w' h
  unfold next
  rw [h.sched]
  exact ⟨rfl, tick_foot h⟩

theorem writeFile_on (p : Path) (hp : S p) (data : Bytes) (perm : Nat) : On S n (writeFile p data perm) := by
  unfold writeFile
  refine (createFile_on p hp perm).bind fun _ => next_on.bind fun d => ?_
  intro w w' h
  cases d with
  | fail k => exact ⟨rfl, pokeFile_foot h hp _ _⟩
  | crash k => exact ⟨rfl, pokeFile_foot h hp _ _⟩
  | _ =>
    have h1 := pokeFile_foot h hp 0 data
    simp only
    rw [h1.sched]
    cases (w.pokeFile p 0 data).sched (w.pokeFile p 0 data).tick <;> exact ⟨rfl, tick_foot h1⟩

theorem push_foot {w w' : World} (h : Foot S n w w') {p : Path} (hp : S p) :
    Foot S n { w with handles := w.handles ++ [⟨p, 0⟩] } { w' with handles := w'.handles ++ [⟨p, 0⟩] } := by
  refine h.cases (motive := fun w' => Foot S n { w with handles := w.handles ++ [⟨p, 0⟩] } { w' with handles := w'.handles ++ [⟨p, 0⟩] })
    fun fs hfs => ⟨⟨rfl, hfs⟩, ?_, ?_⟩
  · simp only [List.length_append]; have := h.2.1; omega
  · intro k hd hk hkd
    simp only [List.getElem?_append] at hkd
    split at hkd
    · exact h.2.2 k hd hk hkd
    · rename_i hlt
      rcases Nat.eq_zero_or_pos (k - w.handles.length) with h0 | h0
      · rw [h0] at hkd; simp only [List.getElem?_cons_zero, Option.some.injEq] at hkd; rw [← hkd]; exact hp
      · rw [List.getElem?_eq_none (by simp; omega)] at hkd; cases hkd

theorem openFile_on (p : Path) (hp : S p) : On S n (openFile p) := by
  intro w w' h
  obtain ⟨fs, hfs, rfl⟩ := h.split
  unfold openFile
  simp only
  rw [hfs p hp]
  cases w.sched w.tick with
  | fail n => exact ⟨rfl, tick_foot h⟩
  | crash n => exact ⟨rfl, tick_foot h⟩
  | _ =>
    cases w.fs p with
    | none => exact ⟨rfl, tick_foot h⟩
    | some f => exact ⟨rfl, push_foot (tick_foot h) hp⟩

theorem openFile_new (p : Path) (w w' : World) (h : Foot S n w w') (x : Nat) (hx : (openFile p w).1 = .ok x) : n ≤ x := by
  unfold openFile at hx
  simp only at hx
  have := h.2.1
  cases hs : w.sched w.tick <;> rw [hs] at hx <;> simp only at hx
  all_goals first
    | cases hx
    | (cases hf : w.fs p with
       | none => rw [hf] at hx; cases hx
       | some f => rw [hf] at hx; cases hx; exact this)

theorem create_on (p : Path) (hp : S p) : On S n (create p) := by
  unfold create
  refine (createFile_on p hp _).bind fun _ => fun w w' h => ?_
  obtain ⟨fs, hfs, rfl⟩ := h.split
  exact ⟨rfl, push_foot h hp⟩

theorem create_new (p : Path) (w w' : World) (h : Foot S n w w') (x : Nat) (hx : (create p w).1 = .ok x) : n ≤ x := by
  obtain ⟨r, v, h1, -, -, -, ⟨rfl, -⟩ | ⟨rfl | rfl, -⟩⟩ := create_spec p w
  · rw [h1] at hx; cases hx; exact h.2.1
  · rw [h1] at hx; cases hx
  · rw [h1] at hx; cases hx

theorem fileSize_on {h : Nat} (hn : n ≤ h) : On S n (fileSize h) := by
  intro w w' hw
  obtain ⟨fs, hfs, rfl⟩ := hw.split
  unfold fileSize
  simp only
  cases w.sched w.tick with
  | fail n => exact ⟨rfl, tick_foot hw⟩
  | crash n => exact ⟨rfl, tick_foot hw⟩
  | _ =>
    simp only
    cases hd : w.handles[h]? with
    | none => exact ⟨rfl, tick_foot hw⟩
    | some hd' =>
      simp only
      rw [hfs _ (hw.2.2 h hd' hn hd)]
      cases w.fs hd'.path <;> exact ⟨rfl, tick_foot hw⟩

theorem advance_foot {w w' : World} (hw : Foot S n w w') (h k : Nat) : Foot S n (w.advance h k) (w'.advance h k) := by
  refine hw.cases (motive := fun w' => Foot S n (w.advance h k) (w'.advance h k)) fun fs hfs => ⟨⟨rfl, hfs⟩, ?_, ?_⟩
  · simp only [advance, List.length_modify]; exact hw.2.1
  · intro i hd hi hid
    simp only [advance, List.getElem?_modify] at hid
    cases hx : w.handles[i]? with
    | none => rw [hx] at hid; cases hid
    | some x =>
      rw [hx] at hid
      simp only [Option.map_eq_map, Option.map_some, Option.some.injEq] at hid
      have := hw.2.2 i x hi hx
      rw [← hid]
      split <;> exact this

theorem readHandle_on {h : Nat} (hn : n ≤ h) (k : Nat) : On S n (readHandle h k) := by
  intro w w' hw
  obtain ⟨fs, hfs, rfl⟩ := hw.split
  unfold readHandle
  simp only
  cases hs : w.sched w.tick with
  | fail n => exact ⟨rfl, tick_foot hw⟩
  | crash n => exact ⟨rfl, tick_foot hw⟩
  | _ =>
    simp only
    cases hd : w.handles[h]? with
    | none => exact ⟨rfl, tick_foot hw⟩
    | some hd' =>
      simp only
      rw [hfs _ (hw.2.2 h hd' hn hd)]
      cases w.fs hd'.path with
      | none => exact ⟨rfl, tick_foot hw⟩
      | some f =>
        simp only
        by_cases h1 : k = 0
        · simp only [h1, if_true]; exact ⟨trivial, tick_foot hw⟩
        · simp only [h1, if_false]
          by_cases h2 : f.data.drop hd'.off = []
          · simp only [h2, if_true]; exact ⟨trivial, tick_foot hw⟩
          · simp only [h2, if_false]; exact ⟨trivial, advance_foot (tick_foot hw) _ _⟩

theorem writeHandle_on {h : Nat} (hn : n ≤ h) (bs : Bytes) : On S n (writeHandle h bs) := by
  intro w w' hw
  obtain ⟨fs, hfs, rfl⟩ := hw.split
  unfold writeHandle
  simp only
  cases hd : w.handles[h]? with
  | none => exact ⟨rfl, tick_foot hw⟩
  | some hd' =>
    simp only
    have hp := hw.2.2 h hd' hn hd
    cases w.sched w.tick <;> exact ⟨rfl, advance_foot (pokeFile_foot (tick_foot hw) hp _ _) _ _⟩

theorem entropy_on (k : Nat) : On S n (entropy k) := by
  intro w w' h
  obtain ⟨fs, hfs, rfl⟩ := h.split
  unfold entropy
  simp only
  cases w.sched w.tick <;> exact ⟨rfl, ⟨rfl, hfs⟩, h.2⟩

theorem readPassword_on : On S n readPassword := by
  intro w w' h
  obtain ⟨fs, hfs, rfl⟩ := h.split
  obtain ⟨_, _, _, _, _, tty, _, _, _, _, _, _⟩ := w
  unfold readPassword
  rcases tty with _ | ⟨_ | x, rest⟩ <;> exact ⟨rfl, ⟨rfl, hfs⟩, h.2⟩

theorem getBuf_on (i : Nat) : On S n (getBuf i) := by
  intro w w' h
  obtain ⟨fs, hfs, rfl⟩ := h.split
  exact ⟨rfl, ⟨rfl, hfs⟩, h.2⟩

theorem print_foot (bs : Bytes) (w w' : World) (h : Foot S n w w') : Foot S n (w.print bs) (w'.print bs) :=
  h.cases (motive := fun w' => Foot S n (w.print bs) (w'.print bs)) fun _ hfs => ⟨⟨rfl, hfs⟩, h.2⟩

theorem eprint_foot (bs : Bytes) (w w' : World) (h : Foot S n w w') : Foot S n (w.eprint bs) (w'.eprint bs) :=
  h.cases (motive := fun w' => Foot S n (w.eprint bs) (w'.eprint bs)) fun _ hfs => ⟨⟨rfl, hfs⟩, h.2⟩

theorem zeroBuf_foot (i : Nat) (w w' : World) (h : Foot S n w w') : Foot S n (World.zeroBuf i w) (World.zeroBuf i w') :=
  h.cases (motive := fun w' => Foot S n (World.zeroBuf i w) (World.zeroBuf i w')) fun _ hfs => ⟨⟨rfl, hfs⟩, h.2⟩

theorem passphrasePrompt_on (c : Bool) : On S n (passphrasePrompt c) := by
  unfold passphrasePrompt
  refine Act.Rel.bind (Act.Rel.modify fun w w' h => ?_) fun _ => (Act.Rel.modify (print_foot _)).bind fun _ => readPassword_on.bind fun p =>
    (Act.Rel.modify (print_foot _)).bind fun _ => ?_
  · exact h.cases (motive := fun w' => Foot S n _ { w' with prompts := w'.prompts ++ [c] }) fun _ hfs => ⟨⟨rfl, hfs⟩, h.2⟩
  split
  · exact .pure _
  · refine (Act.Rel.modify (print_foot _)).bind fun _ => readPassword_on.bind fun q => .deferring (zeroBuf_foot _) ?_
    refine (Act.Rel.modify (print_foot _)).bind fun _ => (getBuf_on _).bind fun a => (getBuf_on _).bind fun b => ?_
    split
    · exact .pure _
    · exact .fail _

theorem loadPublicKey_on (p : Path) (hp : S p) : On S n (loadPublicKey p) := (readFile_on p hp).bind fun _ => .ofRes _
theorem loadPrivateKey_on (p : Path) (hp : S p) : On S n (loadPrivateKey p) := (readFile_on p hp).bind fun _ => .ofRes _

theorem Verify_on (P : Prims) (pp mp sp : Path) (h1 : S pp) (h2 : S mp) (h3 : S (if sp = [] then mp ++ b!".sig" else sp)) :
    On S n (Verify P pp mp sp) :=
  (loadPublicKey_on _ h1).bind fun _ => (readFile_on _ h2).bind fun _ => ((readFile_on _ h3).bind fun _ => .ofRes _).bind fun _ => .ofRes _

theorem signWith_on (P : Prims) (priv : Private) (kp mp sp : Path) (h2 : S mp) (h3 : S sp) : On S n (signWith P priv kp mp sp) :=
  (readFile_on _ h2).bind fun _ => writeFile_on _ h3 _ _

theorem Sign_on (P : Prims) (kp mp sp : Path) (h1 : S kp) (h2 : S mp) (h3 : S (if sp = [] then mp ++ b!".sig" else sp)) :
    On S n (Sign P kp mp sp) := by
  unfold Sign
  refine (loadPrivateKey_on _ h1).bind fun priv => ?_
  split
  · refine (passphrasePrompt_on _).bind fun p => .deferring (zeroBuf_foot _) ?_
    exact (getBuf_on _).bind fun pw => (Act.Rel.ofRes _).bind fun _ => signWith_on P _ _ _ _ h2 h3
  · exact signWith_on P _ _ _ _ h2 h3

theorem GenerateKeypair_on (P : Prims) (pw : Bytes) (opts : Option Int) : On S n (GenerateKeypair P pw opts) :=
  (entropy_on _).bind fun _ => (entropy_on _).bind fun _ => (entropy_on _).bind fun _ => .ofRes _

theorem GenerateKey_on (P : Prims) (base : Path) (pw : Bytes) (opts : Option Int) (h1 : S (base ++ b!".sec")) (h2 : S (base ++ b!".pub")) :
    On S n (GenerateKey P base pw opts) :=
  (GenerateKeypair_on P pw opts).bind fun _ => (writeFile_on _ h1 _ _).bind fun _ => writeFile_on _ h2 _ _

theorem toBox_on (P : Prims) : Act.Rel (SndRel (Foot S n)) (Private.toBox P) (Private.toBox P) := by
  unfold Private.toBox
  refine Act.Rel.getFst.bind fun priv => ?_
  have fin : Act.Rel (SndRel (Foot S n)) (do let priv ← Act.getFst; pure (boxScalar P priv.key).1 : Act (Private × World) (Arr 32))
      (do let priv ← Act.getFst; pure (boxScalar P priv.key).1) := Act.Rel.getFst.bind fun _ => .pure _
  dsimp only
  split
  · exact fin
  · exact (passphrasePrompt_on _).onSnd.bind fun p => (getBuf_on _).onSnd.bind fun pw => Act.Rel.getFst.bind fun k =>
      (Act.Rel.setFst _).bind fun _ => (Act.Rel.ofRes _).bind fun _ => fin

theorem openTail_on (P : Prims) (fuel : Nat) (priv : Private) {hE hM : Nat} (h1 : n ≤ hE) (h2 : n ≤ hM) : On S n (openTail P fuel priv hE hM) := by
  intro w w' hw
  have h := Act.Rel.openBox (fun k => (Act.Rel.decRead (readHandle_on h1 1) fuel k).onSnd) (fun bs => (writeHandle_on h2 bs).onSnd) P
    (toBox_on P) (priv, w) (priv, w') ⟨rfl, hw⟩
  exact ⟨h.1, h.2.2⟩

theorem Open_on (P : Prims) (fuel : Nat) (kp ep mp : Path) (h1 : S kp) (h2 : S ep) (h3 : S mp) : On S n (Open P fuel kp ep mp) := by
  rw [Open_unfold]
  exact (loadPrivateKey_on _ h1).bind fun priv => (openFile_on _ h2).bindQ (Q := fun x => n ≤ x) (fun w w' h x hx => openFile_new ep w w' h x hx) fun e he =>
    (Act.Rel.skipComment (readHandle_on he 1) fuel).bind fun _ =>
    (create_on _ h3).bindQ (Q := fun x => n ≤ x) (fun w w' h x hx => create_new mp w w' h x hx) fun m hm => openTail_on P fuel priv he hm

theorem sealTail_on (P : Prims) (pub : Public) {hM hE : Nat} (len : Nat) (h1 : n ≤ hM) (h2 : n ≤ hE) : On S n (sealTail P pub hM len hE) := by
  intro w w' hw
  have h := Act.Rel.sealBox (R := SndRel (γ := EncState) (Foot S n)) (fun k => (readHandle_on h1 k).onSnd) (fun bs => Act.Rel.encWriteLoop (writeHandle_on h2) 0 bs)
    (entropy_on 32).onSnd P pub len (EncState.new, w) (EncState.new, w') ⟨rfl, hw⟩
  unfold sealTail encWrite
  dsimp only
  rcases ha : sealBox P pub (Act.onSnd (World.entropy 32)) (fun n => Act.onSnd (World.readHandle hM n)) len
    (fun p => encWriteLoop (World.writeHandle hE) 0 p) (EncState.new, w) with ⟨r, s⟩
  rcases hb : sealBox P pub (Act.onSnd (World.entropy 32)) (fun n => Act.onSnd (World.readHandle hM n)) len
    (fun p => encWriteLoop (World.writeHandle hE) 0 p) (EncState.new, w') with ⟨r', t⟩
  rw [ha, hb] at h
  obtain ⟨h, hst⟩ := h
  simp only at h hst
  subst h
  have hc := Act.Rel.encClose (writeHandle_on h2) s t hst
  dsimp only
  rcases hca : encClose (World.writeHandle hE) s with ⟨c, s'⟩
  rcases hcb : encClose (World.writeHandle hE) t with ⟨c', t'⟩
  rw [hca, hcb] at hc
  obtain ⟨hc, hst'⟩ := hc
  simp only at hc hst'
  subst hc
  cases r <;> first | exact ⟨rfl, hst.2⟩ | (cases c <;> exact ⟨rfl, hst'.2⟩)

theorem Seal_on (P : Prims) (pp mp ep : Path) (h1 : S pp) (h2 : S mp) (h3 : S (encPath mp ep)) : On S n (Seal P pp mp ep) := by
  rw [Seal_unfold]
  exact (loadPublicKey_on _ h1).bind fun pub => (openFile_on _ h2).bindQ (Q := fun x => n ≤ x) (fun w w' h x hx => openFile_new mp w w' h x hx) fun m hm =>
    (fileSize_on hm).bind fun len => (create_on _ h3).bindQ (Q := fun x => n ≤ x) (fun w w' h x hx => create_new _ w w' h x hx) fun e he =>
    (writeHandle_on he _).bind fun _ => sealTail_on P pub len hm he

/-! ### The process -/

/-- As `On`, for the branches of the main function. -/
def ExitOn (S : Path → Prop) (n : Nat) (a : World → Exit × World) : Prop :=
  ∀ w w', Foot S n w w' → (a w).1 = (a w').1 ∧ Foot S n (a w).2 (a w').2

theorem orExit_on {op : Act World α} (h : On S n op) (msg : GoErr → Bytes) {rest : α → World → Exit × World}
    (hr : ∀ x, ExitOn S n (rest x)) : ExitOn S n (orExit op msg rest) := by
  intro w w' hw
  have h1 := h w w' hw
  unfold orExit
  rcases ha : op w with ⟨r, v⟩
  rcases hb : op w' with ⟨r', v'⟩
  rw [ha, hb] at h1
  obtain ⟨h1, h2⟩ := h1
  simp only at h1 h2
  subst h1
  cases r with
  | ok x => exact hr x v v' h2
  | err e => exact ⟨rfl, eprint_foot _ _ _ h2⟩
  | _ => exact ⟨rfl, h2⟩

theorem done_on (msg : Bytes) (u : Unit) : ExitOn S n (done msg u) := fun w w' hw => ⟨rfl, print_foot _ w w' hw⟩

theorem eprint_on (msg : Bytes) (k : Nat) : ExitOn S n (fun w => (.status k, w.eprint msg)) := fun w w' hw => ⟨rfl, eprint_foot _ w w' hw⟩

theorem cliGenerate_on (P : Prims) (env : CliEnv) (noPass : Bool) (base : Path) (h1 : S (base ++ b!".sec")) (h2 : S (base ++ b!".pub")) :
    ExitOn S n (cliGenerate P env noPass base) := by
  unfold cliGenerate
  have hg : ∀ pw, ExitOn S n (orExit (GenerateKey P base pw none)
        (fun e => b!"Failed to generate keypair: " ++ env.errText e ++ b!"\n") (done [])) :=
    fun pw => orExit_on (GenerateKey_on P base pw none h1 h2) _ (done_on [])
  intro w w' hw
  dsimp only
  split
  · exact eprint_on _ _ w w' hw
  · split
    · refine orExit_on (passphrasePrompt_on true) _ (fun buf v v' hv => ?_) w w' hw
      have hb : v'.bufs = v.bufs := by obtain ⟨fs, -, rfl⟩ := hv.split; rfl
      simp only [hb]
      exact hg _ v v' hv
    · exact hg _ w w' hw

end Verif
