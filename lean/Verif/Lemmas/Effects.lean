/-
Which calls ask for a passphrase, print or draw entropy; and that no call panics.
-/
import Verif.Lemmas.OpenRel
import Verif.Lemmas.SealFile

namespace Verif
open World Spec

/-! ### Terminal and entropy -/

/-- Terminal, printed output and entropy are as before. -/
structure SameTerm (w w' : World) : Prop where
  prompts : w'.prompts = w.prompts
  tty : w'.tty = w.tty
  stdout : w'.stdout = w.stdout
  stderr : w'.stderr = w.stderr
  rng : w'.rng = w.rng
  rngPos : w'.rngPos = w.rngPos

theorem SameTerm.refl (w : World) : SameTerm w w := ⟨rfl, rfl, rfl, rfl, rfl, rfl⟩

theorem SameTerm.trans {a b c : World} (h : SameTerm a b) (k : SameTerm b c) : SameTerm a c :=
  ⟨k.1.trans h.1, k.2.trans h.2, k.3.trans h.3, k.4.trans h.4, k.5.trans h.5, k.6.trans h.6⟩

theorem SameTerm.ofIO {a b : World} (h : FrameIO a b) : SameTerm a b := by rw [h]; exact ⟨rfl, rfl, rfl, rfl, rfl, rfl⟩
theorem SameTerm.ofFS {a b : World} (h : FrameFS a b) : SameTerm a b := by rw [h]; exact ⟨rfl, rfl, rfl, rfl, rfl, rfl⟩

/-- One passphrase was asked for, without confirmation; entropy and standard error are as before. -/
structure AskedOnce (w w' : World) : Prop where
  prompts : w'.prompts = w.prompts ++ [false]
  stderr : w'.stderr = w.stderr
  rng : w'.rng = w.rng
  rngPos : w'.rngPos = w.rngPos
  answer : (w.tty = [] ∧ w'.tty = [] ∧ w'.stdout = w.stdout ++ b!"Password: ") ∨
    (w.tty = none :: w'.tty ∧ w'.stdout = w.stdout ++ b!"Password: ") ∨
    (∃ pw, w.tty = some pw :: w'.tty ∧ w'.stdout = w.stdout ++ b!"Password: " ++ b!"\n")

/-- At most one passphrase was asked for. -/
def AskedAtMostOnce (w w' : World) : Prop := SameTerm w w' ∨ AskedOnce w w'

theorem AskedOnce.after {a b c : World} (h : AskedOnce a b) (k : SameTerm b c) : AskedOnce a c :=
  ⟨k.prompts.trans h.prompts, k.stderr.trans h.stderr, k.rng.trans h.rng, k.rngPos.trans h.rngPos,
    by rw [k.tty, k.stdout]; exact h.answer⟩

theorem AskedOnce.before {a b c : World} (h : SameTerm a b) (k : AskedOnce b c) : AskedOnce a c :=
  ⟨by rw [k.prompts, h.prompts], by rw [k.stderr, h.stderr], by rw [k.rng, h.rng], by rw [k.rngPos, h.rngPos],
    by rw [← h.tty, ← h.stdout]; exact k.answer⟩

theorem AskedAtMostOnce.after {a b c : World} (h : AskedAtMostOnce a b) (k : SameTerm b c) : AskedAtMostOnce a c :=
  h.imp (fun h => h.trans k) (fun h => h.after k)

theorem AskedAtMostOnce.before {a b c : World} (h : SameTerm a b) (k : AskedAtMostOnce b c) : AskedAtMostOnce a c :=
  k.imp (fun k => h.trans k) (fun k => .before h k)

/-- An action that leaves the terminal alone, from every state. -/
def Act.Mute {α : Type} (a : Act World α) : Prop := ∀ w, SameTerm w (a w).2

theorem Act.Mute.bind {α β : Type} {a : Act World α} {f : α → Act World β} (ha : a.Mute) (hf : ∀ x, (f x).Mute) : (a >>= f).Mute := by
  intro w
  have h1 := ha w
  rw [Act.bind_eq]
  rcases h : a w with ⟨r, w'⟩
  rw [h] at h1
  cases r with
  | ok x => exact h1.trans (hf x w')
  | _ => exact h1

theorem mute_pure {α : Type} (x : α) : (pure x : Act World α).Mute := fun w => .refl w
theorem mute_ofRes {α : Type} (r : Res α) : (Act.ofRes r : Act World α).Mute := fun w => .refl w

theorem mute_readFile (p : Path) : (World.readFile p).Mute := by
  intro w; rw [(readFile_spec p w).1]; exact ⟨rfl, rfl, rfl, rfl, rfl, rfl⟩

theorem mute_writeFile (p : Path) (d : Bytes) (perm : Nat) : (World.writeFile p d perm).Mute :=
  fun w => .ofFS (writeFile_spec p d perm w).frame

theorem mute_openFile (p : Path) : (World.openFile p).Mute := by
  intro w
  obtain ⟨r, w', h, fr, -⟩ := openFile_spec p w
  rw [h]; exact .ofIO fr

theorem mute_create (p : Path) : (World.create p).Mute := by
  intro w
  obtain ⟨r, w', h, fr, -⟩ := create_spec p w
  rw [h]; exact .ofIO fr

theorem mute_fileSize (h : Nat) : (World.fileSize h).Mute := by
  intro w
  unfold fileSize
  dsimp only
  repeat' split
  all_goals exact ⟨rfl, rfl, rfl, rfl, rfl, rfl⟩

theorem mute_readHandle (h n : Nat) : (World.readHandle h n).Mute := by
  intro w
  unfold readHandle
  dsimp only
  repeat' split
  all_goals exact ⟨rfl, rfl, rfl, rfl, rfl, rfl⟩

theorem sameTerm_pokeFile (w : World) (p : Path) (off : Nat) (bs : Bytes) : SameTerm w (w.pokeFile p off bs) := by
  unfold pokeFile
  split <;> exact ⟨rfl, rfl, rfl, rfl, rfl, rfl⟩

theorem mute_writeHandle (h : Nat) (bs : Bytes) : (World.writeHandle h bs).Mute := by
  intro w
  have key : ∀ p off b n, SameTerm w (({ w with tick := w.tick + 1 }.pokeFile p off b).advance h n) := by
    intro p off b n
    have h1 := sameTerm_pokeFile { w with tick := w.tick + 1 } p off b
    exact ⟨h1.1, h1.2, h1.3, h1.4, h1.5, h1.6⟩
  unfold writeHandle
  dsimp only
  split
  · exact ⟨rfl, rfl, rfl, rfl, rfl, rfl⟩
  · split <;> exact key _ _ _ _

/-- Equal states that satisfy `I`. -/
def Diag {σ : Type} (I : σ → Prop) (s t : σ) : Prop := s = t ∧ I s

theorem Act.Rel.diag {σ α : Type} {I : σ → Prop} {a : Act σ α} (h : Act.Keeps I a) : Act.Rel (Diag I) a a := by
  rintro s t ⟨rfl, hI⟩
  exact ⟨rfl, rfl, h s hI⟩

theorem Act.Rel.keeps {σ α : Type} {I : σ → Prop} {a : Act σ α} (h : Act.Rel (Diag I) a a) : Act.Keeps I a :=
  fun s hs => (h s s ⟨rfl, hs⟩).2.2

theorem Act.Rel.keepsSnd {γ σ α : Type} {I : σ → Prop} {a : Act (γ × σ) α} (h : Act.Rel (SndRel (Diag I)) a a) :
    Act.Keeps (fun s => I s.2) a :=
  fun s hs => (h s s ⟨rfl, rfl, hs⟩).2.2.2

theorem Act.Mute.keeps {α : Type} {a : Act World α} (h : a.Mute) (w0 : World) : Act.Keeps (SameTerm w0) a :=
  fun w hw => hw.trans (h w)

/-- The action keeps the terminal as it is in the second component. -/
def Act.MuteSnd {γ α : Type} (a : Act (γ × World) α) : Prop := ∀ s, SameTerm s.2 (a s).2.2

theorem Act.MuteSnd.ofKeeps {γ α : Type} {a : Act (γ × World) α} (h : ∀ w0, Act.Keeps (fun s => SameTerm w0 s.2) a) : a.MuteSnd :=
  fun s => h s.2 s (.refl _)

theorem Act.Mute.onSnd {γ α : Type} {a : Act World α} (h : a.Mute) : (Act.onSnd a : Act (γ × World) α).MuteSnd := fun s => h s.2

theorem Act.MuteSnd.keeps {γ α : Type} {a : Act (γ × World) α} (h : a.MuteSnd) (w0 : World) :
    Act.Keeps (fun s : γ × World => SameTerm w0 s.2) a := fun s hs => hs.trans (h s)

theorem muteSnd_decRead {γ : Type} (h fuel n : Nat) :
    (Act.onSnd (decRead fuel (World.readHandle h) n) : Act (γ × World) Bytes).MuteSnd :=
  Act.Mute.onSnd fun w =>
    (Act.Rel.decRead (Act.Rel.diag ((mute_readHandle h 1).keeps w)) fuel n).keeps w (.refl w)

theorem mute_skipComment (h fuel : Nat) : (skipComment fuel (World.readHandle h)).Mute := by
  have : ∀ c, (skipCommentLoop (World.readHandle h) fuel c).Mute := by
    induction fuel with
    | zero => intro c w; exact .refl w
    | succ fuel ih =>
      intro c
      unfold skipCommentLoop
      refine (mute_readHandle h 1).bind fun got => ?_
      dsimp only
      split
      · exact mute_pure _
      · exact ih _
  exact this 0

theorem toBox_asked (P : Prims) (priv : Private) (w : World) : AskedAtMostOnce w (Private.toBox P (priv, w)).2.2 := by
  by_cases h : priv.check P = .ok ()
  · rw [toBox_checked P priv w h]; exact .inl (.refl w)
  · right
    have hc : priv.check P = .err .badChecksum := (check_cases P priv).resolve_left h
    cases ht : w.tty with
    | nil =>
      simp only [Private.toBox, Act.bind_eq, Act.getFst_apply, hc, Act.onSnd_apply, passphrasePrompt_nil ht]
      exact ⟨rfl, rfl, rfl, rfl, .inl ⟨ht, ht, rfl⟩⟩
    | cons x rest =>
      cases x with
      | none =>
        simp only [Private.toBox, Act.bind_eq, Act.getFst_apply, hc, Act.onSnd_apply, passphrasePrompt_none ht]
        exact ⟨rfl, rfl, rfl, rfl, .inr (.inl ⟨ht, rfl⟩)⟩
      | some pw =>
        rw [toBox_typed P priv w h ht]
        exact ⟨rfl, rfl, rfl, rfl, .inr (.inr ⟨pw, ht, rfl⟩)⟩

theorem openTail_asked (P : Prims) (fuel : Nat) (priv : Private) (hE hM : Nat) (w : World) :
    AskedAtMostOnce w (openTail P fuel priv hE hM w).2 := by
  unfold openTail openBox
  dsimp only
  rw [Act.bind_eq]
  have h1 := toBox_asked P priv w
  rcases hb : Private.toBox P (priv, w) with ⟨r, k, w1⟩
  rw [hb] at h1
  have hr : ∀ n, Act.Rel (Diag fun s : Private × World => SameTerm w1 s.2) (Act.onSnd (decRead fuel (World.readHandle hE) n))
      (Act.onSnd (decRead fuel (World.readHandle hE) n)) := fun n => Act.Rel.diag ((muteSnd_decRead hE fuel n).keeps w1)
  have hw : ∀ bs, Act.Rel (Diag fun s : Private × World => SameTerm w1 s.2) (Act.onSnd (World.writeHandle hM bs))
      (Act.onSnd (World.writeHandle hM bs)) := fun bs => Act.Rel.diag (((mute_writeHandle hM bs).onSnd).keeps w1)
  cases r with
  | ok edpriv =>
    refine h1.after ?_
    dsimp only
    refine (Act.Rel.bind (hr headerSize) fun header => ?_).keeps (k, w1) (.refl w1)
    split
    · exact .fail _
    · split
      · exact .fail _
      · exact .openLoop hr hw P _ _ _ _
  | _ => exact h1

theorem mute_loadPrivateKey (p : Path) : (loadPrivateKey p).Mute := (mute_readFile p).bind fun _ => mute_ofRes _
theorem mute_loadPublicKey (p : Path) : (loadPublicKey p).Mute := (mute_readFile p).bind fun _ => mute_ofRes _

/-- Going on after a mute action. -/
theorem asked_bind {α β : Type} {a : Act World α} {f : α → Act World β} (ha : a.Mute) (hf : ∀ x w, AskedAtMostOnce w (f x w).2) (w : World) :
    AskedAtMostOnce w ((a >>= f) w).2 := by
  have h1 := ha w
  rw [Act.bind_eq]
  rcases h : a w with ⟨r, w'⟩
  rw [h] at h1
  cases r with
  | ok x => exact .before h1 (hf x w')
  | _ => exact .inl h1

theorem Open_asked (P : Prims) (fuel : Nat) (kp ep mp : Path) (w : World) : AskedAtMostOnce w (Open P fuel kp ep mp w).2 := by
  rw [Open_unfold]
  exact asked_bind (mute_loadPrivateKey kp) (fun priv => asked_bind (mute_openFile ep) fun e => asked_bind (mute_skipComment e fuel)
    fun _ => asked_bind (mute_create mp) fun m => openTail_asked P fuel priv e m) w

theorem mute_signWith (P : Prims) (priv : Private) (pk mp sp : Path) : (signWith P priv pk mp sp).Mute :=
  fun w => .ofFS (signWith_spec P priv pk mp sp w).1

theorem Sign_asked (P : Prims) (pk mp sp : Path) (w : World) : AskedAtMostOnce w (Sign P pk mp sp w).2 := by
  by_cases hl : ∃ priv, (loadPrivateKey pk w).1 = .ok priv
  · obtain ⟨priv, hl⟩ := hl
    have hw : SameTerm w { w with tick := w.tick + 1 } := ⟨rfl, rfl, rfl, rfl, rfl, rfl⟩
    by_cases he : priv.kdfRounds = 0
    · rw [Sign_unfold P pk mp sp w hl, if_neg (by rw [(not_isEncrypted_iff priv).mpr he]; decide)]
      exact .inl (hw.trans (mute_signWith P priv pk mp _ _))
    · right
      cases ht : w.tty with
      | nil =>
        rw [Sign_unfold P pk mp sp w hl, if_pos ((isEncrypted_iff priv).mpr he), Act.bind_eq,
          passphrasePrompt_nil (w := { w with tick := w.tick + 1 }) ht]
        exact ⟨rfl, rfl, rfl, rfl, .inl ⟨ht, ht, rfl⟩⟩
      | cons x rest =>
        cases x with
        | none =>
          rw [Sign_unfold P pk mp sp w hl, if_pos ((isEncrypted_iff priv).mpr he), Act.bind_eq,
            passphrasePrompt_none (w := { w with tick := w.tick + 1 }) ht]
          exact ⟨rfl, rfl, rfl, rfl, .inr (.inl ⟨ht, rfl⟩)⟩
        | some pw =>
          have heq := Sign_typed P pk mp sp w hl he ht
          simp only at heq
          rw [heq]
          generalize hw1 : ({ w with
            tick := w.tick + 1, prompts := w.prompts ++ [false], tty := rest, bufs := w.bufs ++ [pw],
            stdout := w.stdout ++ b!"Password: " ++ b!"\n" } : World) = w1
          have hA : AskedOnce w w1 := by
            rw [← hw1]; exact ⟨rfl, rfl, rfl, rfl, .inr (.inr ⟨pw, ht, rfl⟩)⟩
          have hk : Act.Keeps (SameTerm w1) (Act.deferring (World.zeroBuf w.bufs.length) (do
              let _ ← Act.ofRes (Private.decrypt P pw priv).1
              signWith P (Private.decrypt P pw priv).2 pk mp (sigPath mp sp))) := by
            refine Act.Keeps.deferring (((mute_ofRes _).bind fun _ => mute_signWith P _ pk mp _).keeps w1) fun s hs => ?_
            exact ⟨hs.1, hs.2, hs.3, hs.4, hs.5, hs.6⟩
          exact hA.after (hk w1 (.refl w1))
  · obtain ⟨h1, -⟩ := Sign_fail P pk mp sp w fun priv h => hl ⟨priv, h⟩
    rw [h1]; exact .inl ⟨rfl, rfl, rfl, rfl, rfl, rfl⟩

/-! ### Entropy drawn by `Seal` and `GenerateKey` -/

/-- Terminal and printed output are as before; the entropy source may have advanced by `n` bytes. -/
structure Drew (n : Nat) (w w' : World) : Prop where
  prompts : w'.prompts = w.prompts
  tty : w'.tty = w.tty
  stdout : w'.stdout = w.stdout
  stderr : w'.stderr = w.stderr
  rng : w'.rng = w.rng
  rngPos : w'.rngPos = w.rngPos + n

theorem SameTerm.drew {w w' : World} (h : SameTerm w w') : Drew 0 w w' := ⟨h.1, h.2, h.3, h.4, h.5, h.6⟩

theorem Drew.trans {n m : Nat} {a b c : World} (h : Drew n a b) (k : Drew m b c) : Drew (n + m) a c :=
  ⟨k.1.trans h.1, k.2.trans h.2, k.3.trans h.3, k.4.trans h.4, k.5.trans h.5, by rw [k.6, h.6, Nat.add_assoc]⟩

theorem entropy_drew (n : Nat) (w : World) :
    ((∃ x, (entropy n w).1 = .ok x) ∧ Drew n w (entropy n w).2) ∨ ((∀ x, (entropy n w).1 ≠ .ok x) ∧ SameTerm w (entropy n w).2) := by
  rcases entropy_spec n w with ⟨h1, h2⟩ | ⟨h1, h2⟩
  · left; rw [h2]; exact ⟨⟨_, h1⟩, rfl, rfl, rfl, rfl, rfl, rfl⟩
  · right; rw [h2]; exact ⟨by rcases h1 with h | h <;> rw [h] <;> simp, rfl, rfl, rfl, rfl, rfl, rfl⟩

theorem muteSnd_encWrite (h : Nat) (bs : Bytes) : (encWrite (World.writeHandle h) bs).MuteSnd :=
  .ofKeeps fun w0 => (Act.Rel.encWriteLoop (fun bs => Act.Rel.diag ((mute_writeHandle h bs).keeps w0)) 0 bs).keepsSnd

theorem muteSnd_encClose (h : Nat) : (encClose (World.writeHandle h)).MuteSnd :=
  .ofKeeps fun w0 => (Act.Rel.encClose fun bs => Act.Rel.diag ((mute_writeHandle h bs).keeps w0)).keepsSnd

/-- What `seal` may have drawn. -/
def SealDrew (len : Nat) (w : World) (r : Res Unit × (EncState × World)) : Prop :=
  Drew 32 w r.2.2 ∨ (SameTerm w r.2.2 ∧ (r.1 = .ok () → len = 0))

theorem sealRest_drew {len : Nat} {w w1 : World} {e : EncState} {a : Act (EncState × World) Unit} (h : Drew 32 w w1)
    (ha : Act.Keeps (fun s : EncState × World => SameTerm w1 s.2) a) : SealDrew len w (a (e, w1)) :=
  .inl (h.trans (ha (e, w1) (.refl w1)).drew)

theorem sealRest_keeps (P : Prims) (sh : Arr 32) (hm he n : Nat) (nonce : Arr 24) (header : Bytes) (w1 : World) :
    Act.Keeps (fun s : EncState × World => SameTerm w1 s.2) (do
      let _ ← encWrite (writeHandle he) header
      sealLoop P sh (fun n => Act.onSnd (World.readHandle hm n)) (encWrite (writeHandle he)) n nonce) := by
  have hr : ∀ n, Act.Rel (Diag fun s : EncState × World => SameTerm w1 s.2) (Act.onSnd (World.readHandle hm n))
      (Act.onSnd (World.readHandle hm n)) := fun n => Act.Rel.diag (((mute_readHandle hm n).onSnd).keeps w1)
  have hw : ∀ bs, Act.Rel (Diag fun s : EncState × World => SameTerm w1 s.2) (encWrite (World.writeHandle he) bs)
      (encWrite (World.writeHandle he) bs) := fun bs => Act.Rel.diag ((muteSnd_encWrite he bs).keeps w1)
  exact (Act.Rel.bind (hw header) fun _ => Act.Rel.sealLoop hr hw P sh n nonce).keeps

theorem sealDrew_bind {α : Type} {len : Nat} {s : EncState × World} {r : Res α} {f : α → Act (EncState × World) Unit}
    (hf : ∀ x, SealDrew len s.2 (f x s)) : SealDrew len s.2 ((Act.ofRes r >>= f) s) := by
  rw [Act.bind_eq, Act.ofRes_apply]
  cases r with
  | ok x => exact hf x
  | _ => exact .inr ⟨.refl _, by simp⟩

/-- `seal` draws 32 bytes or nothing; if it succeeds on a message that is not empty, 32. -/
theorem sealBox_drew (P : Prims) (pub : Public) (hm he len : Nat) (s : EncState × World) :
    SealDrew len s.2 (sealBox P pub (Act.onSnd (World.entropy 32)) (fun n => Act.onSnd (World.readHandle hm n)) len
      (encWrite (writeHandle he)) s) := by
  unfold sealBox
  split
  · rename_i h; exact .inr ⟨.refl _, fun _ => h⟩
  · refine sealDrew_bind fun edpub => ?_
    rw [Act.bind_eq, Act.onSnd_apply]
    rcases h : entropy 32 s.2 with ⟨r1, w1⟩
    have hd := entropy_drew 32 s.2
    rw [h] at hd
    cases r1 with
    | ok epriv =>
      rcases hd with ⟨-, hd⟩ | ⟨hd, -⟩
      · exact sealRest_drew hd (sealRest_keeps P _ hm he _ _ _ w1)
      · exact absurd rfl (hd epriv)
    | _ =>
      rcases hd with ⟨⟨x, hx⟩, -⟩ | ⟨-, hd⟩
      · cases hx
      · exact .inr ⟨hd, by simp⟩

theorem sealTail_drew (P : Prims) (pub : Public) (hm len he : Nat) (w : World) :
    Drew 32 w (sealTail P pub hm len he w).2 ∨
      (SameTerm w (sealTail P pub hm len he w).2 ∧ ((sealTail P pub hm len he w).1 = .ok () → len = 0)) := by
  have h1 := sealBox_drew P pub hm he len (EncState.new, w)
  unfold sealTail
  unfold SealDrew at h1
  dsimp only at h1 ⊢
  generalize sealBox P pub (Act.onSnd (World.entropy 32)) (fun n => Act.onSnd (World.readHandle hm n)) len
    (encWrite (writeHandle he)) (EncState.new, w) = r at *
  have h2 := muteSnd_encClose he r.2
  rcases r with ⟨r, s⟩
  dsimp only at h1 h2 ⊢
  have h3 : Drew 32 w (encClose (writeHandle he) s).2.2 ∨
      (SameTerm w (encClose (writeHandle he) s).2.2 ∧ (r = .ok () → len = 0)) := by
    rcases h1 with h1 | ⟨h1, h4⟩
    · exact .inl (h1.trans h2.drew)
    · exact .inr ⟨h1.trans h2, h4⟩
  cases r with
  | crash => exact h1
  | hang => exact h1
  | ok x => cases (encClose (writeHandle he) s).1 <;> first | exact h3 | exact h3.imp id fun h => ⟨h.1, by simp⟩
  | err e => cases (encClose (writeHandle he) s).1 <;> first | exact h3 | exact h3.imp id fun h => ⟨h.1, by simp⟩
  | panic => cases (encClose (writeHandle he) s).1 <;> first | exact h3 | exact h3.imp id fun h => ⟨h.1, by simp⟩

/-- `Seal` draws 32 bytes or nothing. -/
theorem Seal_drew (P : Prims) (pp mp ep : Path) (w : World) :
    Drew 32 w (Seal P pp mp ep w).2 ∨ SameTerm w (Seal P pp mp ep w).2 := by
  have key : ∀ {α : Type} {a : Act World α} {f : α → Act World Unit}, a.Mute →
      (∀ x w, Drew 32 w (f x w).2 ∨ SameTerm w (f x w).2) → ∀ w, Drew 32 w ((a >>= f) w).2 ∨ SameTerm w ((a >>= f) w).2 := by
    intro α a f ha hf w
    have h1 := ha w
    rw [Act.bind_eq]
    rcases h : a w with ⟨r, w'⟩
    rw [h] at h1
    cases r with
    | ok x =>
      refine (hf x w').imp (fun h => ?_) (fun h => h1.trans h)
      have := h1.drew.trans h
      rwa [Nat.zero_add] at this
    | _ => exact .inr h1
  rw [Seal_unfold]
  exact key (mute_loadPublicKey pp) (fun pub => key (mute_openFile mp) fun m => key (mute_fileSize m) fun len =>
    key (mute_create _) fun e => key (mute_writeHandle e _) fun _ w => (sealTail_drew P pub m len e w).imp id And.left) w

/-- `Seal` returning nil on a message that is not empty has drawn 32 bytes. -/
theorem Seal_drew_ok (P : Prims) (pp mp ep : Path) (w : World) (fm : File) (hf : w.fs mp = some fm) (hne : fm.data ≠ [])
    (hok : (Seal P pp mp ep w).1 = .ok ()) : Drew 32 w (Seal P pp mp ep w).2 := by
  have h0 : Seal P pp mp ep w = (.ok (), (Seal P pp mp ep w).2) := Prod.ext hok rfl
  rw [Seal_unfold] at h0
  obtain ⟨pub, w1, h1, h0⟩ := Act.bind_ok_inv h0
  obtain ⟨m, w2, h2, h0⟩ := Act.bind_ok_inv h0
  obtain ⟨len, w3, h3, h0⟩ := Act.bind_ok_inv h0
  obtain ⟨e, w4, h4, h0⟩ := Act.bind_ok_inv h0
  obtain ⟨n, w5, h5, h0⟩ := Act.bind_ok_inv h0
  have e1 : w1 = { w with tick := w.tick + 1 } := by have := loadPublicKey_world pp w; rw [h1] at this; exact this
  obtain ⟨r, w', g, fr, fs2, t2, -, hcase⟩ := openFile_spec mp w1
  rw [h2] at g
  obtain ⟨rfl, rfl⟩ := Prod.mk.inj g
  have hlen : len = fm.data.length := by
    rcases hcase with ⟨hm, hh, fm', hf'⟩ | ⟨⟨x, hx⟩ | hx, -⟩
    · obtain rfl := Res.ok.inj hm
      have hhm : w2.handles[w1.handles.length]? = some ⟨mp, 0⟩ := by rw [hh]; simp
      have hf2 : w2.fs mp = some fm := by rw [fs2, e1]; exact hf
      obtain ⟨-, -, hr3⟩ := fileSize_spec hhm hf2
      rw [h3] at hr3
      rcases hr3 with h | h | h
      · exact Res.ok.inj h
      · cases h
      · cases h
    · cases hx
    · cases hx
  have s1 := (mute_loadPublicKey pp) w
  have s2 := (mute_openFile mp) w1
  have s3 := (mute_fileSize m) w2
  have s4 := (mute_create (encPath mp ep)) w3
  have s5 := (mute_writeHandle e encryptedComment) w4
  rw [h1] at s1
  rw [h2] at s2
  rw [h3] at s3
  rw [h4] at s4
  rw [h5] at s5
  have s := (((s1.trans s2).trans s3).trans s4).trans s5
  have hlast := sealTail_drew P pub m len e w5
  rw [h0] at hlast
  rcases hlast with h | ⟨-, h⟩
  · have := s.drew.trans h
    rwa [Nat.zero_add] at this
  · have h6 := h rfl
    rw [hlen] at h6
    exact absurd (List.length_eq_zero_iff.mp h6) hne

/-- `GenerateKey` draws 0, 32, 48 or 56 bytes; if it returns nil, 56. -/
theorem GenerateKey_drew (P : Prims) (base : Path) (pw : Bytes) (opts : Option Int) (w : World) :
    (∃ n ≤ 56, Drew n w (GenerateKey P base pw opts w).2) ∧
    ((GenerateKey P base pw opts w).1 = .ok () → Drew 56 w (GenerateKey P base pw opts w).2) := by
  have hk : (∃ n ≤ 56, Drew n w (GenerateKeypair P pw opts w).2) ∧
      ∀ x, (GenerateKeypair P pw opts w).1 = .ok x → Drew 56 w (GenerateKeypair P pw opts w).2 := by
    unfold GenerateKeypair
    rw [Act.bind_eq]
    rcases h1 : entropy 32 w with ⟨r1, w1⟩
    have d1 := entropy_drew 32 w
    rw [h1] at d1
    cases r1 with
    | ok a =>
      replace d1 : Drew 32 w w1 := by
        rcases d1 with ⟨-, d⟩ | ⟨d, -⟩
        · exact d
        · exact absurd rfl (d a)
      dsimp only
      rw [Act.bind_eq]
      rcases h2 : entropy 16 w1 with ⟨r2, w2⟩
      have d2 := entropy_drew 16 w1
      rw [h2] at d2
      cases r2 with
      | ok b =>
        replace d2 : Drew 16 w1 w2 := by
          rcases d2 with ⟨-, d⟩ | ⟨d, -⟩
          · exact d
          · exact absurd rfl (d b)
        dsimp only
        rw [Act.bind_eq]
        rcases h3 : entropy 8 w2 with ⟨r3, w3⟩
        have d3 := entropy_drew 8 w2
        rw [h3] at d3
        cases r3 with
        | ok c =>
          replace d3 : Drew 8 w2 w3 := by
            rcases d3 with ⟨-, d⟩ | ⟨d, -⟩
            · exact d
            · exact absurd rfl (d c)
          have := (d1.trans d2).trans d3
          exact ⟨⟨56, Nat.le_refl _, this⟩, fun _ _ => this⟩
        | _ =>
          rcases d3 with ⟨⟨x, hx⟩, -⟩ | ⟨-, d3⟩
          · cases hx
          · exact ⟨⟨_, by decide, (d1.trans d2).trans d3.drew⟩, by simp⟩
      | _ =>
        rcases d2 with ⟨⟨x, hx⟩, -⟩ | ⟨-, d2⟩
        · cases hx
        · exact ⟨⟨_, by decide, d1.trans d2.drew⟩, by simp⟩
    | _ =>
      rcases d1 with ⟨⟨x, hx⟩, -⟩ | ⟨-, d1⟩
      · cases hx
      · exact ⟨⟨0, by decide, d1.drew⟩, by simp⟩
  unfold GenerateKey
  rw [Act.bind_eq]
  rcases h : GenerateKeypair P pw opts w with ⟨r, w1⟩
  rw [h] at hk
  obtain ⟨⟨n, hn, d⟩, hk⟩ := hk
  cases r with
  | ok x =>
    obtain ⟨priv, pub⟩ := x
    dsimp only at hk d ⊢
    have hm : Act.Mute (do
        writeDataFile (base ++ b!".sec") b!"untrusted comment: signify private key" priv.encode
        writeDataFile (base ++ b!".pub") b!"untrusted comment: signify public key" pub.encode) :=
      (mute_writeFile _ _ _).bind fun _ => mute_writeFile _ _ _
    have := (hm w1).drew
    exact ⟨⟨_, hn, d.trans this⟩, fun _ => (hk _ rfl).trans this⟩
  | _ => exact ⟨⟨n, hn, d⟩, by simp⟩

end Verif
