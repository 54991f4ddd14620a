/-
No call panics, and every call ends: under every schedule of the system and for all contents of the files.
-/
import Verif.Lemmas.OpenRel
import Verif.Lemmas.SealFile

namespace Verif
open World Spec

/-! ### `Seal` and `GenerateKey` -/

theorem openFile_returns (p : Path) : (World.openFile p).Returns := by
  intro w
  unfold openFile
  dsimp only
  repeat' split
  all_goals first | exact .inr rfl | exact .inl (.inl ⟨_, rfl⟩) | exact .inl (.inr ⟨_, rfl⟩)

theorem fileSize_returns (h : Nat) : (World.fileSize h).Returns := by
  intro w
  unfold fileSize
  dsimp only
  repeat' split
  all_goals first | exact .inr rfl | exact .inl (.inl ⟨_, rfl⟩) | exact .inl (.inr ⟨_, rfl⟩)

theorem create_returns (p : Path) : (World.create p).Returns :=
  (createFile_returns p _).bind fun _ _ => .inl (.inl ⟨_, rfl⟩)

theorem readHandle_returns (h n : Nat) : (World.readHandle h n).Returns := by
  intro w
  unfold readHandle
  dsimp only
  repeat' split
  all_goals first | exact .inr rfl | exact .inl (.inl ⟨_, rfl⟩) | exact .inl (.inr ⟨_, rfl⟩)

theorem writeHandle_returns (h : Nat) (bs : Bytes) : (World.writeHandle h bs).Returns := by
  intro w
  unfold writeHandle
  dsimp only
  repeat' split
  all_goals first | exact .inr rfl | exact .inl (.inl ⟨_, rfl⟩) | exact .inl (.inr ⟨_, rfl⟩)

theorem entropy_returns (n : Nat) : (World.entropy n).Returns := by
  intro w
  rcases entropy_spec n w with ⟨h, -⟩ | ⟨h | h, -⟩
  · exact .inl (.inl ⟨_, h⟩)
  · exact .inl (.inr ⟨_, h⟩)
  · exact .inr h

theorem Act.Returns.onSnd {γ σ α : Type} {a : Act σ α} (h : a.Returns) : (Act.onSnd a : Act (γ × σ) α).Returns := fun s => h s.2

theorem Act.Returns.getFst {γ σ : Type} : (Act.getFst : Act (γ × σ) γ).Returns := fun _ => .inl (.inl ⟨_, rfl⟩)

theorem Act.Returns.setFst {γ σ : Type} (x : γ) : (Act.setFst x : Act (γ × σ) Unit).Returns := fun _ => .inl (.inl ⟨_, rfl⟩)

theorem encClose_returns {σ : Type} {w : Writer σ} (h : ∀ bs, (w bs).Returns) : (encClose w).Returns := by
  unfold encClose
  refine Act.Returns.getFst.bind fun e => ?_
  split
  · exact (h _).onSnd.bind fun _ => (Act.Returns.setFst _).bind fun _ => (h _).onSnd.bind fun _ => .pure _
  · exact (h _).onSnd.bind fun _ => .pure _

theorem encWrite_returns {σ : Type} {w : Writer σ} (h : ∀ bs, (w bs).Returns) (bs : Bytes) : (encWrite w bs).Returns := by
  have : ∀ k, (encWriteLoop w k bs).Returns := by
    induction bs with
    | nil => intro k; unfold encWriteLoop; exact .pure _
    | cons b bs ih =>
      intro k
      unfold encWriteLoop
      refine Act.Returns.getFst.bind fun e => ?_
      dsimp only
      split
      · refine (Act.Returns.setFst _).bind fun _ => (h _).onSnd.bind fun _ => (Act.Returns.setFst _).bind fun _ => ?_
        split
        · exact (h _).onSnd.bind fun _ => (Act.Returns.setFst _).bind fun _ => ih _
        · exact ih _
      · exact (Act.Returns.setFst _).bind fun _ => ih _
  exact this 0

theorem incrementNonce_clean (v : Arr 24) : (incrementNonce v).Clean := by
  have : ∀ (i : Nat) (v : Arr 24), (incrementNonceLoop i v).Clean := by
    intro i
    induction i with
    | zero => intro v; exact .inr ⟨_, rfl⟩
    | succ i ih =>
      intro v
      unfold incrementNonceLoop
      dsimp only
      split
      · exact .inl ⟨_, rfl⟩
      · exact ih _
  exact this 24 v

theorem boxOfPoint_clean (o : Option Ed.Ext) : (Public.boxOfPoint o).Clean := by
  cases o with
  | none => exact .inr ⟨_, rfl⟩
  | some A => exact .inl ⟨_, rfl⟩

theorem publicToBox_clean (pub : Public) : pub.toBox.Clean := boxOfPoint_clean _

theorem sealLoop_returns {σ : Type} (P : Prims) (sh : Arr 32) {rd : Reader σ} {w : Writer σ} (hr : ∀ n, (rd n).Returns)
    (hw : ∀ bs, (w bs).Returns) (n : Nat) (nonce : Arr 24) : (sealLoop P sh rd w n nonce).Returns := by
  induction n generalizing nonce with
  | zero => unfold sealLoop; exact .pure _
  | succ n ih =>
    unfold sealLoop
    exact (hr _).bind fun _ => (hw _).bind fun _ => (Act.Returns.ofRes (incrementNonce_clean _)).bind fun _ => ih _

theorem sealBox_returns {σ : Type} (P : Prims) (pub : Public) {rand : Act σ (Arr 32)} (hrand : rand.Returns) {rd : Reader σ}
    {w : Writer σ} (hr : ∀ n, (rd n).Returns) (hw : ∀ bs, (w bs).Returns) (len : Nat) : (sealBox P pub rand rd len w).Returns := by
  unfold sealBox
  split
  · exact .pure _
  · exact (Act.Returns.ofRes (publicToBox_clean pub)).bind fun _ => hrand.bind fun _ => (hw _).bind fun _ =>
      sealLoop_returns P _ hr hw _ _

theorem sealTail_returns (P : Prims) (pub : Public) (hm len he : Nat) : (sealTail P pub hm len he).Returns := by
  intro w
  have h1 := sealBox_returns P pub ((entropy_returns 32).onSnd (γ := EncState))
    (rd := fun n => Act.onSnd (World.readHandle hm n)) (fun n => (readHandle_returns hm n).onSnd)
    (encWrite_returns (writeHandle_returns he)) len (EncState.new, w)
  unfold sealTail
  dsimp only
  generalize sealBox P pub (Act.onSnd (World.entropy 32)) (fun n => Act.onSnd (World.readHandle hm n)) len
    (encWrite (writeHandle he)) (EncState.new, w) = r at h1 ⊢
  have h2 := encClose_returns (writeHandle_returns he) r.2
  rcases r with ⟨r, s⟩
  dsimp only at h1 h2 ⊢
  cases r with
  | panic => simp [Res.Clean] at h1
  | hang => simp [Res.Clean] at h1
  | crash => exact .inr rfl
  | ok x => cases hc : (encClose (writeHandle he) s).1 <;> rw [hc] at h2 <;> simp [Res.Clean] at h2 ⊢
  | err e => cases hc : (encClose (writeHandle he) s).1 <;> rw [hc] at h2 <;> simp [Res.Clean] at h2 ⊢

theorem loadPublicKey_returns (p : Path) : (loadPublicKey p).Returns :=
  (readFile_returns p).bind fun _ => .ofRes (publicFile_clean _)

theorem Seal_returns (P : Prims) (pp mp ep : Path) : (Seal P pp mp ep).Returns := by
  rw [Seal_unfold]
  exact (loadPublicKey_returns pp).bind fun pub => (openFile_returns mp).bind fun m => (fileSize_returns m).bind fun len =>
    (create_returns _).bind fun e => (writeHandle_returns e _).bind fun _ => sealTail_returns P pub m len e

theorem makeKeypair_clean (P : Prims) (pw : Bytes) (opts : Option Int) (seed : Arr 32) (salt : Arr 16) (num : Arr 8) :
    (makeKeypair P pw (opts.getD defaultRounds) seed salt num).Clean := by
  rcases makeKeypair_spec P pw opts seed salt num with ⟨priv, pub, h, -⟩ | ⟨h, -⟩
  · exact .inl ⟨_, h⟩
  · exact .inr ⟨_, h⟩

theorem GenerateKey_returns (P : Prims) (base : Path) (pw : Bytes) (opts : Option Int) : (GenerateKey P base pw opts).Returns := by
  unfold GenerateKey GenerateKeypair
  exact ((entropy_returns 32).bind fun _ => (entropy_returns 16).bind fun _ => (entropy_returns 8).bind fun _ =>
    .ofRes (makeKeypair_clean P pw opts _ _ _)).bind fun x => (writeFile_returns _ _ _).bind fun _ => writeFile_returns _ _ _

/-! ### `Verify` -/

/-- `Verify` ends with nil or an error unless the process dies or the signature file holds fewer than 10 bytes of data. -/
theorem Verify_returns (P : Prims) (pp mp sp : Path) (w : World)
    (hs : ∀ fs ds, w.fs (sigPath mp sp) = some fs → readDataFileBytes fs.data = .ok ds → 10 ≤ ds.data.length) :
    (Verify P pp mp sp w).1.Clean ∨ (Verify P pp mp sp w).1 = .crash := by
  have hsig : ∀ t, (readSignaturePath (sigPath mp sp) { w with tick := t }).1.Clean ∨
      (readSignaturePath (sigPath mp sp) { w with tick := t }).1 = .crash := by
    intro t
    unfold readSignaturePath
    rw [Act.bind_eq]
    obtain ⟨-, h2⟩ := readFile_spec (sigPath mp sp) { w with tick := t }
    have hr := readFile_returns (sigPath mp sp) { w with tick := t }
    rcases h : World.readFile (sigPath mp sp) { w with tick := t } with ⟨r, w'⟩
    rw [h] at h2 hr
    cases r with
    | ok data =>
      left
      obtain ⟨f, hf, rfl⟩ : ∃ f, w.fs (sigPath mp sp) = some f ∧ data = f.data := by
        rcases h2 with ⟨f, hf, h⟩ | h | h | ⟨-, h⟩
        · exact ⟨f, hf, Res.ok.inj h⟩
        all_goals cases h
      simp only [Act.ofRes_apply]
      unfold readSignatureFile
      rcases dataFile_clean f.data with ⟨d, hd⟩ | ⟨e, hd⟩
      · rw [hd]
        exact .inl ⟨_, by rw [Res.bind_ok, readSignatureData, if_neg (Nat.not_lt.mpr (hs f d hf hd))]⟩
      · rw [hd]; exact .inr ⟨e, rfl⟩
    | err e => exact .inl (.inr ⟨_, rfl⟩)
    | crash => exact .inr rfl
    | panic => simp [Res.Clean] at hr
    | hang => simp [Res.Clean] at hr
  unfold Verify
  rw [show (if sp = [] then mp ++ b!".sig" else sp) = sigPath mp sp from rfl]
  rw [Act.bind_eq]
  have h1 := loadPublicKey_returns pp w
  have e1 := loadPublicKey_world pp w
  rcases ha : loadPublicKey pp w with ⟨r, w1⟩
  rw [ha] at h1 e1
  dsimp only at e1
  subst e1
  cases r with
  | err e => exact .inl (.inr ⟨_, rfl⟩)
  | crash => exact .inr rfl
  | panic => simp [Res.Clean] at h1
  | hang => simp [Res.Clean] at h1
  | ok pub =>
    dsimp only
    rw [Act.bind_eq]
    have h2 := readFile_returns mp { w with tick := w.tick + 1 }
    have e2 := (readFile_spec mp { w with tick := w.tick + 1 }).1
    rcases hb : World.readFile mp { w with tick := w.tick + 1 } with ⟨r, w2⟩
    rw [hb] at h2 e2
    dsimp only at e2
    subst e2
    cases r with
    | err e => exact .inl (.inr ⟨_, rfl⟩)
    | crash => exact .inr rfl
    | panic => simp [Res.Clean] at h2
    | hang => simp [Res.Clean] at h2
    | ok msg =>
      dsimp only
      rw [Act.bind_eq]
      have h3 := hsig (w.tick + 1 + 1)
      rcases hc : readSignaturePath (sigPath mp sp) { w with tick := w.tick + 1 + 1 } with ⟨r, w3⟩
      rw [hc] at h3
      cases r with
      | err e => exact .inl (.inr ⟨_, rfl⟩)
      | crash => exact .inr rfl
      | panic => simp [Res.Clean] at h3
      | hang => simp [Res.Clean] at h3
      | ok sig => exact .inl (verify_clean P pub msg sig)

/-! ### `Open` -/

section Bytewise
variable {σ : Type} {I : σ → Prop} {q : Prop} {rd : Reader σ} {left : σ → Bytes}

theorem decReadLoop_returns (hb : Bytewise I q rd left) (enclen fuel : Nat) (c : UInt8) (buf : Bytes) (s : σ) (hI : I s)
    (hf : (left s).length < fuel) :
    (decReadLoop rd enclen fuel c buf s).1.Clean ∨ (decReadLoop rd enclen fuel c buf s).1 = .crash := by
  induction fuel generalizing c buf s with
  | zero => exact absurd hf (Nat.not_lt_zero _)
  | succ fuel ih =>
    unfold decReadLoop
    by_cases he : buf.length = enclen
    · rw [if_pos he]; exact .inl (.inl ⟨_, rfl⟩)
    · rw [if_neg he]
      obtain ⟨r, s', h1, hI', ⟨x, rfl, hl⟩ | ⟨rfl, h2, h3⟩ | ⟨hq, h2, h3⟩⟩ := hb s hI
      · rw [h1]
        have hf' : (left s').length < fuel := by rw [hl] at hf; simp only [List.length_cons] at hf; omega
        dsimp only
        split
        · exact ih _ _ s' hI' hf'
        · exact ih _ _ s' hI' hf'
      · rw [h1]; exact .inl (.inl ⟨_, rfl⟩)
      · rw [h1]
        rcases h2 with rfl | rfl
        · exact .inl (.inr ⟨_, rfl⟩)
        · exact .inr rfl

theorem decRead_returns (hb : Bytewise I q rd left) (fuel n : Nat) (h3 : 3 ∣ n) (s : σ) (hI : I s) (hf : (left s).length < fuel) :
    ((decRead fuel rd n s).1.Clean ∨ (decRead fuel rd n s).1 = .crash) ∧ I (decRead fuel rd n s).2 ∧
      (left (decRead fuel rd n s).2).length ≤ (left s).length := by
  obtain ⟨r, s', t, h1, h2, h3', h4⟩ := decRead_on hb fuel n s hI
  refine ⟨?_, by rw [h1]; exact h2, by rw [h1, h3']; simp⟩
  obtain ⟨r0, s0, t0, a1, -, -, a4, -⟩ := decReadLoop_on hb (B64.encodedLen n) fuel 0 [] s hI (by simp)
  have a0 := decReadLoop_returns hb (B64.encodedLen n) fuel 0 [] s hI hf
  unfold decRead
  rw [Act.bind_eq]
  rw [a1] at a0 ⊢
  cases r0 with
  | ok buf =>
    have hd := (decode_bound n buf (by
      have := (a4 buf rfl).2.1
      obtain ⟨k, rfl⟩ := h3
      unfold B64.encodedLen at this
      omega)).1
    dsimp only
    cases hx : B64.decode n buf with
    | ok out => exact .inl (.inl ⟨_, rfl⟩)
    | corrupt => exact .inl (.inr ⟨_, rfl⟩)
    | panic => exact absurd hx hd
  | err e => exact .inl (.inr ⟨_, rfl⟩)
  | crash => exact .inr rfl
  | panic => simp [Res.Clean] at a0
  | hang => simp [Res.Clean] at a0

theorem skipCommentLoop_returns (hb : Bytewise I q rd left) (fuel : Nat) (c : UInt8) (s : σ) (hI : I s) (hf : (left s).length < fuel) :
    (skipCommentLoop rd fuel c s).1.Clean ∨ (skipCommentLoop rd fuel c s).1 = .crash := by
  induction fuel generalizing c s with
  | zero => exact absurd hf (Nat.not_lt_zero _)
  | succ fuel ih =>
    unfold skipCommentLoop
    obtain ⟨r, s', h1, hI', ⟨x, rfl, hl⟩ | ⟨rfl, h2, h3⟩ | ⟨hq, h2, h3⟩⟩ := hb s hI
    · rw [Act.bind_ok h1]
      have hf' : (left s').length < fuel := by rw [hl] at hf; simp only [List.length_cons] at hf; omega
      by_cases h10 : [x].headD c = 10
      · rw [if_pos h10]; exact .inl (.inl ⟨_, rfl⟩)
      · rw [if_neg h10]; exact ih _ s' hI' hf'
    · rw [Act.bind_err h1]; exact .inl (.inr ⟨_, rfl⟩)
    · rcases h2 with rfl | rfl
      · rw [Act.bind_err h1]; exact .inl (.inr ⟨_, rfl⟩)
      · rw [Act.bind_crash h1]; exact .inr rfl

end Bytewise

/-- From the states satisfying `I` the action ends with nil or an error, unless the process dies, and `I` holds again. -/
def Act.ReturnsOn {σ α : Type} (I : σ → Prop) (a : Act σ α) : Prop := ∀ s, I s → ((a s).1.Clean ∨ (a s).1 = .crash) ∧ I (a s).2

theorem Act.ReturnsOn.bind {σ α β : Type} {I : σ → Prop} {a : Act σ α} {f : α → Act σ β} (ha : Act.ReturnsOn I a)
    (hf : ∀ x, Act.ReturnsOn I (f x)) : Act.ReturnsOn I (a >>= f) := by
  intro s hs
  obtain ⟨h, hI⟩ := ha s hs
  rw [Act.bind_eq]
  rcases hr : a s with ⟨r, s'⟩
  rw [hr] at h hI
  cases r with
  | ok x => exact hf x s' hI
  | err e => exact ⟨.inl (.inr ⟨e, rfl⟩), hI⟩
  | crash => exact ⟨.inr rfl, hI⟩
  | panic => simp [Res.Clean] at h
  | hang => simp [Res.Clean] at h

theorem Act.ReturnsOn.ofRes {σ α : Type} {I : σ → Prop} {r : Res α} (h : r.Clean) : Act.ReturnsOn I (Act.ofRes r : Act σ α) :=
  fun _ hs => ⟨.inl h, hs⟩

theorem Act.ReturnsOn.pure {σ α : Type} {I : σ → Prop} (x : α) : Act.ReturnsOn I (Pure.pure x : Act σ α) :=
  fun _ hs => ⟨.inl (.inl ⟨_, rfl⟩), hs⟩

theorem Act.ReturnsOn.fail {σ α : Type} {I : σ → Prop} (e : GoErr) : Act.ReturnsOn I (Act.fail e : Act σ α) :=
  fun _ hs => ⟨.inl (.inr ⟨_, rfl⟩), hs⟩

theorem openLoop_returnsOn {σ : Type} {I : σ → Prop} (P : Prims) (sh : Arr 32) {rd : Reader σ} {w : Writer σ}
    (hr : ∀ n, 3 ∣ n → Act.ReturnsOn I (rd n)) (hw : ∀ bs, Act.ReturnsOn I (w bs)) (n i : Nat) (nonce : Arr 24) :
    Act.ReturnsOn I (openLoop P sh rd w n i nonce) := by
  induction n generalizing i nonce with
  | zero => unfold openLoop; exact .pure _
  | succ n ih =>
    unfold openLoop
    refine (hr _ (by decide)).bind fun chunk => ?_
    split
    · exact .fail _
    · exact (hw _).bind fun _ => (Act.ReturnsOn.ofRes (incrementNonce_clean _)).bind fun _ => ih _ _

theorem toBox_clean (P : Prims) (priv : Private) (w : World) : (Private.toBox P (priv, w)).1.Clean := by
  by_cases h : priv.check P = .ok ()
  · rw [toBox_checked P priv w h]; exact .inl ⟨_, rfl⟩
  · cases ht : w.tty with
    | nil => rw [(toBox_noPrompt P priv w h (.inl ht)).1]; exact .inr ⟨_, rfl⟩
    | cons x rest =>
      cases x with
      | none => rw [(toBox_noPrompt P priv w h (.inr ⟨rest, ht⟩)).1]; exact .inr ⟨_, rfl⟩
      | some pw =>
        rw [toBox_typed P priv w h ht]
        rcases decrypt_clean P pw priv with hd | ⟨e, hd⟩ <;> rw [hd]
        · exact .inl ⟨_, rfl⟩
        · exact .inr ⟨_, rfl⟩

/-- Both files are open. -/
structure BothOpen (ep mp : Path) (hE hM : Nat) (w : World) : Prop where
  enc : ∃ off f, w.handles[hE]? = some ⟨ep, off⟩ ∧ w.fs ep = some f
  dest : ∃ off, w.handles[hM]? = some ⟨mp, off⟩

theorem bothOpen_bytewise {ep mp : Path} {hE hM : Nat} (hne : hE ≠ hM) :
    Bytewise (BothOpen ep mp hE hM) False (readHandle hE) (remaining hE) := by
  apply readHandle_bytewise (p := ep)
  · intro w h; exact h.enc
  · intro w _ h; exact h.elim
  · intro w w' hI h1 _ _ h4 ⟨off, h5⟩
    obtain ⟨_, f, -, hf⟩ := hI.enc
    obtain ⟨o, hd⟩ := hI.dest
    exact ⟨⟨off, f, h5, by rw [h1]; exact hf⟩, ⟨o, by rw [h4 _ (Ne.symm hne)]; exact hd⟩⟩

theorem pokeFile_other {w : World} {p q : Path} (off : Nat) (bs : Bytes) (h : q ≠ p) : (w.pokeFile p off bs).fs q = w.fs q := by
  unfold pokeFile
  split
  · exact setFile_other _ _ h
  · rfl

theorem pokeFile_handles (w : World) (p : Path) (off : Nat) (bs : Bytes) : (w.pokeFile p off bs).handles = w.handles := by
  unfold pokeFile
  split <;> rfl

theorem bothOpen_write {ep mp : Path} {hE hM : Nat} (hne : hE ≠ hM) (hpath : ep ≠ mp) {w : World} (h : BothOpen ep mp hE hM w)
    (bs : Bytes) : BothOpen ep mp hE hM (writeHandle hM bs w).2 ∧ remaining hE (writeHandle hM bs w).2 = remaining hE w := by
  obtain ⟨off, f, h1, h2⟩ := h.enc
  obtain ⟨o, h3⟩ := h.dest
  have key : ∀ b n, BothOpen ep mp hE hM (({ w with tick := w.tick + 1 }.pokeFile mp o b).advance hM n) ∧
      remaining hE (({ w with tick := w.tick + 1 }.pokeFile mp o b).advance hM n) = remaining hE w := by
    intro b n
    have hh : (({ w with tick := w.tick + 1 }.pokeFile mp o b).advance hM n).handles[hE]? = some ⟨ep, off⟩ := by
      simp only [advance, pokeFile_handles]
      rw [List.getElem?_modify, h1]; simp [Ne.symm hne]
    have hh' : (({ w with tick := w.tick + 1 }.pokeFile mp o b).advance hM n).handles[hM]? = some ⟨mp, o + n⟩ := by
      simp only [advance, pokeFile_handles]
      rw [List.getElem?_modify, h3]; simp
    have hf : (({ w with tick := w.tick + 1 }.pokeFile mp o b).advance hM n).fs ep = some f := by
      simp only [advance]
      rw [pokeFile_other _ _ hpath]; exact h2
    exact ⟨⟨⟨off, f, hh, hf⟩, ⟨_, hh'⟩⟩, by rw [remaining_eq hh hf, remaining_eq h1 h2]⟩
  unfold writeHandle
  simp only [h3]
  split <;> exact key _ _

theorem openTail_returns (P : Prims) (fuel : Nat) (priv : Private) {ep mp : Path} {hE hM : Nat} (hne : hE ≠ hM) {w : World}
    (h : BothOpen ep mp hE hM w) (hf : (remaining hE w).length < fuel) (hsame : ep = mp → remaining hE w = []) :
    (openTail P fuel priv hE hM w).1.Clean ∨ (openTail P fuel priv hE hM w).1 = .crash := by
  unfold openTail openBox
  dsimp only
  rw [Act.bind_eq]
  obtain ⟨a, b, c, d, hw⟩ := toBox_world P priv w
  have hc := toBox_clean P priv w
  rcases hb : Private.toBox P (priv, w) with ⟨r, k, w1⟩
  rw [hb] at hw hc
  dsimp only at hw
  have h1 : BothOpen ep mp hE hM w1 := by rw [hw]; exact ⟨h.enc, h.dest⟩
  have hr1 : remaining hE w1 = remaining hE w := by rw [hw]; rfl
  have hbw := bothOpen_bytewise (ep := ep) (mp := mp) hne
  have h3 : (3 : Nat) ∣ headerSize := by decide
  cases r with
  | err e => exact .inl (.inr ⟨_, rfl⟩)
  | panic => simp [Res.Clean] at hc
  | crash => exact .inr rfl
  | hang => simp [Res.Clean] at hc
  | ok edpriv =>
    dsimp only
    by_cases hpath : ep = mp
    · rw [Act.bind_eq, Act.onSnd_apply]
      obtain ⟨h2, -, -⟩ := decRead_returns hbw fuel headerSize h3 w1 h1 (by rw [hr1]; exact hf)
      obtain ⟨r2, w2, t, e2, -, h5, h6⟩ := decRead_on hbw fuel headerSize w1 h1
      rw [e2] at h2 ⊢
      cases r2 with
      | ok header =>
        have ht : t = [] := by
          rw [hr1, hsame hpath] at h5
          exact (List.append_eq_nil_iff.mp h5.symm).1
        have hd := h6 header rfl
        rw [ht] at hd
        have hh : header = [] := by
          have h0 : B64.decode headerSize [] = .ok [] := decode_encode headerSize [] (by decide)
          rw [show stripNL [] = [] from rfl, h0] at hd
          exact (B64.Dec.ok.inj hd).symm
        subst hh
        dsimp only
        rw [if_pos (by decide)]
        exact .inl (.inr ⟨_, rfl⟩)
      | err e => exact .inl (.inr ⟨_, rfl⟩)
      | crash => exact .inr rfl
      | panic => simp [Res.Clean] at h2
      | hang => simp [Res.Clean] at h2
    · let J : Private × World → Prop := fun s => BothOpen ep mp hE hM s.2 ∧ (remaining hE s.2).length < fuel
      have hr : ∀ n, 3 ∣ n → Act.ReturnsOn J (Act.onSnd (decRead fuel (readHandle hE) n)) := by
        intro n h3 s hs
        obtain ⟨g1, g2, g3⟩ := decRead_returns hbw fuel n h3 s.2 hs.1 hs.2
        exact ⟨g1, g2, Nat.lt_of_le_of_lt g3 hs.2⟩
      have hwr : ∀ bs, Act.ReturnsOn J (Act.onSnd (writeHandle hM bs)) := by
        intro bs s hs
        obtain ⟨g1, g2⟩ := bothOpen_write hne hpath hs.1 bs
        refine ⟨writeHandle_returns hM bs s.2, g1, ?_⟩
        show (remaining hE (writeHandle hM bs s.2).2).length < fuel
        rw [g2]; exact hs.2
      refine ((hr headerSize h3).bind (fun header => ?_) (k, w1) ⟨h1, by show (remaining hE w1).length < fuel; rw [hr1]; exact hf⟩).1
      split
      · exact .fail _
      · split
        · exact .fail _
        · exact openLoop_returnsOn P _ hr hwr _ _ _

/-- `Open` ends without a panic, under every schedule, if the fuel exceeds the length of the encrypted file. -/
theorem Open_returns (P : Prims) (fuel : Nat) (kp ep mp : Path) (w : World) (hf : ∀ fe, w.fs ep = some fe → fe.data.length < fuel) :
    (Open P fuel kp ep mp w).1.Clean ∨ (Open P fuel kp ep mp w).1 = .crash := by
  rw [Open_unfold]
  have hw1 := loadPrivateKey_world kp w
  have hc1 : (loadPrivateKey kp).Returns := (readFile_returns kp).bind fun _ => .ofRes (by
    rcases dataFile_clean ‹Bytes› with ⟨d, hd⟩ | ⟨e, hd⟩
    · unfold readPrivateKeyFile; rw [hd]; exact readPrivateKeyData_clean d.data
    · unfold readPrivateKeyFile; rw [hd]; exact .inr ⟨e, rfl⟩)
  have hc1 := hc1 w
  rw [Act.bind_eq]
  rcases h1 : loadPrivateKey kp w with ⟨r1, w1⟩
  rw [h1] at hw1 hc1
  dsimp only at hw1
  subst hw1
  cases r1 with
  | err e => exact .inl (.inr ⟨_, rfl⟩)
  | crash => exact .inr rfl
  | panic => simp [Res.Clean] at hc1
  | hang => simp [Res.Clean] at hc1
  | ok priv =>
    dsimp only
    rw [Act.bind_eq]
    have hc2 := openFile_returns ep { w with tick := w.tick + 1 }
    obtain ⟨r2, w2, h2, fr2, fs2, t2, hq2, hcase⟩ := openFile_spec ep { w with tick := w.tick + 1 }
    rw [h2] at hc2 ⊢
    cases r2 with
    | err e => exact .inl (.inr ⟨_, rfl⟩)
    | crash => exact .inr rfl
    | panic => simp [Res.Clean] at hc2
    | hang => simp [Res.Clean] at hc2
    | ok hE =>
      dsimp only
      rcases hcase with ⟨he, hh2, fe, hfe⟩ | ⟨⟨e, hx⟩ | hx, -⟩
      · obtain rfl := Res.ok.inj he
        dsimp only at hh2 hfe fs2
        have hhe : w2.handles[w.handles.length]? = some ⟨ep, 0⟩ := by rw [hh2]; simp
        have hfe2 : w2.fs ep = some fe := by rw [fs2, hfe]
        have hlen := hf fe hfe
        let I : World → Prop := fun w' => w'.fs = w.fs ∧ ∃ off, w'.handles[w.handles.length]? = some ⟨ep, off⟩
        have hb : Bytewise I False (readHandle w.handles.length) (remaining w.handles.length) := by
          apply readHandle_bytewise (p := ep)
          · rintro w' ⟨a, off, b⟩; exact ⟨off, fe, b, by rw [a, hfe]⟩
          · rintro w' - h; exact h.elim
          · rintro x y ⟨a, -⟩ b1 - - - b5; exact ⟨by rw [b1, a], b5⟩
        have hI2 : I w2 := ⟨fs2, 0, hhe⟩
        have hrem2 : remaining w.handles.length w2 = fe.data := by rw [remaining_eq hhe hfe2]; simp
        have hc3 := skipCommentLoop_returns hb fuel 0 w2 hI2 (by rw [hrem2]; exact hlen)
        obtain ⟨r3, w3, t, h3, hI3, hleft, -⟩ := skipCommentLoop_on hb fuel 0 w2 hI2
        rw [Act.bind_eq, show skipComment fuel (readHandle w.handles.length) w2 = _ from h3]
        rw [h3] at hc3
        cases r3 with
        | err e => exact .inl (.inr ⟨_, rfl⟩)
        | crash => exact .inr rfl
        | panic => simp [Res.Clean] at hc3
        | hang => simp [Res.Clean] at hc3
        | ok u =>
          dsimp only
          obtain ⟨fs3, off3, hoff3⟩ := hI3
          have hrem3 : (remaining w.handles.length w3).length < fuel := by
            rw [hrem2] at hleft
            have := congrArg List.length hleft
            rw [List.length_append] at this
            omega
          rw [Act.bind_eq]
          have hc4 := create_returns mp w3
          obtain ⟨r4, w4, h4, fr4, t4, hq4, hcase4⟩ := create_spec mp w3
          rw [h4] at hc4 ⊢
          cases r4 with
          | err e => exact .inl (.inr ⟨_, rfl⟩)
          | crash => exact .inr rfl
          | panic => simp [Res.Clean] at hc4
          | hang => simp [Res.Clean] at hc4
          | ok hM =>
            dsimp only
            rcases hcase4 with ⟨hm, hA4, hh4⟩ | ⟨hx | hx, -⟩
            · obtain rfl := Res.ok.inj hm
              have hlt : w.handles.length < w3.handles.length := by
                rcases Nat.lt_or_ge w.handles.length w3.handles.length with h | h
                · exact h
                · rw [List.getElem?_eq_none h] at hoff3; cases hoff3
              have ho4 : w4.handles[w.handles.length]? = some ⟨ep, off3⟩ := by
                rw [hh4, List.getElem?_append_left hlt, hoff3]
              have hd4 : w4.handles[w3.handles.length]? = some ⟨mp, 0⟩ := by rw [hh4]; simp
              by_cases hpath : ep = mp
              · have hfile : w4.fs ep = some ⟨[], (w3.truncated mp 0o666).mode⟩ := by rw [hpath]; exact hA4.file
                have hrem : remaining w.handles.length w4 = [] := by rw [remaining_eq ho4 hfile]; simp
                exact openTail_returns P fuel priv (by omega) ⟨⟨_, _, ho4, hfile⟩, ⟨_, hd4⟩⟩ (by rw [hrem]; exact Nat.lt_of_le_of_lt (Nat.zero_le _) hlen)
                  fun _ => hrem
              · have hfile : w4.fs ep = some fe := by rw [hA4.other hpath, fs3, hfe]
                have hrem : remaining w.handles.length w4 = remaining w.handles.length w3 := by
                  rw [remaining_eq ho4 hfile, remaining_eq hoff3 (show w3.fs ep = some fe by rw [fs3, hfe])]
                exact openTail_returns P fuel priv (by omega) ⟨⟨_, _, ho4, hfile⟩, ⟨_, hd4⟩⟩ (by rw [hrem]; exact hrem3)
                  fun h => absurd h hpath
            · cases hx
            · cases hx
      · cases hx
      · cases hx

/-! ### More fuel changes nothing -/

/-- If the first action ends, the second does the same. -/
def Act.Le {σ α : Type} (a b : Act σ α) : Prop := ∀ s, (a s).1 ≠ .hang → b s = a s

theorem Act.Le.refl {σ α : Type} (a : Act σ α) : Act.Le a a := fun _ _ => rfl

theorem Act.Le.bind {σ α β : Type} {a b : Act σ α} {f g : α → Act σ β} (h : Act.Le a b) (hf : ∀ x, Act.Le (f x) (g x)) :
    Act.Le (a >>= f) (b >>= g) := by
  intro s hs
  rw [Act.bind_eq] at hs
  have h1 := h s
  rw [Act.bind_eq, Act.bind_eq]
  rcases ha : a s with ⟨r, s'⟩
  rw [ha] at h1 hs
  cases r with
  | hang => exact absurd rfl hs
  | ok x => rw [h1 (by simp)]; exact hf x s' hs
  | _ => rw [h1 (by simp)]

theorem Act.Le.onSnd {γ σ α : Type} {a b : Act σ α} (h : Act.Le a b) : Act.Le (Act.onSnd a : Act (γ × σ) α) (Act.onSnd b) := by
  intro s hs
  rw [Act.onSnd_apply, Act.onSnd_apply, h s.2 hs]

theorem decReadLoop_mono {σ : Type} (rd : Reader σ) (enclen : Nat) {fuel fuel' : Nat} (h : fuel ≤ fuel') (c : UInt8) (buf : Bytes) :
    Act.Le (decReadLoop rd enclen fuel c buf) (decReadLoop rd enclen fuel' c buf) := by
  induction fuel generalizing fuel' c buf with
  | zero => intro s hs; exact absurd rfl hs
  | succ fuel ih =>
    obtain ⟨fuel', rfl⟩ : ∃ k, fuel' = k + 1 := ⟨fuel' - 1, by omega⟩
    intro s hs
    unfold decReadLoop at hs ⊢
    by_cases he : buf.length = enclen
    · rw [if_pos he, if_pos he]
    · rw [if_neg he] at hs ⊢
      rw [if_neg he]
      rcases hr : rd 1 s with ⟨r, s'⟩
      rw [hr] at hs
      cases r with
      | ok got =>
        dsimp only at hs ⊢
        split at hs
        · rename_i h10; rw [if_pos h10, if_pos h10]; exact ih (by omega) _ _ s' hs
        · rename_i h10; rw [if_neg h10, if_neg h10]; exact ih (by omega) _ _ s' hs
      | err e => cases e <;> rfl
      | _ => rfl

theorem decRead_mono {σ : Type} (rd : Reader σ) {fuel fuel' : Nat} (h : fuel ≤ fuel') (n : Nat) :
    Act.Le (decRead fuel rd n) (decRead fuel' rd n) := (decReadLoop_mono rd _ h 0 []).bind fun _ => .refl _

theorem skipComment_mono {σ : Type} (rd : Reader σ) {fuel fuel' : Nat} (h : fuel ≤ fuel') :
    Act.Le (skipComment fuel rd) (skipComment fuel' rd) := by
  have : ∀ c, Act.Le (skipCommentLoop rd fuel c) (skipCommentLoop rd fuel' c) := by
    induction fuel generalizing fuel' with
    | zero => intro c s hs; exact absurd rfl hs
    | succ fuel ih =>
      obtain ⟨fuel', rfl⟩ : ∃ k, fuel' = k + 1 := ⟨fuel' - 1, by omega⟩
      intro c
      unfold skipCommentLoop
      refine (Act.Le.refl _).bind fun got => ?_
      dsimp only
      split
      · exact .refl _
      · exact ih (by omega) _
  exact this 0

theorem openLoop_mono {σ : Type} (P : Prims) (sh : Arr 32) {rd rd' : Reader σ} (w : Writer σ) (hr : ∀ n, Act.Le (rd n) (rd' n))
    (n i : Nat) (nonce : Arr 24) : Act.Le (openLoop P sh rd w n i nonce) (openLoop P sh rd' w n i nonce) := by
  induction n generalizing i nonce with
  | zero => exact .refl _
  | succ n ih =>
    unfold openLoop
    refine (hr _).bind fun chunk => ?_
    split
    · exact .refl _
    · exact (Act.Le.refl _).bind fun _ => (Act.Le.refl _).bind fun _ => ih _ _

theorem openTail_mono (P : Prims) {fuel fuel' : Nat} (h : fuel ≤ fuel') (priv : Private) (hE hM : Nat) :
    Act.Le (openTail P fuel priv hE hM) (openTail P fuel' priv hE hM) := by
  have key : Act.Le
      (openBox P (Private.toBox P) (fun n => Act.onSnd (decRead fuel (World.readHandle hE) n)) (fun bs => Act.onSnd (World.writeHandle hM bs)))
      (openBox P (Private.toBox P) (fun n => Act.onSnd (decRead fuel' (World.readHandle hE) n)) (fun bs => Act.onSnd (World.writeHandle hM bs))) := by
    have hr : ∀ n, Act.Le (Act.onSnd (decRead fuel (World.readHandle hE) n) : Act (Private × World) Bytes)
        (Act.onSnd (decRead fuel' (World.readHandle hE) n)) := fun n => (decRead_mono _ h n).onSnd
    unfold openBox
    refine (Act.Le.refl _).bind fun edpriv => (hr _).bind fun header => ?_
    split
    · exact .refl _
    · dsimp only
      split
      · exact .refl _
      · exact openLoop_mono P _ _ hr _ _ _
  intro w hw
  unfold openTail at hw ⊢
  dsimp only at hw ⊢
  rw [key (priv, w) hw]

theorem Open_mono (P : Prims) {fuel fuel' : Nat} (h : fuel ≤ fuel') (kp ep mp : Path) :
    Act.Le (Open P fuel kp ep mp) (Open P fuel' kp ep mp) := by
  rw [Open_unfold, Open_unfold]
  exact (Act.Le.refl _).bind fun priv => (Act.Le.refl _).bind fun e => (skipComment_mono _ h).bind fun _ => (Act.Le.refl _).bind fun m =>
    openTail_mono P h priv e m

end Verif
