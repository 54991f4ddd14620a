/-
C110: the Go text of Seal, and of the functions that it calls, does what the model does.
-/
import Verif.Source.SealMain
import Verif.Source.WorldSys
import Verif.Lemmas.Total
import Verif.Props.SealFiles
import Verif.Props.Effects
import Verif.Props.SourceKeys
import Verif.Props.SourceSign

namespace Verif.Src

open Verif.Props Spec World

theorem Res.Clean.calm {α : Type} {r : Res α} (h : r.Clean ∨ r = .crash) : r ≠ .panic := by
  rcases h with h | rfl
  · rintro rfl
    exact absurd h (by simp [Res.Clean])
  · simp

theorem worldSys_calm (P : Prims) : (worldSys P).Calm where
  openFile p w := Res.Clean.calm (openFile_returns p w)
  create p w := Res.Clean.calm (create_returns p w)
  size h w := Res.Clean.calm (fileSize_returns h w)
  write h bs w := Res.Clean.calm (writeHandle_returns h bs w)
  box pub hm n hw w := Res.Clean.calm (sealBox_returns P pub ((entropy_returns 32).onSnd (γ := EncState))
    (rd := fun n => Act.onSnd (World.readHandle hm n)) (fun n => (readHandle_returns hm n).onSnd) (encWrite_returns (writeHandle_returns hw)) n (EncState.new, w))
  close hw t := Res.Clean.calm (encClose_returns (writeHandle_returns hw) t)
  read hm w got w' h := by
    change World.readHandle hm 16385 w = _ at h
    unfold World.readHandle at h
    simp only at h
    repeat' split at h
    all_goals first
      | cases h; done
      | (cases h; simp only [List.length_take, List.length_nil]; omega)

/-- The length of a message. -/
def sizeOf (w : World) (m : Path) : Nat := ((w.fs m).map fun f => f.data.length).getD 0

theorem size_is (P : Prims) (p m : Path) (w : World) {Q : Nat → Prop} (h : Q (sizeOf w m)) : SizeIs (worldSys P) p m w Q := by
  intro pub w1 hm w2 n w3 h1 h2 h3
  obtain rfl : w1 = { w with tick := w.tick + 1 } := by
    have := loadPublicKey_world p w
    rw [show loadPublicKey p w = _ from h1] at this
    exact this
  obtain ⟨r2, w2', h2', fr2, fs2, t2, -, hcase⟩ := openFile_spec m { w with tick := w.tick + 1 }
  cases (show openFile m _ = _ from h2).symm.trans h2'
  rcases hcase with ⟨e, hh2, fm, hfm⟩ | ⟨⟨e, k⟩ | k, -⟩
  · cases e
    have hhm : w2.handles[w.handles.length]? = some ⟨m, 0⟩ := by rw [hh2]; simp
    obtain ⟨-, -, hr3⟩ := fileSize_spec hhm (show w2.fs m = some fm by rw [fs2, hfm])
    rw [show fileSize w.handles.length w2 = _ from h3] at hr3
    rcases hr3 with k | k | k
    · cases k
      unfold sizeOf at h
      rw [show w.fs m = some fm from hfm] at h
      exact h
    · cases k
    · cases k
  · cases k
  · cases k

/-- The steps that a run of `Seal` can take. -/
def sealFuel (w : World) (p m : Path) : Nat := fuelFor (World.readFile p w) + 20 + (chunkCount (sizeOf w m) + 93)

/-- C110: the text of `Seal`, run in any memory on the system of the model under any schedule of faults, on a message of less than 2^62 bytes,
ends as the model says and in the world that the model says, and leaves memory as it was. -/
theorem C110_Seal (P : Prims) {st : St World} {v0 v1 : Val} (G : Globals st v0 v1) (p m s : Path) (hm : sizeOf st.world m < 2 ^ 62) {n : Nat}
    (hn : sealFuel st.world p m ≤ n) :
    Ends st.defers (Seal P p m s st.world) id
      (fun _ w' r => r = .ok [.nil] ⟨st.mem, st.base, st.defers, w'⟩)
      (fun e w' r => ∃ v, Tells e v ∧ r = .ok [v] ⟨st.mem, st.base, st.defers, w'⟩)
      ((interp (repo (worldSys P)) n).call id!"crypto" crypt.Seal [.str p, .str m, .str s] st) := by
  unfold sealFuel at hn
  exact sealAll_in (worldSys P) rfl (worldSys_calm P) G p m s (by show fuelFor (World.readFile p st.world) + 20 ≤ n; omega)
    (size_is P p m st.world ⟨hm, by omega⟩)

/-- Every run that comes to an end is the one of the model. -/
theorem Seal_ends (P : Prims) {st : St World} {v0 v1 : Val} (G : Globals st v0 v1) (p m s : Path) (hm : sizeOf st.world m < 2 ^ 62) {n : Nat} {w : World}
    (h : EndsIn ((interp (repo (worldSys P)) n).call id!"crypto" crypt.Seal [.str p, .str m, .str s] st) w) : w = (Seal P p m s st.world).2 := by
  have c := C110_Seal P G p m s hm (Nat.le_max_right n (sealFuel st.world p m))
  have ne : (interp (repo (worldSys P)) n).call id!"crypto" crypt.Seal [.str p, .str m, .str s] st ≠ .stuck := by
    obtain ⟨t, -, ⟨a, k⟩ | k | k⟩ := h <;> simp [k]
  rw [((interp_mono (Prog.Le.refl _) (Nat.le_max_left n _)).call _ _ _).eq rfl ne] at c
  obtain ⟨t, rfl, h⟩ := h
  have hq := Seal_returns P p m s st.world
  rcases ho : Seal P p m s st.world with ⟨a | er | _ | _ | _, w'⟩ <;> rw [ho] at c hq
  · obtain ⟨a, k⟩ | k | k := h <;> cases (k.symm.trans c)
    rfl
  · obtain ⟨v, hv, c⟩ := c
    obtain ⟨a, k⟩ | k | k := h <;> cases (k.symm.trans c)
    rfl
  · obtain ⟨t', c, e, -⟩ := c
    obtain ⟨a, k⟩ | k | k := h <;> cases (k.symm.trans c)
    exact e
  · obtain ⟨t', c, e⟩ := c
    obtain ⟨a, k⟩ | k | k := h <;> cases (k.symm.trans c)
    exact e
  · rcases hq with hq | hq
    · exact absurd hq (by simp [Res.Clean])
    · cases hq

/-- The text returns nil, given enough steps, exactly if the model does. -/
theorem Seal_nil_iff (P : Prims) {st : St World} {v0 v1 : Val} (G : Globals st v0 v1) (p m s : Path) (hm : sizeOf st.world m < 2 ^ 62) :
    (∃ n st', (interp (repo (worldSys P)) n).call id!"crypto" crypt.Seal [.str p, .str m, .str s] st = .ok [.nil] st') ↔
      (Seal P p m s st.world).1 = .ok () := by
  constructor
  · rintro ⟨n, st', e⟩
    have c := C110_Seal P G p m s hm (Nat.le_max_right n (sealFuel st.world p m))
    rw [((interp_mono (Prog.Le.refl _) (Nat.le_max_left n _)).call _ _ _).eq e (by simp)] at c
    have hq := Seal_returns P p m s st.world
    rcases ho : Seal P p m s st.world with ⟨a | er | _ | _ | _, w'⟩ <;> rw [ho] at c hq
    · obtain ⟨v, hv, k⟩ := c
      obtain ⟨x, rfl⟩ := hv.err
      cases k
    · obtain ⟨t, k, -⟩ := c
      cases k
    · obtain ⟨t, k, -⟩ := c
      cases k
    · rcases hq with hq | hq
      · exact absurd hq (by simp [Res.Clean])
      · cases hq
  · intro h
    have c := C110_Seal P G p m s hm (Nat.le_refl _)
    rcases ho : Seal P p m s st.world with ⟨r, w'⟩
    rw [ho] at h c
    cases h
    exact ⟨_, _, c⟩

/-- C110: however a run of the text of `Seal` ends, no file but the encrypted one has changed. -/
theorem C110_frame (P : Prims) {st : St World} {v0 v1 : Val} (G : Globals st v0 v1) (p m s : Path) (hm : sizeOf st.world m < 2 ^ 62) {n : Nat} {w : World}
    (h : EndsIn ((interp (repo (worldSys P)) n).call id!"crypto" crypt.Seal [.str p, .str m, .str s] st) w) (q : Path) (hq : q ≠ encPath m s) :
    w.fs q = st.world.fs q := by
  rw [Seal_ends P G p m s hm h]
  exact C43_frame P p m s st.world q hq

/-- C110: the text of `Seal` draws 32 bytes from the system or none, and 32 if it returns nil for a message that is not empty. -/
theorem C110_entropy (P : Prims) {st : St World} {v0 v1 : Val} (G : Globals st v0 v1) (p m s : Path) (hm : sizeOf st.world m < 2 ^ 62) {n : Nat} {w : World}
    (h : EndsIn ((interp (repo (worldSys P)) n).call id!"crypto" crypt.Seal [.str p, .str m, .str s] st) w) :
    (w.rngPos = st.world.rngPos + 32 ∨ w.rngPos = st.world.rngPos) ∧
      (∀ f st', st.world.fs m = some f → f.data ≠ [] →
        (interp (repo (worldSys P)) n).call id!"crypto" crypt.Seal [.str p, .str m, .str s] st = .ok [.nil] st' → w.rngPos = st.world.rngPos + 32) := by
  obtain ⟨h1, h2⟩ := C77_seal P p m s st.world
  rw [Seal_ends P G p m s hm h]
  exact ⟨h1, fun f st' hf hne hok => h2 f hf hne ((Seal_nil_iff P G p m s hm).1 ⟨n, st', hok⟩)⟩

/-- C110: when the text of `Seal` returns nil, the encrypted file holds the comment line and the encoding of an authentic stream of the message for
the key in the public key file, of which at most the last five bytes are missing. -/
theorem C110_content (P : Prims) {st st' : St World} {v0 v1 : Val} (G : Globals st v0 v1) (p m s : Path) (hm : sizeOf st.world m < 2 ^ 62) {n : Nat}
    (h : (interp (repo (worldSys P)) n).call id!"crypto" crypt.Seal [.str p, .str m, .str s] st = .ok [.nil] st') :
    ∃ fp pub fm text whole mode, st.world.fs p = some fp ∧ readPublicKeyFile fp.data = .ok pub ∧ st.world.fs m = some fm ∧
      st'.world.fs (encPath m s) = some ⟨encryptedComment ++ text, mode⟩ ∧
      text <+: encodedText whole ∧ (encodedText whole).length ≤ text.length + 5 ∧
      ((fm.data = [] ∧ whole = []) ∨ ∃ edpub, ∃ ps : List Bytes, fm.data ≠ [] ∧ pub.toBox = .ok edpub ∧
        ps.length = (fm.data.length + 16384) / 16385 ∧ (m ≠ encPath m s → ps.flatten <+: fm.data) ∧
        whole = sealedStream P (P.precompute edpub (draw st.world st.world.rngPos 32)) (P.x25519Base (draw st.world st.world.rngPos 32)) ps) := by
  rw [Seal_ends P G p m s hm ⟨st', rfl, .inl ⟨_, h⟩⟩]
  exact C44_nearly_complete_partial P p m s st.world ((Seal_nil_iff P G p m s hm).1 ⟨n, st', h⟩)

/-- C110: with no faults, the text of `Seal` returns nil and has written the comment line and the base64 text of the specified stream. -/
theorem C110_complete (P : Prims) {st : St World} {v0 v1 : Val} (G : Globals st v0 v1) (p m s : Path) (hm : sizeOf st.world m < 2 ^ 62)
    (hq : st.world.Quiet) (fp fm : Verif.File) (pub : Public) (edpub : Arr 32)
    (hfp : st.world.fs p = some fp) (hpub : readPublicKeyFile fp.data = .ok pub) (hbox : pub.toBox = .ok edpub)
    (hfm : st.world.fs m = some fm) (hne : fm.data ≠ []) (hpath : m ≠ encPath m s) :
    ∃ n st' mode, (interp (repo (worldSys P)) n).call id!"crypto" crypt.Seal [.str p, .str m, .str s] st = .ok [.nil] st' ∧
      st'.world.fs (encPath m s) = some ⟨encryptedComment ++ encodedText (
        sealedStream P (P.precompute edpub (draw st.world st.world.rngPos 32)) (P.x25519Base (draw st.world st.world.rngPos 32))
          (pieces 16385 (by decide) fm.data)), mode⟩ := by
  have hl : fm.data.length < 2 ^ 63 := by
    unfold sizeOf at hm
    rw [hfm] at hm
    simp only [Option.map_some, Option.getD_some] at hm
    omega
  obtain ⟨h1, mode, h2⟩ := C42_file P p m s st.world hq fp fm pub edpub hfp hpub hbox hfm hne hpath hl
  obtain ⟨n, st', h⟩ := (Seal_nil_iff P G p m s hm).2 h1
  refine ⟨n, st', mode, h, ?_⟩
  rw [Seal_ends P G p m s hm ⟨st', rfl, .inl ⟨_, h⟩⟩]
  exact h2

/-! ### The assumptions can be met -/

/-- A machine with a public key and a message. -/
def sealWorld : World := (calm.setFile b!"p" ⟨publicFile zeroKey, 0⟩).setFile b!"m" ⟨b!"hi", 0⟩

noncomputable def sealState : St World := ⟨[promptFunc, defaultOpts, .arr (byteVals b!"zz")], 0, [], sealWorld⟩

theorem sealGlobals : Globals sealState promptFunc defaultOpts := ⟨rfl, rfl, rfl, rfl⟩

theorem sealSize : sizeOf sealState.world b!"m" < 2 ^ 62 := by
  show sizeOf sealWorld b!"m" < 2 ^ 62
  decide +kernel

/-- The text returns nil and has written the encrypted file. -/
example : ∃ n st' mode, (interp (repo (worldSys toy)) n).call id!"crypto" crypt.Seal [.str b!"p", .str b!"m", .str []] sealState = .ok [.nil] st' ∧
    st'.world.fs (encPath b!"m" []) = some ⟨encryptedComment ++ encodedText (
      sealedStream toy (toy.precompute (copyZ 32 [1]) (draw sealWorld sealWorld.rngPos 32)) (toy.x25519Base (draw sealWorld sealWorld.rngPos 32))
        (pieces 16385 (by decide) b!"hi")), mode⟩ :=
  C110_complete toy sealGlobals b!"p" b!"m" [] sealSize (show sealWorld.Quiet from fun _ _ => rfl) ⟨publicFile zeroKey, 0⟩ ⟨b!"hi", 0⟩ zeroKey (copyZ 32 [1])
    (show sealWorld.fs b!"p" = _ by decide +kernel) (readPublicKeyFile_public zeroKey) zeroKey_toBox (show sealWorld.fs b!"m" = _ by decide +kernel) (by decide) (by decide +kernel)

/-- There is an end to speak of in the other claims. -/
example : ∃ n w, EndsIn ((interp (repo (worldSys toy)) n).call id!"crypto" crypt.Seal [.str b!"p", .str b!"m", .str []] sealState) w ∧ b!"p" ≠ encPath b!"m" [] := by
  obtain ⟨n, st', mode, h, -⟩ := C110_complete toy sealGlobals b!"p" b!"m" [] sealSize (show sealWorld.Quiet from fun _ _ => rfl) ⟨publicFile zeroKey, 0⟩ ⟨b!"hi", 0⟩
    zeroKey (copyZ 32 [1]) (show sealWorld.fs b!"p" = _ by decide +kernel) (readPublicKeyFile_public zeroKey) zeroKey_toBox
    (show sealWorld.fs b!"m" = _ by decide +kernel) (by decide) (by decide +kernel)
  exact ⟨n, _, ⟨st', rfl, .inl ⟨_, h⟩⟩, by decide +kernel⟩

end Verif.Src
