/-
Newlines in the encrypted text have no effect on `Open`.
-/
import Verif.Lemmas.OpenFile
import Verif.Lemmas.Rel

namespace Verif
open Spec World B64

/-- What a read without faults returns depends only on the text without its newlines. -/
theorem decReadLoop_value {σ : Type} {I : σ → Prop} {q : Prop} {rd : Reader σ} {left : σ → Bytes} (hb : Bytewise I q rd left)
    (hq : q) (enclen fuel : Nat) (s : σ) (hI : I s) (hf : (left s).length < fuel) :
    ∃ s', decReadLoop rd enclen fuel 0 [] s = (.ok ((stripNL (left s)).take enclen), s') ∧ I s' ∧
      stripNL (left s') = (stripNL (left s)).drop enclen ∧ (left s').length ≤ (left s).length := by
  obtain ⟨r, s', t, h1, h2, h3, h4, h5⟩ := decReadLoop_on hb enclen fuel 0 [] s hI (by simp)
  obtain ⟨out, rfl⟩ := h5 hq hf
  obtain ⟨rfl, hle, hor⟩ := h4 out rfl
  rw [List.nil_append] at *
  have hv : stripNL t = (stripNL (left s)).take enclen ∧ stripNL (left s') = (stripNL (left s)).drop enclen := by
    rw [h3, stripNL_append]
    rcases hor with h | h
    · rw [← h]; simp
    · rw [h]
      have : stripNL ([] : Bytes) = [] := rfl
      rw [this, List.append_nil, List.take_of_length_le hle, List.drop_of_length_le hle]
      exact ⟨rfl, rfl⟩
  exact ⟨s', by rw [h1, hv.1], h2, hv.2, by rw [h3]; simp⟩

theorem decRead_value {σ : Type} {I : σ → Prop} {q : Prop} {rd : Reader σ} {left : σ → Bytes} (hb : Bytewise I q rd left)
    (hq : q) (fuel n : Nat) (s : σ) (hI : I s) (hf : (left s).length < fuel) :
    ∃ s', decRead fuel rd n s = ((match B64.decode n ((stripNL (left s)).take (encodedLen n)) with
        | .ok out => .ok out
        | .corrupt => .err .corruptBase64
        | .panic => .panic), s') ∧ I s' ∧
      stripNL (left s') = (stripNL (left s)).drop (encodedLen n) ∧ (left s').length ≤ (left s).length := by
  obtain ⟨s', h1, h2⟩ := decReadLoop_value hb hq (encodedLen n) fuel s hI hf
  refine ⟨s', ?_, h2⟩
  unfold decRead
  rw [Act.bind_ok h1]
  split <;> rename_i h <;> rw [h] <;> rfl

/-- The result, the key and the terminal after `ToBox` depend only on the key and the terminal. -/
theorem toBox_congr (P : Prims) (priv : Private) {w w' : World} (h : w.tty = w'.tty) :
    (Private.toBox P (priv, w)).1 = (Private.toBox P (priv, w')).1 ∧
    (Private.toBox P (priv, w)).2.1 = (Private.toBox P (priv, w')).2.1 ∧
    (Private.toBox P (priv, w)).2.2.tty = (Private.toBox P (priv, w')).2.2.tty := by
  by_cases hc : priv.check P = .ok ()
  · rw [toBox_checked P priv w hc, toBox_checked P priv w' hc]; exact ⟨rfl, rfl, h⟩
  · have hc' : priv.check P = .err .badChecksum := (check_cases P priv).resolve_left hc
    cases ht : w.tty with
    | nil =>
      have ht' := h ▸ ht
      simp only [Private.toBox, Act.bind_eq, Act.getFst_apply, hc', Act.onSnd_apply, passphrasePrompt_nil ht,
        passphrasePrompt_nil ht']
      exact ⟨trivial, trivial, h⟩
    | cons x rest =>
      have ht' := h ▸ ht
      cases x with
      | none =>
        simp only [Private.toBox, Act.bind_eq, Act.getFst_apply, hc', Act.onSnd_apply, passphrasePrompt_none ht,
          passphrasePrompt_none ht']
        exact ⟨trivial, trivial, trivial⟩
      | some pw => rw [toBox_typed P priv w hc ht, toBox_typed P priv w' hc ht']; exact ⟨rfl, rfl, rfl⟩

/-- Two runs over texts that differ only in newlines. -/
structure SameText (wA wB : World) (epA mpA epB mpB : Path) (mA mB hEA hMA hEB hMB fuel : Nat) (s t : Private × World) : Prop where
  key : s.1 = t.1
  tty : s.2.tty = t.2.tty
  out : ∃ d, Opening wA epA mpA mA hEA hMA d s.2 ∧ Opening wB epB mpB mB hEB hMB d t.2
  text : stripNL (remaining hEA s.2) = stripNL (remaining hEB t.2)
  fuelA : (remaining hEA s.2).length < fuel
  fuelB : (remaining hEB t.2).length < fuel

theorem writeHandle_result {w0 : World} {p : Path} {mode h : Nat} {c : Bytes} {w x : World} (hA : At w0 p mode h c w) {bs : Bytes}
    {n : Nat} (hw : writeHandle h bs w = (.ok n, x)) : n = bs.length ∧ x.tty = w.tty := by
  obtain ⟨k, r, w', h1, -, -, -, h5, -, -, h8⟩ := writeHandle_at hA bs
  rw [hw] at h1
  simp only [Prod.mk.injEq] at h1
  obtain ⟨rfl, rfl⟩ := h1
  refine ⟨?_, h5.tty⟩
  rcases h8 with h | h | h
  · exact Res.ok.inj h
  · cases h
  · cases h

section

variable {wA wB : World} {epA mpA epB mpB : Path} {mA mB hEA hMA hEB hMB fuel : Nat}

/-- Reading keeps the terminal: an invariant that remembers it. -/
theorem opening_bytewise_tty (w0 : World) (ep mp : Path) (mode hE hM : Nat) (hne : hE ≠ hM) (hfe : ∃ fe, w0.fs ep = some fe)
    (d : Bytes) (tty : List (Option Bytes)) :
    Bytewise (fun w => Opening w0 ep mp mode hE hM d w ∧ w.tty = tty) w0.Quiet (readHandle hE) (remaining hE) := by
  apply readHandle_bytewise (p := ep)
  · intro w hI; exact hI.1.read hfe
  · intro w hI hq; exact hI.1.quiet hq
  · rintro w w' ⟨hI, ht⟩ h1 h2 h3 h4 h5
    exact ⟨⟨⟨by rw [h1]; exact hI.dest.fs, by rw [h4 _ (Ne.symm hne)]; exact hI.dest.hd⟩,
      hI.frame.trans (.ofIO h2), by have := hI.tick; omega, h5⟩, by rw [h2.tty, ht]⟩

theorem openBox_sameText (P : Prims) (neA : hEA ≠ hMA) (neB : hEB ≠ hMB) (fA : ∃ fe, wA.fs epA = some fe)
    (fB : ∃ fe, wB.fs epB = some fe) (pA : epA ≠ mpA) (pB : epB ≠ mpB) (qA : wA.Quiet) (qB : wB.Quiet) :
    Act.Rel (SameText wA wB epA mpA epB mpB mA mB hEA hMA hEB hMB fuel)
      (openBox P (Private.toBox P) (fun n => Act.onSnd (decRead fuel (World.readHandle hEA) n))
        (fun bs => Act.onSnd (World.writeHandle hMA bs)))
      (openBox P (Private.toBox P) (fun n => Act.onSnd (decRead fuel (World.readHandle hEB) n))
        (fun bs => Act.onSnd (World.writeHandle hMB bs))) := by
  apply Act.Rel.openBox
  · rintro n ⟨k, w⟩ ⟨k', w'⟩ ⟨h1, h2, ⟨d, hA, hB⟩, h4, h5, h6⟩
    simp only at h1 h2 h4 h5 h6
    obtain ⟨x, a1, a2, a3, a4⟩ := decRead_value (opening_bytewise_tty wA epA mpA mA hEA hMA neA fA d w.tty) qA fuel n w ⟨hA, rfl⟩ h5
    obtain ⟨y, b1, b2, b3, b4⟩ := decRead_value (opening_bytewise_tty wB epB mpB mB hEB hMB neB fB d w'.tty) qB fuel n w' ⟨hB, rfl⟩ h6
    rw [Act.onSnd_apply, Act.onSnd_apply, a1, b1, h4]
    exact ⟨rfl, h1, by simp only; rw [a2.2, b2.2, h2], ⟨d, a2.1, b2.1⟩, by simp only; rw [a3, b3, h4],
      Nat.lt_of_le_of_lt a4 h5, Nat.lt_of_le_of_lt b4 h6⟩
  · rintro bs ⟨k, w⟩ ⟨k', w'⟩ ⟨h1, h2, ⟨d, hA, hB⟩, h4, h5, h6⟩
    simp only at h1 h2 h4 h5 h6
    obtain ⟨j, r, x, a1, a2, a3, a4, a5⟩ := opening_write neA hA bs
    obtain ⟨j', r', y, b1, b2, b3, b4, b5⟩ := opening_write neB hB bs
    obtain ⟨n, rfl⟩ := a4 qA
    obtain ⟨n', rfl⟩ := b4 qB
    rw [a3 ⟨_, rfl⟩] at a2
    rw [b3 ⟨_, rfl⟩] at b2
    obtain ⟨hn, e1⟩ := writeHandle_result hA.dest a1
    obtain ⟨hn', e2⟩ := writeHandle_result hB.dest b1
    rw [Act.onSnd_apply, Act.onSnd_apply, a1, b1, hn, hn']
    refine ⟨rfl, h1, ?_, ⟨_, a2, b2⟩, ?_, ?_, ?_⟩
    · simp only; rw [e1, e2, h2]
    · simp only; rw [a5 pA, b5 pB, h4]
    · simp only; rw [a5 pA]; exact h5
    · simp only; rw [b5 pB]; exact h6
  · rintro ⟨k, w⟩ ⟨k', w'⟩ ⟨h1, h2, ⟨d, hA, hB⟩, h4, h5, h6⟩
    simp only at h1 h2 h4 h5 h6
    subst h1
    obtain ⟨c1, c2, c3⟩ := toBox_congr P k h2
    obtain ⟨a1, a2⟩ := hA.toBox P (priv := k)
    obtain ⟨b1, b2⟩ := hB.toBox P (priv := k)
    exact ⟨c1, c2, c3, ⟨d, a1, b1⟩, by rw [a2, b2, h4], by rw [a2]; exact h5, by rw [b2]; exact h6⟩

end

/-- Two worlds with the same key and terminal, whose encrypted files differ only in the first line and in newlines. -/
theorem Open_newlines (P : Prims) (fuel : Nat) (kpA epA mpA kpB epB mpB : Path) {wA wB : World} (qA : wA.Quiet) (qB : wB.Quiet)
    {fkA fkB feA feB : File} {priv : Private} {firstA firstB textA textB : Bytes} (hkA : wA.fs kpA = some fkA)
    (hkB : wB.fs kpB = some fkB) (hpA : readPrivateKeyFile fkA.data = .ok priv) (hpB : readPrivateKeyFile fkB.data = .ok priv)
    (htty : wA.tty = wB.tty) (heA : wA.fs epA = some feA) (heB : wB.fs epB = some feB)
    (hdA : feA.data = firstA ++ 10 :: textA) (hdB : feB.data = firstB ++ 10 :: textB) (hnA : 10 ∉ firstA) (hnB : 10 ∉ firstB)
    (hA : epA ≠ mpA) (hB : epB ≠ mpB) (hfA : feA.data.length < fuel) (hfB : feB.data.length < fuel)
    (htext : stripNL textA = stripNL textB) :
    (Open P fuel kpA epA mpA wA).1 = (Open P fuel kpB epB mpB wB).1 ∧
    ∃ d, (Open P fuel kpA epA mpA wA).2.fs = (wA.setFile mpA ⟨d, (wA.truncated mpA 0o666).mode⟩).fs ∧
      (Open P fuel kpB epB mpB wB).2.fs = (wB.setFile mpB ⟨d, (wB.truncated mpB 0o666).mode⟩).fs := by
  rcases Open_start P fuel kpA epA mpA wA with ⟨-, -, -, h⟩ | ⟨pA, hEA, hMA, fA, tA, wA', rA, eA⟩
  · obtain ⟨h, -⟩ := h qA fkA priv feA hkA hpA heA hfA
    rw [hdA] at h; simp at h
  rcases Open_start P fuel kpB epB mpB wB with ⟨-, -, -, h⟩ | ⟨pB, hEB, hMB, fB, tB, wB', rB, eB⟩
  · obtain ⟨h, -⟩ := h qB fkB priv feB hkB hpB heB hfB
    rw [hdB] at h; simp at h
  obtain ⟨_, a1, a2⟩ := rA.key
  rw [hkA] at a1; obtain rfl := Option.some.inj a1
  rw [hpA] at a2; obtain rfl := Res.ok.inj a2
  obtain ⟨_, b1, b2⟩ := rB.key
  rw [hkB] at b1; obtain rfl := Option.some.inj b1
  rw [hpB] at b2; obtain rfl := Res.ok.inj b2
  obtain ⟨_, a3, a4⟩ := rA.file
  rw [heA] at a3; obtain rfl := Option.some.inj a3
  obtain ⟨-, rfl⟩ := firstLine_unique hnA rA.noNL (by rw [← hdA, a4])
  obtain ⟨_, b3, b4⟩ := rB.file
  rw [heB] at b3; obtain rfl := Option.some.inj b3
  obtain ⟨-, rfl⟩ := firstLine_unique hnB rB.noNL (by rw [← hdB, b4])
  have hrel := openBox_sameText (fuel := fuel) P rA.ne rB.ne ⟨feA, heA⟩ ⟨feB, heB⟩ hA hB qA qB (priv, wA') (priv, wB')
    ⟨rfl, by simp only; rw [rA.tty, rB.tty, htty], ⟨[], rA.opening, rB.opening⟩,
      by simp only; rw [rA.rest hA, rB.rest hB, htext],
      by simp only; rw [rA.rest hA]; rw [hdA] at hfA; simp at hfA; omega,
      by simp only; rw [rB.rest hB]; rw [hdB] at hfB; simp at hfB; omega⟩
  rw [eA, eB]
  unfold openTail
  obtain ⟨h1, -, -, ⟨d, h2, h3⟩, -⟩ := hrel
  exact ⟨h1, d, h2.dest.fs, h3.dest.fs⟩

end Verif
