/-
What `Verify` does, under every schedule of the system.
-/
import Verif.Lemmas.Sign

namespace Verif
open World

/-- The action changes nothing but the call counter. -/
def OnlyTick {α : Type} (a : Act World α) : Prop := ∀ w, (a w).2 = { w with tick := (a w).2.tick }

theorem OnlyTick.bind {α β : Type} {a : Act World α} {f : α → Act World β} (ha : OnlyTick a) (hf : ∀ x, OnlyTick (f x)) :
    OnlyTick (a >>= f) := by
  intro w
  have h1 := ha w
  rw [Act.bind_eq]
  rcases h : a w with ⟨r, w'⟩
  rw [h] at h1
  simp only at h1
  cases r with
  | ok x =>
    have h2 := hf x w'
    simp only
    rw [h2]
    rw [h1]
  | _ => exact h1

theorem OnlyTick.readFile (p : Path) : OnlyTick (World.readFile p) := by
  intro w; rw [(readFile_spec p w).1]

theorem OnlyTick.ofRes {α : Type} (r : Res α) : OnlyTick (Act.ofRes r) := fun _ => rfl

theorem Verify_onlyTick (P : Prims) (pp mp sp : Path) : OnlyTick (Verify P pp mp sp) := by
  unfold Verify loadPublicKey readSignaturePath
  exact .bind (.bind (.readFile _) fun _ => .ofRes _) fun _ => .bind (.readFile _) fun _ =>
    .bind (.bind (.readFile _) fun _ => .ofRes _) fun _ => .ofRes _

/-- What `Verify` does with the three files. -/
def verifyFiles (P : Prims) (pubFile message sigFile : Bytes) : Res Unit := do
  let pub ← readPublicKeyFile pubFile
  let sig ← readSignatureFile sigFile
  pub.verify P message sig

theorem publicFile_ok_iff (file : Bytes) (pub : Public) :
    readPublicKeyFile file = .ok pub ↔ ∃ d, readDataFileBytes file = .ok d ∧ readPublicKeyData d.data = .ok pub := by
  unfold readPublicKeyFile
  cases h : readDataFileBytes file <;> simp

theorem signatureFile_ok_iff (file : Bytes) (s : Signature) :
    readSignatureFile file = .ok s ↔ ∃ d, readDataFileBytes file = .ok d ∧ readSignatureData d.data = .ok s := by
  unfold readSignatureFile
  cases h : readDataFileBytes file <;> simp

theorem verify_ok_iff (P : Prims) (pub : Public) (m : Bytes) (s : Signature) :
    pub.verify P m s = .ok () ↔ pub.keyAlgo.toList = b!"Ed" ∧ s.pkAlgo.toList = b!"Ed" ∧
      pub.keyNum.toList = s.keyNum.toList ∧ P.edVerify pub.key m s.sig = true := by
  unfold Public.verify Public.verifyEd25519
  by_cases h1 : pub.keyAlgo.toList = b!"Ed"
  · rw [if_pos h1, if_neg (by simpa using h1)]
    by_cases h2 : s.pkAlgo.toList = b!"Ed"
    · rw [if_neg (by simpa using h2)]
      by_cases h3 : pub.keyNum.toList = s.keyNum.toList
      · rw [if_neg (by simpa using h3)]
        cases h4 : P.edVerify pub.key m s.sig <;> simp [h1, h2, h3]
      · rw [if_pos h3]; simp [h3]
    · rw [if_pos h2]; simp [h2]
  · rw [if_neg h1]; simp [h1]

theorem verify_clean (P : Prims) (pub : Public) (m : Bytes) (s : Signature) : (pub.verify P m s).Clean := by
  unfold Public.verify Public.verifyEd25519 Res.Clean
  repeat' split
  all_goals simp

theorem publicFile_clean (file : Bytes) : (readPublicKeyFile file).Clean := by
  unfold readPublicKeyFile
  refine (dataFile_clean file).bind fun d => ?_
  unfold readPublicKeyData Res.Clean
  split <;> simp

theorem verify_public (data : Bytes) (pub : Public) (h : readPublicKeyData data = .ok pub) :
    data.length = 42 ∧ pub.keyAlgo.toList = data.take 2 ∧ pub.keyNum.toList = (data.drop 2).take 8 ∧
      pub.key = copyZ 32 (data.drop 10) := by
  unfold readPublicKeyData at h
  split at h
  · simp at h
  · rename_i hl
    have hl : data.length = 42 := by omega
    cases h
    refine ⟨hl, ?_, ?_, ?_⟩
    · exact copyZ_toList_eq (by simp; omega)
    · exact copyZ_toList_eq (by simp; omega)
    · simp only
      rw [List.take_of_length_le (by simp; omega)]

theorem verify_signature (data : Bytes) (s : Signature) (h : readSignatureData data = .ok s) :
    10 ≤ data.length ∧ s.pkAlgo.toList = data.take 2 ∧ s.keyNum.toList = (data.drop 2).take 8 ∧
      s.sig = copyZ 64 (data.drop 10) := by
  unfold readSignatureData at h
  split at h
  · simp at h
  · rename_i hl
    cases h
    refine ⟨by omega, ?_, ?_, rfl⟩
    · exact copyZ_toList_eq (by simp; omega)
    · exact copyZ_toList_eq (by simp; omega)

theorem verifyFiles_ok_iff (P : Prims) (pubFile message sigFile : Bytes) :
    verifyFiles P pubFile message sigFile = .ok () ↔ Accepts P pubFile message sigFile := by
  unfold verifyFiles Accepts
  constructor
  · intro h
    obtain ⟨pub, h1, h⟩ := Res.bind_ok_inv h
    obtain ⟨s, h2, h3⟩ := Res.bind_ok_inv h
    obtain ⟨dp, h4, h5⟩ := (publicFile_ok_iff _ _).mp h1
    obtain ⟨ds, h6, h7⟩ := (signatureFile_ok_iff _ _).mp h2
    obtain ⟨a1, a2, a3, a4⟩ := verify_public _ _ h5
    obtain ⟨b1, b2, b3, b4⟩ := verify_signature _ _ h7
    obtain ⟨c1, c2, c3, c4⟩ := (verify_ok_iff _ _ _ _).mp h3
    exact ⟨dp, ds, h4, h6, a1, b1, by rw [← a2, c1], by rw [← b2, c2], by rw [← a3, ← b3, c3],
      by rw [← a4, ← b4, c4]⟩
  · rintro ⟨dp, ds, h4, h6, a1, b1, c1, c2, c3, c4⟩
    obtain ⟨pub, h5, -⟩ := readPublicKeyData_ok _ a1
    obtain ⟨s, h7, -⟩ := readSignatureData_ok _ b1
    obtain ⟨-, a2, a3, a4⟩ := verify_public _ _ h5
    obtain ⟨-, b2, b3, b4⟩ := verify_signature _ _ h7
    rw [(publicFile_ok_iff _ _).mpr ⟨dp, h4, h5⟩, (signatureFile_ok_iff _ _).mpr ⟨ds, h6, h7⟩]
    simp only [Res.bind_ok]
    exact (verify_ok_iff _ _ _ _).mpr ⟨by rw [a2, c1], by rw [b2, c2], by rw [a3, b3, c3], by rw [a4, b4, c4]⟩

theorem verifyFiles_panic_iff (P : Prims) (pubFile message sigFile : Bytes) :
    verifyFiles P pubFile message sigFile = .panic ↔
      (∃ pub, readPublicKeyFile pubFile = .ok pub) ∧
      ∃ ds, readDataFileBytes sigFile = .ok ds ∧ ds.data.length < 10 := by
  unfold verifyFiles
  rcases publicFile_clean pubFile with ⟨pub, h⟩ | ⟨e, h⟩
  · rw [h, Res.bind_ok, readSignatureFile]
    rcases dataFile_clean sigFile with ⟨ds, h2⟩ | ⟨e, h2⟩
    · rw [h2, Res.bind_ok]
      by_cases hl : ds.data.length < 10
      · rw [readSignatureData, if_pos hl]; simp [hl]
      · obtain ⟨s, h7, -⟩ := readSignatureData_ok ds.data (by omega)
        rw [h7, Res.bind_ok]
        rcases verify_clean P pub message s with ⟨x, h3⟩ | ⟨e, h3⟩ <;> rw [h3] <;> simp [hl]
    · rw [h2]; simp
  · rw [h]; simp

/-- Under every schedule, success means that the files were accepted. -/
theorem Verify_ok (P : Prims) (pp mp sp : Path) (w : World) (h : (Verify P pp mp sp w).1 = .ok ()) :
    ∃ fp fm fs, w.fs pp = some fp ∧ w.fs mp = some fm ∧ w.fs (sigPath mp sp) = some fs ∧
      verifyFiles P fp.data fm.data fs.data = .ok () := by
  have h0 : Verify P pp mp sp w = (.ok (), (Verify P pp mp sp w).2) := Prod.ext h rfl
  unfold Verify at h0
  obtain ⟨pub, w1, h1, h0⟩ := Act.bind_ok_inv h0
  obtain ⟨message, w2, h2, h0⟩ := Act.bind_ok_inv h0
  obtain ⟨s, w3, h3, h0⟩ := Act.bind_ok_inv h0
  unfold loadPublicKey at h1
  obtain ⟨d1, w1', h1a, h1⟩ := Act.bind_ok_inv h1
  unfold readSignaturePath at h3
  obtain ⟨d3, w3', h3a, h3⟩ := Act.bind_ok_inv h3
  simp only [Act.ofRes_apply, Prod.mk.injEq] at h0 h1 h3
  obtain ⟨fp, e1, rfl, hw1'⟩ := readFile_ok h1a
  obtain ⟨fm, e2, rfl, hw2⟩ := readFile_ok h2
  obtain ⟨fs, e3, rfl, -⟩ := readFile_ok h3a
  have hf1 : w1.fs = w.fs := by rw [← h1.2, hw1']
  have hf2 : w2.fs = w.fs := by rw [hw2]; exact hf1
  refine ⟨fp, fm, fs, e1, by rw [← hf1, e2], by rw [← hf2]; exact e3, ?_⟩
  rw [verifyFiles, h1.1, Res.bind_ok, h3.1, Res.bind_ok, h0.1]

/-- With no faults and all files present, the result is determined by the contents. -/
theorem Verify_quiet (P : Prims) {pp mp sp : Path} {w : World} (hq : w.Quiet) {fp fm fs : File}
    (h1 : w.fs pp = some fp) (h2 : w.fs mp = some fm) (h3 : w.fs (sigPath mp sp) = some fs) :
    (Verify P pp mp sp w).1 = verifyFiles P fp.data fm.data fs.data := by
  unfold Verify verifyFiles loadPublicKey readSignaturePath
  rw [show (if sp = [] then mp ++ b!".sig" else sp) = sigPath mp sp from rfl]
  rw [Act.bind_eq, Act.bind_ok (readFile_quiet hq h1)]
  simp only [Act.ofRes_apply]
  rcases publicFile_clean fp.data with ⟨pub, h⟩ | ⟨e, h⟩
  · rw [h]
    simp only [Res.bind_ok]
    rw [Act.bind_ok (readFile_quiet (hq.tick 1) h2), Act.bind_eq,
      Act.bind_ok (readFile_quiet (p := sigPath mp sp) ((hq.tick 1).tick 1) h3)]
    simp only [Act.ofRes_apply]
    cases readSignatureFile fs.data <;> rfl
  · rw [h]; rfl

end Verif
