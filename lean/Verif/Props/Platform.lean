/-
Property C100: encryption on platforms with 32-bit and 64-bit `int`.
-/
import Verif.Model.Platform
import Verif.Lemmas.SealFile
import Verif.Props.SealFiles

namespace Verif.Props
open World Spec B64

/-! ### Lemmas -/

theorem goInt_small {bits n : Nat} (hb : 0 < bits) (h : n < 2 ^ (bits - 1)) : goInt bits n = n := by
  obtain ⟨b, rfl⟩ : ∃ b, bits = b + 1 := ⟨bits - 1, by omega⟩
  simp only [Nat.add_sub_cancel] at h
  rw [goInt, Int.bmod_def]
  have h2 : (2 : Nat) ^ (b + 1) = 2 * 2 ^ b := by rw [Nat.pow_succ]; omega
  rw [h2]
  generalize 2 ^ b = c at *
  have hm : ((n : Int) % ((2 * c : Nat) : Int)) = n := Int.emod_eq_of_lt (by omega) (by omega)
  rw [hm, if_pos (by omega)]

theorem chunkCountOn_nat (n : Nat) : chunkCountOn n = chunkCount n := by
  unfold chunkCountOn chunkCount
  rw [Int.tmod_eq_emod_of_nonneg (by omega), Int.tdiv_eq_ediv_of_nonneg (by omega)]
  by_cases h : n % chunkSize = 0
  · rw [if_neg (by omega), if_neg (by omega)]; norm_cast
  · rw [if_pos (by omega), if_pos h]; norm_cast

theorem sealBoxOn_nat {σ : Type} (P : Prims) (pub : Public) (rand : Act σ (Arr 32)) (message : Reader σ) (n : Nat) (w : Writer σ)
    (h : n < 2 ^ 63) : sealBoxOn P pub rand message n w = sealBox P pub rand message n w := by
  have hc : chunkCount n < 2 ^ 64 := by unfold chunkCount chunkSize; split <;> omega
  unfold sealBoxOn sealBox
  dsimp only
  rw [chunkCountOn_nat, Int.emod_eq_of_lt (by omega) (by exact_mod_cast hc), Int.toNat_natCast]
  by_cases h0 : n = 0
  · rw [if_pos (by exact_mod_cast h0), if_pos h0]
  · rw [if_neg (by exact_mod_cast h0), if_neg h0]

/-- The part of `SealOn` after the comment line has been written. -/
def sealTailOn (P : Prims) (pub : Public) (hm : Nat) (len : Int) (he : Nat) : Act World Unit := fun w =>
  let under := World.writeHandle he
  let r := sealBoxOn P pub (Act.onSnd (World.entropy 32)) (fun n => Act.onSnd (World.readHandle hm n)) len
    (encWrite under) (EncState.new, w)
  match r.1 with
  | .crash => (.crash, r.2.2)
  | .hang => (.hang, r.2.2)
  | res =>
    let c := encClose under r.2
    match c.1 with
    | .panic => (.panic, c.2.2)
    | .crash => (.crash, c.2.2)
    | .hang => (.hang, c.2.2)
    | _ => (res, c.2.2)

theorem SealOn_unfold (bits : Nat) (P : Prims) (pp mp ep : Path) :
    SealOn bits P pp mp ep = (do
      let pub ← loadPublicKey pp
      let message ← World.openFile mp
      let size ← World.fileSize message
      let encrypted ← World.create (encPath mp ep)
      let _ ← World.writeHandle encrypted encryptedComment
      sealTailOn P pub message (goInt bits size) encrypted) := rfl

theorem sealTailOn_nat (P : Prims) (pub : Public) (hm n he : Nat) (h : n < 2 ^ 63) :
    sealTailOn P pub hm n he = sealTail P pub hm n he := by
  funext w
  have := sealBoxOn_nat P pub (Act.onSnd (σ := EncState) (World.entropy 32)) (fun n => Act.onSnd (World.readHandle hm n)) n
    (encWrite (World.writeHandle he)) h
  unfold sealTailOn sealTail
  simp only [this]
  rfl

/-- Sealing where the length fits into an `int`. -/
theorem SealOn_eq (bits : Nat) (hb : 0 < bits) (hb2 : bits ≤ 64) (P : Prims) (pp mp ep : Path) (w : World)
    (h : ∀ f, w.fs mp = some f → f.data.length < 2 ^ (bits - 1)) : SealOn bits P pp mp ep w = Seal P pp mp ep w := by
  rw [Seal_unfold, SealOn_unfold]
  have hw1 := loadPublicKey_world pp w
  rcases h1 : loadPublicKey pp w with ⟨r1, w1⟩
  rw [h1] at hw1
  simp only at hw1
  subst hw1
  cases r1 with
  | ok pub =>
    rw [Act.bind_ok h1, Act.bind_ok h1]
    obtain ⟨r2, w2, h2, fr2, fs2, t2, -, hcase⟩ := openFile_spec mp { w with tick := w.tick + 1 }
    simp only at fs2 hcase
    rcases hcase with ⟨rfl, hh2, f, hf⟩ | ⟨hx, -⟩
    · rw [Act.bind_ok h2, Act.bind_ok h2]
      have hhm : w2.handles[w.handles.length]? = some ⟨mp, 0⟩ := by rw [hh2]; simp
      obtain ⟨hw3, -, hok⟩ := fileSize_spec hhm (show w2.fs mp = some f by rw [fs2, hf])
      rcases h3 : fileSize w.handles.length w2 with ⟨r3, w3⟩
      rw [h3] at hok
      cases r3 with
      | ok n =>
        have hn : n = f.data.length := by simpa using hok
        rw [Act.bind_ok h3, Act.bind_ok h3]
        subst hn
        have hl := h f hf
        have h63 : f.data.length < 2 ^ 63 := Nat.lt_of_lt_of_le hl (Nat.pow_le_pow_right (by decide) (by omega))
        rw [goInt_small hb hl]
        simp only [sealTailOn_nat _ _ _ _ _ h63]
      | _ => rw [Act.bind_eq, Act.bind_eq, h3]
    · rcases hx with ⟨e, rfl⟩ | rfl <;> rw [Act.bind_eq, Act.bind_eq, h2]
  | _ => rw [Act.bind_eq, Act.bind_eq, h1]

/-- The length of an encoded header. -/
theorem encodedText_header {d : Bytes} (h : d.length = 72) : (encodedText d).length = 98 := by
  have hl : (encode d).length = 96 := by rw [encode_length, h]; rfl
  rw [encode_eq_base64] at hl
  have e1 : d.length / 3 * 3 = 72 := by rw [h]
  unfold encodedText
  simp only [e1]
  rw [List.take_of_length_le (by omega), List.drop_of_length_le (by omega), breakEvery, if_neg (by omega), breakEvery,
    if_pos (by rw [List.length_drop]; omega)]
  have h0 : base64 [] = [] := by rw [← encode_eq_base64]; rfl
  simp [hl, h0]

/-- The part that writes the sealed data if the length has become zero, or so small that the loop does nothing. -/
theorem sealTailOn_quiet (P : Prims) (pub : Public) {w0 w : World} {mp ep : Path} {mode hm he : Nat} (len : Int) (hne : hm ≠ he)
    (hq : w0.Quiet) (hA : At w0 ep mode he encryptedComment w) (hfr : FrameIOR w0 w) (ht : w0.tick ≤ w.tick)
    (hmsg : w.handles[hm]? = some ⟨mp, 0⟩) (hlen : len = 0 ∨ chunkCountOn len ≤ 0) {edpub : Arr 32} (he' : pub.toBox = .ok edpub) :
    (sealTailOn P pub hm len he w).1 = .ok () ∧
    Sealing w0 mp ep mode hm he (encodedText (if len = 0 then [] else
      headerOf P (P.precompute edpub (draw w w.rngPos 32)) (P.x25519Base (draw w w.rngPos 32)) (chunkCountOn len % 2 ^ 64).toNat))
      (sealTailOn P pub hm len he w).2 := by
  have hS0 : Sealing w0 mp ep mode hm he (emitted []) w :=
    ⟨by rw [emitted_nil, List.append_nil]; exact hA, hfr, ht, ⟨0, hmsg⟩⟩
  generalize hD : (if len = 0 then [] else
      headerOf P (P.precompute edpub (draw w w.rngPos 32)) (P.x25519Base (draw w w.rngPos 32)) (chunkCountOn len % 2 ^ 64).toNat) = D
  obtain ⟨w', hb, hS'⟩ : ∃ w', sealBoxOn P pub (Act.onSnd (World.entropy 32)) (fun n => Act.onSnd (World.readHandle hm n)) len
        (encWrite (writeHandle he)) (EncState.new, w) = (.ok (), (stateOf D, w')) ∧
        Sealing w0 mp ep mode hm he (emitted D) w' := by
    by_cases hm0 : len = 0
    · rw [if_pos hm0] at hD
      subst hD
      exact ⟨w, by unfold sealBoxOn; rw [if_pos hm0]; rfl, hS0⟩
    · rw [if_neg hm0] at hD
      have hc := hlen.resolve_left hm0
      have hqw := hS0.quiet hq
      have hr : (Act.onSnd (World.entropy 32) : Act (EncState × World) (Arr 32)) (EncState.new, w) =
          (.ok (draw w w.rngPos 32), (EncState.new, { w with tick := w.tick + 1, rngPos := w.rngPos + 32 })) := by
        rw [Act.onSnd_apply, entropy_quiet 32 hqw]; rfl
      have hS1 : Sealing w0 mp ep mode hm he (emitted []) { w with tick := w.tick + 1, rngPos := w.rngPos + 32 } :=
        ⟨⟨hS0.enc.fs, hS0.enc.hd⟩, hS0.frame.trans rfl, by have := hS0.tick; simp only; omega, hS0.msg⟩
      obtain ⟨n, w', h1, h2, -⟩ := encWrite_quiet hne hq hS1
        (sealHeader P (chunkCountOn len % 2 ^ 64).toNat (P.x25519Base (draw w w.rngPos 32)) (P.precompute edpub (draw w w.rngPos 32)))
      rw [List.nil_append, sealHeader_eq, hD] at h2
      refine ⟨w', ?_, h2⟩
      unfold sealBoxOn
      rw [if_neg hm0]
      have h0 : (Act.ofRes pub.toBox : Act (EncState × World) (Arr 32)) (EncState.new, w) = (.ok edpub, (EncState.new, w)) := by
        rw [he']; rfl
      rw [Act.bind_ok h0, Act.bind_ok hr]
      have e0 : EncState.new = stateOf [] := rfl
      rw [e0, Act.bind_ok h1, Int.toNat_of_nonpos hc, List.nil_append, sealHeader_eq, hD]
      rfl
  obtain ⟨off, hoff⟩ := hS'.msg
  have hf := writeHandle_faithful (w0 := w0) (mp := mp) (ep := ep) (mode := mode) hne off
  have htot := encClose_on_total hf (fun bs s hI => by
    obtain ⟨⟨c, hS⟩, hh⟩ := hI
    obtain ⟨k, r, w', h1, -, -, -, -, -, h7, -⟩ := writeHandle_at hS.enc bs
    rw [h1]; exact h7 (hS.quiet hq)) (stateOf D) w' ⟨⟨_, hS'⟩, hoff⟩
  obtain ⟨⟨-, hfull⟩, ⟨c, h3⟩, h4⟩ := encClose_on hf D w' ⟨⟨_, hS'⟩, hoff⟩
  obtain ⟨ext, he3, he4⟩ := hfull htot
  rw [recv_at h3, recv_at hS', List.append_assoc] at he3
  rw [List.append_cancel_left he3, he4] at h3
  unfold sealTailOn
  simp only [hb, htot]
  exact ⟨trivial, h3⟩

/-- `SealOn` without faults if the length becomes so small that no chunk is sealed. -/
theorem SealOn_quiet (bits : Nat) (P : Prims) (pp mp ep : Path) {w : World} (hq : w.Quiet) {fp fm : File} {pub : Public}
    {edpub : Arr 32} (hfp : w.fs pp = some fp) (hpub : readPublicKeyFile fp.data = .ok pub) (hbox : pub.toBox = .ok edpub)
    (hfm : w.fs mp = some fm) (hlen : goInt bits fm.data.length = 0 ∨ chunkCountOn (goInt bits fm.data.length) ≤ 0) :
    (SealOn bits P pp mp ep w).1 = .ok () ∧
    (SealOn bits P pp mp ep w).2.fs = (w.setFile (encPath mp ep) ⟨encryptedComment ++ encodedText
      (if goInt bits fm.data.length = 0 then [] else
      headerOf P (P.precompute edpub (draw w w.rngPos 32)) (P.x25519Base (draw w w.rngPos 32))
        (chunkCountOn (goInt bits fm.data.length) % 2 ^ 64).toNat), (w.truncated (encPath mp ep) 0o666).mode⟩).fs := by
  rw [SealOn_unfold]
  generalize encPath mp ep = ep
  have h1 : loadPublicKey pp w = (.ok pub, { w with tick := w.tick + 1 }) :=
    Prod.ext (by rw [loadPublicKey_quiet hq hfp, hpub]) (loadPublicKey_world pp w)
  rw [Act.bind_ok h1]
  obtain ⟨r2, w2, h2, fr2, fs2, t2, hq2, hcase⟩ := openFile_spec mp { w with tick := w.tick + 1 }
  obtain ⟨x, rfl⟩ := hq2 (hq.tick 1) ⟨fm, hfm⟩
  simp only at fs2 t2 hcase
  have fr2' : FrameIO w w2 := FrameIO.trans (b := { w with tick := w.tick + 1 }) rfl fr2
  rcases hcase with ⟨hx, hh2, -⟩ | ⟨⟨e, hx⟩ | hx, -⟩
  · obtain rfl := Res.ok.inj hx
    rw [Act.bind_ok h2]
    have hhm : w2.handles[w.handles.length]? = some ⟨mp, 0⟩ := by rw [hh2]; simp
    obtain ⟨hw3, hq3, -⟩ := fileSize_spec hhm (show w2.fs mp = some fm by rw [fs2, hfm])
    have hqw2 : w2.Quiet := hq.mono fr2'.sched (by omega)
    rw [Act.bind_ok (Prod.ext (hq3 hqw2) hw3)]
    have fr3 : FrameIO w { w2 with tick := w2.tick + 1 } := FrameIO.trans fr2' rfl
    obtain ⟨r4, w4, h4, fr4, t4, hq4, hc4⟩ := create_spec ep { w2 with tick := w2.tick + 1 }
    obtain ⟨y, rfl⟩ := hq4 (hqw2.tick 1)
    have fr4' : FrameIO w w4 := FrameIO.trans fr3 fr4
    have htr : ({ w2 with tick := w2.tick + 1 } : World).truncated ep 0o666 = w.truncated ep 0o666 :=
      truncated_congr _ _ (by simp only; rw [fs2]) (by rw [fr3])
    rw [htr] at hc4
    simp only at t4 hc4
    rcases hc4 with ⟨hy, hA4, hh4⟩ | ⟨hr4, -⟩
    · obtain rfl := Res.ok.inj hy
      rw [Act.bind_ok h4]
      have hA4 : At w ep (w.truncated ep 0o666).mode w2.handles.length [] w4 :=
        ⟨by rw [hA4.fs]; simp only [setFile, fs2], hA4.hd⟩
      generalize hhe : w2.handles.length = he at *
      have hne : w.handles.length ≠ he := by rw [← hhe, hh2]; simp
      obtain ⟨k, r5, w5, h5, hA5, hall, hoth, fr5, t5, hq5, hr5⟩ := writeHandle_at hA4 encryptedComment
      obtain ⟨z, rfl⟩ := hq5 (hq.mono fr4'.sched (by omega))
      have fr5' : FrameIO w w5 := FrameIO.trans fr4' fr5
      rw [Act.bind_ok h5]
      rw [hall ⟨_, rfl⟩, List.nil_append] at hA5
      have hm5 : w5.handles[w.handles.length]? = some ⟨mp, 0⟩ := by
        rw [hoth _ hne, hh4, List.getElem?_append_left (by rw [hh2]; simp), hhm]
      have hdraw : draw w5 w5.rngPos 32 = draw w w.rngPos 32 := by
        unfold draw; rw [fr5'.rng, fr5'.rngPos]
      have := sealTailOn_quiet P pub (goInt bits fm.data.length) hne hq hA5 fr5'.toIOR (by omega) hm5 hlen hbox
      rw [hdraw] at this
      exact ⟨this.1, this.2.enc.fs⟩
    · rcases hr4 with h | h <;> cases h
  · cases hx
  · cases hx

/-- The lengths that become zero or negative with 32 bits, but for the last 16384 of them. -/
theorem goInt_lost {n : Nat} (h : n % 2 ^ 32 = 0 ∨ 2 ^ 31 ≤ n % 2 ^ 32 ∧ n % 2 ^ 32 + 16385 ≤ 2 ^ 32) :
    goInt 32 n = 0 ∨ chunkCountOn (goInt 32 n) ≤ 0 := by
  rw [goInt, Int.bmod_def]
  rcases h with h | ⟨h1, h2⟩
  · left
    have : (n : Int) % ((2 ^ 32 : Nat) : Int) = 0 := by omega
    rw [this]; rfl
  · right
    rw [if_neg (by omega)]
    generalize hx : (n : Int) % ((2 ^ 32 : Nat) : Int) - ((2 ^ 32 : Nat) : Int) = x
    have hx1 : x ≤ -16385 := by omega
    have e1 : x = -(-x) := by omega
    generalize hy : -x = y at e1
    subst e1
    unfold chunkCountOn
    rw [Int.neg_tdiv, Int.tdiv_eq_ediv_of_nonneg (by omega)]
    unfold chunkSize
    split <;> omega

/-! ### C100 -/

/-- C100 where `int` has 64 bits: `Seal` is what `Verif.Model.Crypto` says, for every file the system can have. -/
theorem C100_wide (P : Prims) (pp mp ep : Path) (w : World) (h : ∀ f, w.fs mp = some f → f.data.length < 2 ^ 63) :
    SealOn 64 P pp mp ep w = Seal P pp mp ep w := SealOn_eq 64 (by decide) (by decide) P pp mp ep w h

/-- C100, the part that holds where `int` has 32 bits: messages shorter than 2^31 bytes. Missing: longer ones
(`C100_narrow_negation`). -/
theorem C100_narrow_partial (P : Prims) (pp mp ep : Path) (w : World) (h : ∀ f, w.fs mp = some f → f.data.length < 2 ^ 31) :
    SealOn 32 P pp mp ep w = Seal P pp mp ep w := SealOn_eq 32 (by decide) (by decide) P pp mp ep w h

/-- C100 (false) where `int` has 32 bits: for a message of 2 GiB up to 4 GiB less 16385 bytes, and for the multiples of 4 GiB, `Seal`
returns nil and the encrypted file has at most 141 bytes, the same whatever the message was. -/
theorem C100_narrow_negation (P : Prims) (pp mp ep : Path) (w : World) (hq : w.Quiet) (fp fm : File) (pub : Public) (edpub : Arr 32)
    (hfp : w.fs pp = some fp) (hpub : readPublicKeyFile fp.data = .ok pub) (hbox : pub.toBox = .ok edpub)
    (hfm : w.fs mp = some fm) (hpp : pp ≠ mp)
    (hlen : fm.data.length % 2 ^ 32 = 0 ∨ 2 ^ 31 ≤ fm.data.length % 2 ^ 32 ∧ fm.data.length % 2 ^ 32 + 16385 ≤ 2 ^ 32) :
    (SealOn 32 P pp mp ep w).1 = .ok () ∧
    ∃ f, (SealOn 32 P pp mp ep w).2.fs (encPath mp ep) = some f ∧ f.data.length ≤ 141 ∧
      ∀ fm' : File, fm'.data.length = fm.data.length → ∃ f', f'.data = f.data ∧
        (SealOn 32 P pp mp ep (w.setFile mp fm')).1 = .ok () ∧
        (SealOn 32 P pp mp ep (w.setFile mp fm')).2.fs (encPath mp ep) = some f' := by
  have h1 := SealOn_quiet 32 P pp mp ep hq hfp hpub hbox hfm (goInt_lost hlen)
  refine ⟨h1.1, _, by rw [h1.2, setFile_self], ?_, ?_⟩
  · simp only
    rw [List.length_append]
    have hc : encryptedComment.length = 43 := by decide
    rw [hc]
    split
    · have : (encodedText []).length = 1 := by rw [encodedText_eq, emitted_nil]; rfl
      omega
    · rw [encodedText_header (headerOf_length _ _ _ _)]; decide
  · intro fm' hl
    have hfp' : (w.setFile mp fm').fs pp = some fp := by rw [setFile_other _ _ hpp, hfp]
    have h2 := SealOn_quiet 32 P pp mp ep (w := w.setFile mp fm') (fun i hi => hq i hi) hfp' hpub hbox (fm := fm')
      (setFile_self _ _ _) (by rw [hl]; exact goInt_lost hlen)
    refine ⟨_, ?_, h2.1, by rw [h2.2, setFile_self]⟩
    simp only
    rw [hl]; rfl

/-- A message of 2 GiB. -/
example : ∃ w : World, w.Quiet ∧ w.fs b!"k" = some ⟨publicFile zeroKey, 0⟩ ∧ readPublicKeyFile (publicFile zeroKey) = .ok zeroKey ∧
    zeroKey.toBox = .ok (copyZ 32 [1]) ∧
    ∃ fm, w.fs b!"m" = some fm ∧ 2 ^ 31 ≤ fm.data.length % 2 ^ 32 ∧ fm.data.length % 2 ^ 32 + 16385 ≤ 2 ^ 32 := by
  obtain ⟨m, hm⟩ : ∃ m : Bytes, m.length = 2 ^ 31 := ⟨List.replicate _ 7, List.length_replicate⟩
  refine ⟨(calm.setFile b!"k" ⟨publicFile zeroKey, 0⟩).setFile b!"m" ⟨m, 0⟩, fun _ _ => rfl, ?_,
    readPublicKeyFile_public _, zeroKey_toBox, ⟨m, 0⟩, setFile_self _ _ _, ?_, ?_⟩
  · rw [setFile_other _ _ (by decide), setFile_self]
  · simp only [hm]; omega
  · simp only [hm]; omega

end Verif.Props
