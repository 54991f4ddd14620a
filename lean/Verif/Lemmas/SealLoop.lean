/-
The loops of crypto/crypto.go over arbitrary readers and writers.
-/
import Verif.Lemmas.Box
import Verif.Spec.Channel

namespace Verif
open Spec

variable {σ : Type}

variable {rd : Reader σ} {w : Writer σ} {J F : Bytes → Bytes → σ → Prop}

theorem incrementNonce_inv {i : Nat} {v : Arr 24} (h : incrementNonce (nonceOf i) = .ok v) : v = nonceOf (i + 1) := by
  have hm : beVal (nonceOf i).toList = i % 256 ^ 24 := by rw [nonceOf_toList, beVal_bigEndian]
  rcases incrementNonce_val (nonceOf i) with ⟨h0, v', h1, h2⟩ | ⟨-, h2⟩
  · rw [h] at h1
    obtain rfl := Res.ok.inj h1
    apply arr_ext
    apply beVal_inj (by simp)
    rw [h2, hm, nonceOf_toList, beVal_bigEndian]
    rw [hm] at h0
    omega
  · rw [h] at h2; cases h2

theorem incrementNonce_cases (i : Nat) :
    incrementNonce (nonceOf i) = .ok (nonceOf (i + 1)) ∨ incrementNonce (nonceOf i) = .err .nonceReused := by
  rcases incrementNonce_val (nonceOf i) with ⟨-, v', h1, -⟩ | ⟨-, h2⟩
  · left; rw [h1, incrementNonce_inv h1]
  · right; exact h2

/-! ### Opening -/

theorem openLoop_ok (hc : Channel rd w J F) (P : Prims) (sh : Arr 32) (n k i : Nat) {l d : Bytes} {s s' : σ}
    (hJ : J l d s) (h : openLoop P sh rd w n k (nonceOf i) s = (.ok (), s')) :
    ∃ ps, ps.length = n ∧ J (l ++ (sealedFrom P sh i ps).flatten) (d ++ ps.flatten) s' := by
  induction n generalizing k i l d s with
  | zero =>
    simp only [openLoop, Act.pure_apply, Prod.mk.injEq, true_and] at h
    subst h
    exact ⟨[], rfl, by simpa [sealedFrom] using hJ⟩
  | succ n ih =>
    simp only [openLoop] at h
    obtain ⟨chunk, s1, h1, h⟩ := Act.bind_ok_inv h
    have hJ1 := hc.read (by decide) hJ h1
    cases ho : P.boxOpen sh (nonceOf i) chunk with
    | none => simp [ho] at h
    | some out =>
      simp only [ho] at h
      obtain ⟨m, s2, h2, h⟩ := Act.bind_ok_inv h
      have hJ2 := hc.write hJ1 h2
      obtain ⟨v, s3, h3, h⟩ := Act.bind_ok_inv h
      simp only [Act.ofRes_apply, Prod.mk.injEq] at h3
      obtain ⟨h3, rfl⟩ := h3
      rw [incrementNonce_inv h3] at h
      obtain ⟨ps, hl, hJ3⟩ := ih _ _ hJ2 h
      refine ⟨out :: ps, by simp [hl], ?_⟩
      rw [P.boxOpen_some ho] at hJ3
      simpa [sealedFrom] using hJ3

/-- What the loop has written, however it ends, is the beginning of the plaintext of an authentic sequence of chunks; all of
these plaintexts except possibly the last have been written completely. -/
theorem openLoop_any (hc : Channel rd w J F) (P : Prims) (sh : Arr 32) (n k i : Nat) {l d : Bytes} {s : σ}
    (hJ : J l d s) :
    ∃ ps c j, ps.length ≤ n ∧ ps.dropLast.flatten.length ≤ j ∧
      F (l ++ (sealedFrom P sh i ps).flatten ++ c) (d ++ ps.flatten.take j)
        (openLoop P sh rd w n k (nonceOf i) s).2 := by
  induction n generalizing k i l d s with
  | zero => exact ⟨[], [], 0, Nat.le_refl _, by simp, by simpa [sealedFrom, openLoop] using hc.stop hJ⟩
  | succ n ih =>
    simp only [openLoop]
    rw [Act.bind_eq]
    rcases h1 : rd sealedChunkSize s with ⟨r1, s1⟩
    have hf : ∀ {r : Res Bytes}, r1 = r → (∀ g, r ≠ .ok g) → ∃ ps c j, List.length ps ≤ n + 1 ∧
        ps.dropLast.flatten.length ≤ j ∧ F (l ++ (sealedFrom P sh i ps).flatten ++ c) (d ++ ps.flatten.take j) s1 := by
      intro r hr hne
      subst hr
      exact ⟨[], [], 0, by simp, by simp, by simpa [sealedFrom] using hc.readFail (by decide) hJ h1 hne⟩
    cases r1 with
    | err e => exact hf rfl (by simp)
    | panic => exact hf rfl (by simp)
    | crash => exact hf rfl (by simp)
    | hang => exact hf rfl (by simp)
    | ok chunk =>
      clear hf
      have hJ1 := hc.read (by decide) hJ h1
      cases ho : P.boxOpen sh (nonceOf i) chunk with
      | none =>
        exact ⟨[], chunk, 0, by simp, by simp, by simpa [sealedFrom, ho] using hc.stop hJ1⟩
      | some out =>
        simp only [ho]
        rw [P.boxOpen_some ho] at hJ1
        rw [Act.bind_eq]
        rcases h2 : w out s1 with ⟨r2, s2⟩
        have hf : ∀ {r : Res Nat}, r2 = r → (∀ g, r ≠ .ok g) → ∃ ps c j, List.length ps ≤ n + 1 ∧
            ps.dropLast.flatten.length ≤ j ∧ F (l ++ (sealedFrom P sh i ps).flatten ++ c) (d ++ ps.flatten.take j) s2 := by
          intro r hr hne
          subst hr
          obtain ⟨j, hF⟩ := hc.writeFail hJ1 h2 hne
          exact ⟨[out], [], j, by simp, by simp, by simpa [sealedFrom] using hF⟩
        cases r2 with
        | err e => exact hf rfl (by simp)
        | panic => exact hf rfl (by simp)
        | crash => exact hf rfl (by simp)
        | hang => exact hf rfl (by simp)
        | ok m =>
          have hJ2 := hc.write hJ1 h2
          rcases incrementNonce_cases i with hn | hn
          · simp only [Act.bind_eq, Act.ofRes_apply, hn]
            obtain ⟨ps, c, j, hl, hj, hF⟩ := ih (k + 1) (i + 1) hJ2
            refine ⟨out :: ps, c, out.length + j, by simp [hl], ?_, ?_⟩
            · cases ps with
              | nil => simp
              | cons q qs => simp only [List.dropLast_cons_cons, List.flatten_cons, List.length_append]; omega
            · rw [sealedFrom, List.flatten_cons, List.flatten_cons, List.take_append, Nat.add_sub_cancel_left,
                List.take_of_length_le (Nat.le_add_right _ _)]
              simpa using hF
          · simp only [Act.bind_eq, Act.ofRes_apply, hn]
            refine ⟨[out], [], out.length, by simp, by simp, ?_⟩
            simpa [sealedFrom] using hc.stop hJ2

theorem openBox_ok (hc : Channel rd w J F) (P : Prims) {toBox : Act σ (Arr 32)} (ht : Silent toBox J F)
    {l d : Bytes} {s s' : σ} (hJ : J l d s) (h : openBox P toBox rd w s = (.ok (), s')) :
    ∃ edpriv epub ps, (toBox s).1 = .ok edpriv ∧ ps.length < 2 ^ 64 ∧
      J (l ++ sealedStream P (P.precompute epub edpriv) epub ps) (d ++ ps.flatten) s' := by
  simp only [openBox] at h
  obtain ⟨edpriv, s1, h1, h⟩ := Act.bind_ok_inv h
  obtain ⟨header, s2, h2, h⟩ := Act.bind_ok_inv h
  have hJ2 := hc.read (by decide) (ht.ok hJ h1) h2
  split at h
  · simp at h
  · rename_i hl
    split at h
    · simp at h
    · rename_i ha
      have hh := header_of_auth P header (P.precompute (copyZ 32 (header.drop 8)) edpriv) (by simpa using hl) (by simpa using ha)
      rw [← nonceOf_zero] at h
      obtain ⟨ps, hps, hJ3⟩ := openLoop_ok hc P _ _ _ _ hJ2 h
      refine ⟨edpriv, copyZ 32 (header.drop 8), ps, by rw [h1], by rw [hps]; exact hh.2, ?_⟩
      rw [sealedStream, hps, ← hh.1, ← List.append_assoc]
      exact hJ3

theorem openBox_any (hc : Channel rd w J F) (P : Prims) {toBox : Act σ (Arr 32)} (ht : Silent toBox J F)
    {l d : Bytes} {s : σ} (hJ : J l d s) :
    (∃ c, F (l ++ c) d (openBox P toBox rd w s).2 ∧ (openBox P toBox rd w s).1 ≠ .ok ()) ∨
    ∃ edpriv epub n ps c j, (toBox s).1 = .ok edpriv ∧ n < 2 ^ 64 ∧ ps.length ≤ n ∧ ps.dropLast.flatten.length ≤ j ∧
      F (l ++ (headerOf P (P.precompute epub edpriv) epub n ++
          (sealedFrom P (P.precompute epub edpriv) 0 ps).flatten) ++ c) (d ++ ps.flatten.take j)
        (openBox P toBox rd w s).2 := by
  simp only [openBox]
  rw [Act.bind_eq]
  rcases h1 : toBox s with ⟨r1, s1⟩
  cases r1 with
  | err e => exact .inl ⟨[], by simpa using ht.fail hJ h1 (by simp), by simp⟩
  | panic => exact .inl ⟨[], by simpa using ht.fail hJ h1 (by simp), by simp⟩
  | crash => exact .inl ⟨[], by simpa using ht.fail hJ h1 (by simp), by simp⟩
  | hang => exact .inl ⟨[], by simpa using ht.fail hJ h1 (by simp), by simp⟩
  | ok edpriv =>
    have hJ1 := ht.ok hJ h1
    simp only
    rw [Act.bind_eq]
    rcases h2 : rd headerSize s1 with ⟨r2, s2⟩
    cases r2 with
    | err e => exact .inl ⟨[], by simpa using hc.readFail (by decide) hJ1 h2 (by simp), by simp⟩
    | panic => exact .inl ⟨[], by simpa using hc.readFail (by decide) hJ1 h2 (by simp), by simp⟩
    | crash => exact .inl ⟨[], by simpa using hc.readFail (by decide) hJ1 h2 (by simp), by simp⟩
    | hang => exact .inl ⟨[], by simpa using hc.readFail (by decide) hJ1 h2 (by simp), by simp⟩
    | ok header =>
      have hJ2 := hc.read (by decide) hJ1 h2
      simp only
      split
      · exact .inl ⟨header, hc.stop hJ2, by simp⟩
      · rename_i hl
        split
        · exact .inl ⟨header, hc.stop hJ2, by simp⟩
        · rename_i ha
          right
          have hh := header_of_auth P header (P.precompute (copyZ 32 (header.drop 8)) edpriv) (by simpa using hl) (by simpa using ha)
          rw [← nonceOf_zero]
          obtain ⟨ps, c, j, hps, hj, hF⟩ := openLoop_any hc P (P.precompute (copyZ 32 (header.drop 8)) edpriv)
            (beVal (header.take 8)) 0 0 hJ2
          refine ⟨edpriv, copyZ 32 (header.drop 8), beVal (header.take 8), ps, c, j, rfl, hh.2, hps, hj, ?_⟩
          rw [← hh.1, ← List.append_assoc]
          exact hF

/-! ### Sealing -/

theorem sealLoop_ok (hc : Channel rd w J F) (P : Prims) (sh : Arr 32) (n i : Nat) {l d : Bytes} {s s' : σ}
    (hJ : J l d s) (h : sealLoop P sh rd w n (nonceOf i) s = (.ok (), s')) :
    ∃ ps, ps.length = n ∧ J (l ++ ps.flatten) (d ++ (sealedFrom P sh i ps).flatten) s' := by
  induction n generalizing i l d s with
  | zero =>
    simp only [sealLoop, Act.pure_apply, Prod.mk.injEq, true_and] at h
    subst h
    exact ⟨[], rfl, by simpa [sealedFrom] using hJ⟩
  | succ n ih =>
    simp only [sealLoop] at h
    obtain ⟨chunk, s1, h1, h⟩ := Act.bind_ok_inv h
    obtain ⟨m, s2, h2, h⟩ := Act.bind_ok_inv h
    have hJ2 := hc.write (hc.read (by decide) hJ h1) h2
    obtain ⟨v, s3, h3, h⟩ := Act.bind_ok_inv h
    simp only [Act.ofRes_apply, Prod.mk.injEq] at h3
    obtain ⟨h3, rfl⟩ := h3
    rw [incrementNonce_inv h3] at h
    obtain ⟨ps, hl, hJ3⟩ := ih _ hJ2 h
    refine ⟨chunk :: ps, by simp [hl], ?_⟩
    simpa [sealedFrom] using hJ3

theorem sealBox_ok (hc : Channel rd w J F) (P : Prims) (pub : Public) {rand : Act σ (Arr 32)} (hr : Silent rand J F)
    (len : Nat) (hlen : len ≠ 0) {l d : Bytes} {s s' : σ} (hJ : J l d s)
    (h : sealBox P pub rand rd len w s = (.ok (), s')) :
    ∃ edpub epriv ps, pub.toBox = .ok edpub ∧ (rand s).1 = .ok epriv ∧ ps.length = chunkCount len ∧
      J (l ++ ps.flatten) (d ++ sealedStream P (P.precompute edpub epriv) (P.x25519Base epriv) ps) s' := by
  simp only [sealBox, if_neg hlen] at h
  obtain ⟨edpub, s1, h1, h⟩ := Act.bind_ok_inv h
  simp only [Act.ofRes_apply, Prod.mk.injEq] at h1
  obtain ⟨h1, rfl⟩ := h1
  obtain ⟨epriv, s2, h2, h⟩ := Act.bind_ok_inv h
  obtain ⟨k, s3, h3, h⟩ := Act.bind_ok_inv h
  rw [sealHeader_eq] at h3
  have hJ3 := hc.write (hr.ok hJ h2) h3
  rw [← nonceOf_zero] at h
  obtain ⟨ps, hps, hJ4⟩ := sealLoop_ok hc P _ _ _ hJ3 h
  refine ⟨edpub, epriv, ps, h1, by rw [h2], hps, ?_⟩
  rw [sealedStream, hps, ← List.append_assoc]
  exact hJ4

theorem sealLoop_any (hc : Channel rd w J F) (P : Prims) (sh : Arr 32) (n i : Nat) {l d : Bytes} {s : σ}
    (hJ : J l d s) :
    ∃ ps j, ps.length ≤ n ∧
      F (l ++ ps.flatten) (d ++ (sealedFrom P sh i ps).flatten.take j) (sealLoop P sh rd w n (nonceOf i) s).2 := by
  induction n generalizing i l d s with
  | zero => exact ⟨[], 0, Nat.le_refl _, by simpa [sealedFrom, sealLoop] using hc.stop hJ⟩
  | succ n ih =>
    simp only [sealLoop]
    rw [Act.bind_eq]
    rcases h1 : rd chunkSize s with ⟨r1, s1⟩
    have hf : ∀ {r : Res Bytes}, r1 = r → (∀ g, r ≠ .ok g) → ∃ ps j, List.length ps ≤ n + 1 ∧
        F (l ++ ps.flatten) (d ++ (sealedFrom P sh i ps).flatten.take j) s1 := by
      intro r hr hne
      subst hr
      exact ⟨[], 0, by simp, by simpa [sealedFrom] using hc.readFail (by decide) hJ h1 hne⟩
    cases r1 with
    | err e => exact hf rfl (by simp)
    | panic => exact hf rfl (by simp)
    | crash => exact hf rfl (by simp)
    | hang => exact hf rfl (by simp)
    | ok chunk =>
      clear hf
      have hJ1 := hc.read (by decide) hJ h1
      simp only
      rw [Act.bind_eq]
      rcases h2 : w (P.boxSeal sh (nonceOf i) chunk) s1 with ⟨r2, s2⟩
      have hf : ∀ {r : Res Nat}, r2 = r → (∀ g, r ≠ .ok g) → ∃ ps j, List.length ps ≤ n + 1 ∧
          F (l ++ ps.flatten) (d ++ (sealedFrom P sh i ps).flatten.take j) s2 := by
        intro r hr hne
        subst hr
        obtain ⟨j, hF⟩ := hc.writeFail hJ1 h2 hne
        exact ⟨[chunk], j, by simp, by simpa [sealedFrom] using hF⟩
      cases r2 with
      | err e => exact hf rfl (by simp)
      | panic => exact hf rfl (by simp)
      | crash => exact hf rfl (by simp)
      | hang => exact hf rfl (by simp)
      | ok m =>
        have hJ2 := hc.write hJ1 h2
        rcases incrementNonce_cases i with hn | hn
        · simp only [Act.bind_eq, Act.ofRes_apply, hn]
          obtain ⟨ps, j, hl, hF⟩ := ih (i + 1) hJ2
          refine ⟨chunk :: ps, (P.boxSeal sh (nonceOf i) chunk).length + j, by simp [hl], ?_⟩
          rw [sealedFrom, List.flatten_cons, List.flatten_cons, List.take_append, Nat.add_sub_cancel_left,
            List.take_of_length_le (Nat.le_add_right _ _)]
          simpa using hF
        · simp only [Act.bind_eq, Act.ofRes_apply, hn]
          refine ⟨[chunk], (P.boxSeal sh (nonceOf i) chunk).length, by simp, ?_⟩
          simpa [sealedFrom] using hc.stop hJ2

theorem sealBox_unfold (P : Prims) (pub : Public) (rand : Act σ (Arr 32)) (len : Nat) (hlen : len ≠ 0) (s : σ) :
    sealBox P pub rand rd len w s = (Act.ofRes pub.toBox >>= fun edpub => rand >>= fun epriv =>
      w (headerOf P (P.precompute edpub epriv) (P.x25519Base epriv) (chunkCount len)) >>= fun _ =>
      sealLoop P (P.precompute edpub epriv) rd w (chunkCount len) (nonceOf 0)) s := by
  simp only [sealBox, if_neg hlen, sealHeader_eq, nonceOf_zero]

theorem sealBox_empty (P : Prims) (pub : Public) (rand : Act σ (Arr 32)) (len : Nat) (hlen : len = 0) (s : σ) :
    sealBox P pub rand rd len w s = (.ok (), s) := by
  simp only [sealBox, if_pos hlen, Act.pure_apply]

/-- The part of `seal` after the keys have been set up. -/
theorem sealRest_any (hc : Channel rd w J F) (P : Prims) (sh epub : Arr 32) (n : Nat) {l d : Bytes} {s : σ} (hJ : J l d s) :
    ∃ ps j, ps.length ≤ n ∧
      F (l ++ ps.flatten) (d ++ (headerOf P sh epub n ++ (sealedFrom P sh 0 ps).flatten).take j)
        ((w (headerOf P sh epub n) >>= fun _ => sealLoop P sh rd w n (nonceOf 0)) s).2 := by
  generalize headerOf P sh epub n = hdr
  rw [Act.bind_eq]
  rcases h3 : w hdr s with ⟨r3, s3⟩
  have hf : ∀ {r : Res Nat}, r3 = r → (∀ g, r ≠ .ok g) → ∃ ps j, List.length ps ≤ n ∧
      F (l ++ ps.flatten) (d ++ (hdr ++ (sealedFrom P sh 0 ps).flatten).take j) s3 := by
    intro r hr' hne
    subst hr'
    obtain ⟨j, hF⟩ := hc.writeFail hJ h3 hne
    exact ⟨[], j, by simp, by simpa [sealedFrom] using hF⟩
  cases r3 with
  | err e => exact hf rfl (by simp)
  | panic => exact hf rfl (by simp)
  | crash => exact hf rfl (by simp)
  | hang => exact hf rfl (by simp)
  | ok k =>
    have hJ3 := hc.write hJ h3
    obtain ⟨ps, j, hl, hF⟩ := sealLoop_any hc P sh n 0 hJ3
    refine ⟨ps, hdr.length + j, hl, ?_⟩
    rw [List.take_append, Nat.add_sub_cancel_left, List.take_of_length_le (Nat.le_add_right _ _)]
    simpa using hF

theorem sealKeys_any (hc : Channel rd w J F) (P : Prims) (tb : Res (Arr 32)) {rand : Act σ (Arr 32)} (hr : Silent rand J F)
    (n : Nat) {l d : Bytes} {s : σ} (hJ : J l d s) :
    F l d ((Act.ofRes tb >>= fun edpub => rand >>= fun epriv =>
      w (headerOf P (P.precompute edpub epriv) (P.x25519Base epriv) n) >>= fun _ =>
      sealLoop P (P.precompute edpub epriv) rd w n (nonceOf 0)) s).2 ∨
    ∃ edpub epriv ps j, tb = .ok edpub ∧ (rand s).1 = .ok epriv ∧ ps.length ≤ n ∧
      F (l ++ ps.flatten) (d ++ (headerOf P (P.precompute edpub epriv) (P.x25519Base epriv) n ++
        (sealedFrom P (P.precompute edpub epriv) 0 ps).flatten).take j) ((Act.ofRes tb >>= fun edpub => rand >>= fun epriv =>
      w (headerOf P (P.precompute edpub epriv) (P.x25519Base epriv) n) >>= fun _ =>
      sealLoop P (P.precompute edpub epriv) rd w n (nonceOf 0)) s).2 := by
  rw [Act.bind_eq, Act.ofRes_apply]
  cases tb with
  | err e => exact .inl (hc.stop hJ)
  | panic => exact .inl (hc.stop hJ)
  | crash => exact .inl (hc.stop hJ)
  | hang => exact .inl (hc.stop hJ)
  | ok edpub =>
    simp only
    rw [Act.bind_eq]
    rcases h2 : rand s with ⟨r2, s2⟩
    cases r2 with
    | err e => exact .inl (hr.fail hJ h2 (by simp))
    | panic => exact .inl (hr.fail hJ h2 (by simp))
    | crash => exact .inl (hr.fail hJ h2 (by simp))
    | hang => exact .inl (hr.fail hJ h2 (by simp))
    | ok epriv =>
      right
      obtain ⟨ps, j, h3, h4⟩ := sealRest_any hc P (P.precompute edpub epriv) (P.x25519Base epriv) n (hr.ok hJ h2)
      exact ⟨edpub, epriv, ps, j, rfl, rfl, h3, h4⟩

theorem sealBox_any (hc : Channel rd w J F) (P : Prims) (pub : Public) {rand : Act σ (Arr 32)} (hr : Silent rand J F)
    (len : Nat) {l d : Bytes} {s : σ} (hJ : J l d s) :
    F l d (sealBox P pub rand rd len w s).2 ∨
    ∃ edpub epriv ps j, pub.toBox = .ok edpub ∧ (rand s).1 = .ok epriv ∧ ps.length ≤ chunkCount len ∧
      F (l ++ ps.flatten) (d ++ (headerOf P (P.precompute edpub epriv) (P.x25519Base epriv) (chunkCount len) ++
        (sealedFrom P (P.precompute edpub epriv) 0 ps).flatten).take j) (sealBox P pub rand rd len w s).2 := by
  by_cases hlen : len = 0
  · left
    rw [sealBox_empty P pub rand len hlen s]; exact hc.stop hJ
  rw [sealBox_unfold P pub rand len hlen s]
  exact sealKeys_any hc P pub.toBox hr (chunkCount len) hJ

/-! ### Runs without faults -/

variable {S : Bytes → Bytes → σ → Prop}

theorem sealLoop_run (hs : FullSource rd w S) (P : Prims) (sh : Arr 32) (i : Nat) {m d : Bytes} {s : σ} (hS : S m d s)
    (hi : i + (pieces 16385 (by decide) m).length < 256 ^ 24) :
    ∃ s', sealLoop P sh rd w (pieces 16385 (by decide) m).length (nonceOf i) s = (.ok (), s') ∧
      S [] (d ++ (sealedFrom P sh i (pieces 16385 (by decide) m)).flatten) s' := by
  induction hk : m.length using Nat.strongRecOn generalizing m d s i with
  | ind k ih =>
    by_cases hm : m = []
    · subst hm
      exact ⟨s, by simp [pieces_nil, sealLoop], by simpa [pieces_nil, sealedFrom] using hS⟩
    · have hp := List.length_pos_iff.mpr hm
      rw [pieces_cons hm] at hi ⊢
      rw [List.length_cons] at hi ⊢
      simp only [sealLoop]
      obtain ⟨s1, h1, hS1⟩ := hs.read (n := chunkSize) hS hm (by decide)
      obtain ⟨n2, s2, h2, hS2⟩ := hs.write (bs := P.boxSeal sh (nonceOf i) (m.take chunkSize)) hS1
      rw [Act.bind_ok h1, Act.bind_ok h2,
        Act.bind_ok (show Act.ofRes (incrementNonce (nonceOf i)) s2 = (.ok (nonceOf (i + 1)), s2) by
          rw [Act.ofRes_apply, incrementNonce_ok (by omega)])]
      obtain ⟨s3, h3, hS3⟩ := ih _ (by rw [List.length_drop, chunkSize]; omega) (i + 1) hS2
        (by rw [chunkSize]; omega) rfl
      refine ⟨s3, h3, ?_⟩
      simpa [sealedFrom, chunkSize] using hS3

/-- The message is read to the end and sealed completely. -/
theorem sealBox_run (hs : FullSource rd w S) (P : Prims) (pub : Public) {rand : Act σ (Arr 32)} {m d : Bytes} {s s1 : σ}
    (hm : m ≠ []) (hlen : m.length < 2 ^ 63) {edpub epriv : Arr 32} (he : pub.toBox = .ok edpub)
    (hr : rand s = (.ok epriv, s1)) (hS : S m d s1) :
    ∃ s', sealBox P pub rand rd m.length w s = (.ok (), s') ∧
      S [] (d ++ sealedStream P (P.precompute edpub epriv) (P.x25519Base epriv) (pieces 16385 (by decide) m)) s' := by
  have hne : m.length ≠ 0 := fun h => hm (List.length_eq_zero_iff.mp h)
  simp only [sealBox, if_neg hne]
  rw [Act.bind_ok (show (Act.ofRes pub.toBox : Act σ (Arr 32)) s = (.ok edpub, s) by rw [Act.ofRes_apply, he]), Act.bind_ok hr]
  simp only [sealHeader_eq]
  obtain ⟨k, s2, h2, hS2⟩ := hs.write
    (bs := headerOf P (P.precompute edpub epriv) (P.x25519Base epriv) (chunkCount m.length)) hS
  rw [Act.bind_ok h2, ← nonceOf_zero, chunkCount_eq]
  have hb := pieces_length 16385 (by decide) m
  obtain ⟨s3, h3, hS3⟩ := sealLoop_run hs P (P.precompute edpub epriv) 0 hS2 (by
    rw [hb]; omega)
  refine ⟨s3, h3, ?_⟩
  rw [sealedStream, ← chunkCount_eq, ← List.append_assoc]
  exact hS3

theorem openLoop_step (hs : DataSource rd w S) (P : Prims) (sh : Arr 32) (n k i : Nat) {p t d : Bytes} {s : σ}
    (hi : i + 1 < 256 ^ 24) (hS : S (P.boxSeal sh (nonceOf i) p ++ t) d s)
    (hp : p.length = 16385 ∨ (p.length ≤ 16385 ∧ t = [])) :
    ∃ s', openLoop P sh rd w (n + 1) k (nonceOf i) s = openLoop P sh rd w n (k + 1) (nonceOf (i + 1)) s' ∧
      S t (d ++ p) s' := by
  obtain ⟨s1, h1, hS1⟩ := hs.read (n := sealedChunkSize) hS (by decide)
  have hlen := P.boxSeal_length sh (nonceOf i) p
  have hsz : sealedChunkSize = 16401 := by decide
  have ht : (P.boxSeal sh (nonceOf i) p ++ t).take sealedChunkSize = P.boxSeal sh (nonceOf i) p := by
    rcases hp with hp | ⟨hp, rfl⟩
    · exact List.take_left' (by omega)
    · rw [List.append_nil, List.take_of_length_le (by omega)]
  have hd : (P.boxSeal sh (nonceOf i) p ++ t).drop sealedChunkSize = t := by
    rcases hp with hp | ⟨hp, rfl⟩
    · exact List.drop_left' (by omega)
    · rw [List.append_nil, List.drop_of_length_le (by omega)]
  rw [ht] at h1
  rw [hd] at hS1
  obtain ⟨m, s2, h2, hS2⟩ := hs.write (bs := p) hS1
  refine ⟨s2, ?_, hS2⟩
  conv => lhs; unfold openLoop
  rw [Act.bind_ok h1]
  simp only [P.boxOpen_boxSeal]
  rw [Act.bind_ok h2, Act.bind_ok (show Act.ofRes (incrementNonce (nonceOf i)) s2 = (.ok (nonceOf (i + 1)), s2) by
    rw [Act.ofRes_apply, incrementNonce_ok hi])]

theorem openLoop_run (hs : DataSource rd w S) (P : Prims) (sh : Arr 32) (k i : Nat) (ps : List Bytes) {t d : Bytes} {s : σ}
    (hi : i + ps.length < 256 ^ 24) (hS : S ((sealedFrom P sh i ps).flatten ++ t) d s) (hf : Framed ps t) :
    ∃ s', openLoop P sh rd w ps.length k (nonceOf i) s = (.ok (), s') ∧ S t (d ++ ps.flatten) s' := by
  induction ps generalizing k i d s with
  | nil => exact ⟨s, by simp [openLoop], by simpa [sealedFrom] using hS⟩
  | cons p ps ih =>
    simp only [sealedFrom, List.flatten_cons, List.append_assoc] at hS
    rw [List.length_cons] at hi ⊢
    have hp : p.length = 16385 ∨ (p.length ≤ 16385 ∧ (sealedFrom P sh (i + 1) ps).flatten ++ t = []) := by
      rcases hf with ⟨h, -⟩ | ⟨h, rfl, rfl⟩
      · exact .inl h
      · exact .inr ⟨h, by simp [sealedFrom]⟩
    have hf' : Framed ps t := by
      rcases hf with ⟨-, h⟩ | ⟨-, rfl, rfl⟩
      · exact h
      · trivial
    obtain ⟨s1, h1, hS1⟩ := openLoop_step hs P sh ps.length k i (by omega) hS hp
    obtain ⟨s2, h2, hS2⟩ := ih (k + 1) (i + 1) (by omega) hS1 hf'
    exact ⟨s2, by rw [h1, h2], by simpa using hS2⟩

/-- The state after the header has been read and accepted. -/
theorem openBox_header (hs : DataSource rd w S) (P : Prims) {toBox : Act σ (Arr 32)} {edpriv epub : Arr 32} {n : Nat}
    {t d : Bytes} {s s1 : σ} (ht : toBox s = (.ok edpriv, s1)) (hn : n < 2 ^ 64)
    (hS : S (headerOf P (P.precompute epub edpriv) epub n ++ t) d s1) :
    ∃ s2, openBox P toBox rd w s = openLoop P (P.precompute epub edpriv) rd w n 0 (nonceOf 0) s2 ∧ S t d s2 := by
  obtain ⟨s2, h2, hS2⟩ := hs.read (n := headerSize) hS (by decide)
  have hl := headerOf_length P (P.precompute epub edpriv) epub n
  rw [List.take_left' (by rw [hl]; rfl)] at h2
  rw [List.drop_left' (by rw [hl]; rfl)] at hS2
  refine ⟨s2, ?_, hS2⟩
  simp only [openBox]
  rw [Act.bind_ok ht, Act.bind_ok h2]
  have he : (copyZ 32 ((headerOf P (P.precompute epub edpriv) epub n).drop 8)) = epub := by
    rw [headerOf_drop8, copyZ_append]
  have hb : beVal ((headerOf P (P.precompute epub edpriv) epub n).take 8) = n := by
    rw [headerOf_take8, beVal_bigEndian, Nat.mod_eq_of_lt (by exact hn)]
  rw [if_neg (by rw [hl]; decide), he, hb]
  have ha : P.authVerify ((headerOf P (P.precompute epub edpriv) epub n).drop 40)
      ((headerOf P (P.precompute epub edpriv) epub n).take 40) (P.precompute epub edpriv) = true := by
    rw [headerOf_drop40, headerOf_take40]
    simp [Prims.authVerify]
  rw [ha, ← nonceOf_zero]
  rfl

theorem openBox_run (hs : DataSource rd w S) (P : Prims) {toBox : Act σ (Arr 32)} {edpriv epub : Arr 32} (ps : List Bytes)
    {t d : Bytes} {s s1 : σ} (ht : toBox s = (.ok edpriv, s1)) (hn : ps.length < 2 ^ 64)
    (hS : S (sealedStream P (P.precompute epub edpriv) epub ps ++ t) d s1) (hf : Framed ps t) :
    ∃ s', openBox P toBox rd w s = (.ok (), s') ∧ S t (d ++ ps.flatten) s' := by
  rw [sealedStream, List.append_assoc] at hS
  obtain ⟨s2, h2, hS2⟩ := openBox_header hs P ht hn hS
  obtain ⟨s3, h3, hS3⟩ := openLoop_run hs P (P.precompute epub edpriv) 0 0 ps (by omega) hS2 hf
  exact ⟨s3, by rw [h2, h3], hS3⟩

/-- After some full-size authentic chunks comes something that does not authenticate. -/
theorem openLoop_cut (hs : DataSource rd w S) (P : Prims) (sh : Arr 32) (k i r : Nat) (qs : List Bytes) {t d : Bytes} {s : σ}
    (hi : i + qs.length < 256 ^ 24) (hS : S ((sealedFrom P sh i qs).flatten ++ t) d s) (hf : ∀ q ∈ qs, q.length = 16385)
    (hbad : P.boxOpen sh (nonceOf (i + qs.length)) (t.take 16401) = none) :
    ∃ s', openLoop P sh rd w (qs.length + (r + 1)) k (nonceOf i) s = (.err (.chunkDecrypt (k + qs.length)), s') ∧
      S (t.drop 16401) (d ++ qs.flatten) s' := by
  induction qs generalizing k i d s with
  | nil =>
    rw [sealedFrom, List.flatten_nil, List.nil_append] at hS
    obtain ⟨s1, h1, hS1⟩ := hs.read (n := sealedChunkSize) hS (by decide)
    refine ⟨s1, ?_, by rw [List.flatten_nil, List.append_nil]; exact hS1⟩
    rw [List.length_nil, Nat.zero_add]
    conv => lhs; unfold openLoop
    rw [Act.bind_ok h1]
    have hb : P.boxOpen sh (nonceOf i) (t.take sealedChunkSize) = none := hbad
    simp only [hb]
    rfl
  | cons q qs ih =>
    simp only [sealedFrom, List.flatten_cons, List.append_assoc] at hS
    simp only [List.length_cons] at hi hbad ⊢
    obtain ⟨s1, h1, hS1⟩ := openLoop_step hs P sh (qs.length + (r + 1)) k i (by omega) hS (.inl (hf q (by simp)))
    obtain ⟨s2, h2, hS2⟩ := ih (k + 1) (i + 1) (by omega) hS1 (fun x hx => hf x (by simp [hx]))
      (by rw [show i + 1 + qs.length = i + (qs.length + 1) by omega]; exact hbad)
    refine ⟨s2, ?_, by simpa using hS2⟩
    rw [show qs.length + 1 + (r + 1) = (qs.length + (r + 1)) + 1 by omega, h1, h2,
      show k + 1 + qs.length = k + (qs.length + 1) by omega]

theorem openBox_cut (hs : DataSource rd w S) (P : Prims) {toBox : Act σ (Arr 32)} {edpriv epub : Arr 32} (qs : List Bytes)
    (r : Nat) {t d : Bytes} {s s1 : σ} (ht : toBox s = (.ok edpriv, s1)) (hn : qs.length + (r + 1) < 2 ^ 64)
    (hS : S (headerOf P (P.precompute epub edpriv) epub (qs.length + (r + 1)) ++
      (sealedFrom P (P.precompute epub edpriv) 0 qs).flatten ++ t) d s1)
    (hf : ∀ q ∈ qs, q.length = 16385)
    (hbad : P.boxOpen (P.precompute epub edpriv) (nonceOf qs.length) (t.take 16401) = none) :
    ∃ s', openBox P toBox rd w s = (.err (.chunkDecrypt qs.length), s') ∧ S (t.drop 16401) (d ++ qs.flatten) s' := by
  rw [List.append_assoc] at hS
  obtain ⟨s2, h2, hS2⟩ := openBox_header hs P ht hn hS
  obtain ⟨s3, h3, hS3⟩ := openLoop_cut hs P (P.precompute epub edpriv) 0 0 r qs (by omega) hS2 hf (by rwa [Nat.zero_add])
  exact ⟨s3, by rw [h2, h3, Nat.zero_add], hS3⟩

theorem framed_full {qs : List Bytes} (hf : ∀ q ∈ qs, q.length = 16385) {p t : Bytes}
    (hp : p.length = 16385 ∨ (p.length ≤ 16385 ∧ t = [])) : Framed (qs ++ [p]) t := by
  induction qs with
  | nil =>
    rcases hp with h | ⟨h, h'⟩
    · exact .inl ⟨h, trivial⟩
    · exact .inr ⟨h, rfl, h'⟩
  | cons q qs ih => exact .inl ⟨hf q (by simp), ih fun x hx => hf x (by simp [hx])⟩

theorem framed_pieces (m : Bytes) : Framed (pieces 16385 (by decide) m) [] := by
  induction hk : m.length using Nat.strongRecOn generalizing m with
  | ind k ih =>
    by_cases hm : m = []
    · subst hm; rw [pieces_nil]; trivial
    · have hp := List.length_pos_iff.mpr hm
      rw [pieces_cons hm]
      by_cases hl : 16385 ≤ m.length
      · exact .inl ⟨by simp; omega, ih _ (by rw [List.length_drop]; omega) _ rfl⟩
      · refine .inr ⟨by simp; omega, ?_, rfl⟩
        rw [List.drop_of_length_le (by omega), pieces_nil]

end Verif
