/-
Property C102: encrypting a file that another process appends to.
-/
import Verif.Lemmas.SealLoop

namespace Verif.Spec

variable {σ : Type}

/-- A message that grows while it is being read. `S r m d s`: in state `s` the part `r` has been read, the file holds `m`, and `d` has
been written. Before every call the file may have become longer; a read gets as much as there is. -/
structure GrowingSource (rd : Reader σ) (w : Writer σ) (S : Bytes → Bytes → Bytes → σ → Prop) : Prop where
  known : ∀ {r m d s}, S r m d s → r <+: m
  read : ∀ {r m d s n}, S r m d s → r ≠ m → 0 < n → ∃ m' s', m <+: m' ∧ rd n s = (.ok ((m'.drop r.length).take n), s') ∧
    S (r ++ (m'.drop r.length).take n) m' d s'
  write : ∀ {r m d s bs}, S r m d s → ∃ k m' s', m <+: m' ∧ w bs s = (.ok k, s') ∧ S r m' (d ++ bs) s'

/-- A file with a content for each moment, the time, the offset of the reader and what has been written. -/
structure Live where
  time : Nat
  off : Nat
  out : Bytes

/-- `Read` of such a file. -/
def Live.read (file : Nat → Bytes) : Reader Live := fun n s =>
  let avail := (file s.time).drop s.off
  if n = 0 then (.ok [], { s with time := s.time + 1 })
  else if avail = [] then (.err .eof, { s with time := s.time + 1 })
  else (.ok (avail.take n), { s with time := s.time + 1, off := s.off + (avail.take n).length })

/-- A writer that does not fail. -/
def Live.write : Writer Live := fun bs s => (.ok bs.length, { s with time := s.time + 1, out := s.out ++ bs })

end Verif.Spec

namespace Verif.Props
open Spec

variable {σ : Type} {rd : Reader σ} {w : Writer σ} {S : Bytes → Bytes → Bytes → σ → Prop}

/-- Files that only grow are such messages. -/
theorem live_growing (file : Nat → Bytes) (hg : ∀ a b, a ≤ b → file a <+: file b) :
    GrowingSource (Live.read file) Live.write
      (fun r m d s => r <+: m ∧ m <+: file s.time ∧ s.off = r.length ∧ s.out = d) := by
  refine ⟨fun h => h.1, ?_, ?_⟩
  · rintro r m d ⟨t, off, out⟩ n ⟨h1, h2, h3, h4⟩ hne hn
    simp only at h2 h3 h4
    subst h3 h4
    have hlt : r.length < m.length := by
      rcases Nat.lt_or_ge r.length m.length with h | h
      · exact h
      · exact absurd (h1.eq_of_length (Nat.le_antisymm h1.length_le h)) hne
    have hav : (file t).drop r.length ≠ [] := by
      intro h
      have := h2.length_le
      rw [List.drop_eq_nil_iff] at h
      omega
    refine ⟨file t, _, h2, by simp only [Live.read]; rw [if_neg (by omega), if_neg hav], ?_, hg _ _ (Nat.le_succ t), by simp, rfl⟩
    obtain ⟨x, hx⟩ := h1.trans h2
    rw [← hx, List.drop_left]
    exact List.prefix_append_right_inj _ |>.mpr (List.take_prefix _ _)
  · rintro r m d ⟨t, off, out⟩ bs ⟨h1, h2, h3, h4⟩
    simp only at h2 h3 h4
    subst h3 h4
    exact ⟨_, m, _, List.prefix_rfl, rfl, h1, h2.trans (hg _ _ (Nat.le_succ t)), rfl, rfl⟩

theorem sealLoop_growing (hs : GrowingSource rd w S) (P : Prims) (sh : Arr 32) (n N : Nat) (i : Nat) {r m d : Bytes} {s : σ}
    (hS : S r m d s) (hN : N ≤ m.length) (hi : i + n < 256 ^ 24) (hlo : n = 0 ∨ r.length + (n - 1) * 16385 < m.length)
    (hhi : N ≤ r.length + n * 16385) :
    ∃ l m' s', sealLoop P sh rd w n (nonceOf i) s = (.ok (), s') ∧ m <+: m' ∧ N ≤ (r ++ l).length ∧
      (pieces 16385 (by decide) l).length = n ∧
      S (r ++ l) m' (d ++ (sealedFrom P sh i (pieces 16385 (by decide) l)).flatten) s' := by
  induction n generalizing i r m d s with
  | zero => exact ⟨[], m, s, by simp [sealLoop], List.prefix_rfl, by simpa using hhi, by simp [pieces_nil],
      by simpa [pieces_nil, sealedFrom] using hS⟩
  | succ n ih =>
    have hlo := hlo.resolve_left (by omega)
    simp only [Nat.add_sub_cancel] at hlo
    simp only [sealLoop]
    have hne : r ≠ m := by rintro rfl; omega
    obtain ⟨m1, s1, hm1, h1, hS1⟩ := hs.read (n := chunkSize) hS hne (by decide)
    obtain ⟨k2, m2, s2, hm2, h2, hS2⟩ := hs.write (bs := P.boxSeal sh (nonceOf i) ((m1.drop r.length).take chunkSize)) hS1
    rw [Act.bind_ok h1, Act.bind_ok h2,
      Act.bind_ok (show Act.ofRes (incrementNonce (nonceOf i)) s2 = (.ok (nonceOf (i + 1)), s2) by
        rw [Act.ofRes_apply, incrementNonce_ok (by omega)])]
    rw [show chunkSize = 16385 from rfl] at hS2
    have hl1 := hm1.length_le
    have hl2 := hm2.length_le
    generalize hp : (m1.drop r.length).take 16385 = p at *
    have hpl : p.length = min 16385 (m1.length - r.length) := by rw [← hp, List.length_take, List.length_drop]
    have hp0 : p ≠ [] := by
      intro h; rw [h] at hpl; simp only [List.length_nil] at hpl; omega
    have hcons : ∀ l, (p.length = 16385 ∨ l = []) → pieces 16385 (by decide) (p ++ l) = p :: pieces 16385 (by decide) l := by
      intro l hl
      rw [pieces_cons (by simp [hp0])]
      rcases hl with hl | rfl
      · rw [List.take_left' hl, List.drop_left' hl]
      · rw [List.append_nil, List.take_of_length_le (by omega), List.drop_of_length_le (by omega)]
    cases n with
    | zero =>
      refine ⟨p, m2, s2, by simp [sealLoop], hm1.trans hm2, by rw [List.length_append]; omega, ?_, ?_⟩
      · have := hcons [] (.inr rfl)
        rw [List.append_nil, pieces_nil] at this
        rw [this]; rfl
      · have := hcons [] (.inr rfl)
        rw [List.append_nil, pieces_nil] at this
        rw [this]
        simpa [sealedFrom] using hS2
    | succ n =>
      have hpf : p.length = 16385 := by omega
      have hlen : (r ++ p).length = r.length + 16385 := by rw [List.length_append, hpf]
      obtain ⟨l, m', s', h3, h4, h5, h6, h7⟩ := ih (i + 1) hS2 (by omega) (by omega) (.inr (by rw [hlen]; omega)) (by rw [hlen]; omega)
      refine ⟨p ++ l, m', s', h3, (hm1.trans hm2).trans h4, ?_, ?_, ?_⟩
      · rw [← List.append_assoc]; omega
      · rw [hcons l (.inl hpf), List.length_cons, h6]
      · rw [hcons l (.inl hpf), ← List.append_assoc]
        simpa [sealedFrom] using h7

/-- C102: encrypting a file that others append to meanwhile. If nothing fails, `seal` (called with the size at the start) writes the
sealing of a beginning `m` of the file as it is at the end, and `m` has everything that was there at the start. -/
theorem C102_growing (hs : GrowingSource rd w S) (P : Prims) (pub : Public) {rand : Act σ (Arr 32)} {m0 m1 : Bytes} {s s1 : σ}
    (hm : m0 ≠ []) (hlen : m0.length < 2 ^ 63) {edpub epriv : Arr 32} (he : pub.toBox = .ok edpub)
    (hr : rand s = (.ok epriv, s1)) (hS : S [] m1 [] s1) (hm1 : m0 <+: m1) :
    ∃ m m' s', sealBox P pub rand rd m0.length w s = (.ok (), s') ∧ m0 <+: m ∧ m <+: m' ∧
      S m m' (sealedStream P (P.precompute edpub epriv) (P.x25519Base epriv) (pieces 16385 (by decide) m)) s' := by
  have hne : m0.length ≠ 0 := fun h => hm (List.length_eq_zero_iff.mp h)
  simp only [sealBox, if_neg hne]
  rw [Act.bind_ok (show (Act.ofRes pub.toBox : Act σ (Arr 32)) s = (.ok edpub, s) by rw [Act.ofRes_apply, he]), Act.bind_ok hr]
  simp only [sealHeader_eq]
  obtain ⟨k, m2, s2, hm2, h2, hS2⟩ := hs.write
    (bs := headerOf P (P.precompute edpub epriv) (P.x25519Base epriv) (chunkCount m0.length)) hS
  rw [Act.bind_ok h2, ← nonceOf_zero, chunkCount_eq]
  have hb := pieces_length 16385 (by decide) m0
  have hl1 := hm1.length_le
  have hl2 := hm2.length_le
  obtain ⟨l, m', s3, h3, h4, h5, h6, h7⟩ := sealLoop_growing hs P (P.precompute edpub epriv)
    (pieces 16385 (by decide) m0).length m0.length 0 hS2 (by omega) (by rw [hb]; omega) (.inr (by
      simp only [List.length_nil]; rw [hb]; omega)) (by simp only [List.length_nil]; rw [hb]; omega)
  rw [List.nil_append] at h5 h7
  rw [List.nil_append] at h7
  have hl : l <+: m' := hs.known h7
  refine ⟨l, m', s3, h3, ?_, hl, ?_⟩
  · exact List.prefix_of_prefix_length_le ((hm1.trans hm2).trans h4) hl h5
  · rw [sealedStream, h6, ← chunkCount_eq]; exact h7

/-- C102 for a file that only grows, with its size taken at time `t`. -/
theorem C102_file (file : Nat → Bytes) (hg : ∀ a b, a ≤ b → file a <+: file b) (P : Prims) (pub : Public) (edpub epriv : Arr 32)
    (he : pub.toBox = .ok edpub) (t : Nat) (hne : file t ≠ []) (hlen : (file t).length < 2 ^ 63) :
    ∃ m s', sealBox P pub (fun s : Live => (.ok epriv, { s with time := s.time + 1 })) (Live.read file) (file t).length Live.write
        ⟨t, 0, []⟩ = (.ok (), s') ∧
      s'.out = sealedStream P (P.precompute edpub epriv) (P.x25519Base epriv) (pieces 16385 (by decide) m) ∧
      file t <+: m ∧ m <+: file s'.time := by
  obtain ⟨m, m', s', h1, h2, h3, -, h5, -, h7⟩ := C102_growing (live_growing file hg) P pub
    (rand := fun s : Live => (.ok epriv, { s with time := s.time + 1 })) (m0 := file t) (m1 := file (t + 1)) (s := ⟨t, 0, []⟩)
    (s1 := ⟨t + 1, 0, []⟩) hne hlen he rfl ⟨List.nil_prefix, List.prefix_rfl, rfl, rfl⟩ (hg _ _ (Nat.le_succ t))
  exact ⟨m, s', h1, h7, h2, h3.trans h5⟩

/-- A log to which a byte is added at every moment. -/
example : (∀ a b, a ≤ b → List.replicate (a + 1) (65 : UInt8) <+: List.replicate (b + 1) 65) ∧
    List.replicate (3 + 1) (65 : UInt8) ≠ [] := by
  refine ⟨fun a b h => ?_, by decide⟩
  obtain ⟨c, rfl⟩ := Nat.exists_eq_add_of_le h
  exact ⟨List.replicate c 65, by rw [List.replicate_append_replicate]; congr 1; omega⟩

end Verif.Props
