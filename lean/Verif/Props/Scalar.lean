/-
C70-C74: arithmetic modulo the group order, and Ed25519 assembled from the functions of internal/edwards25519.
-/
import Verif.Spec.Assembled
import Verif.Lemmas.ScalarLimbs
import Verif.Props.Group
import Verif.Props.Sign

namespace Verif.Props
open Ed

/-! ### C70-C72 -/

/-- C70: `ScMulAdd` writes (a·b + c) mod the group order, for all 32-byte strings. -/
theorem C70_mulAdd (a b c : Arr 32) :
    leNat (scMulAdd a b c).toList = (leNat a.toList * leNat b.toList + leNat c.toList) % groupOrder :=
  scMulAdd_spec a b c

/-- C70: the result is reduced. -/
theorem C70_minimal (a b c : Arr 32) : scMinimal (scMulAdd a b c) = true := by
  rw [scMinimal_spec, C70_mulAdd]; exact Nat.mod_lt _ (by norm_num [groupOrder])

/-- C71: `ScReduce` writes s mod the group order, for all 64-byte strings. -/
theorem C71_reduce (s : Arr 64) : leNat (scReduce s).toList = leNat s.toList % groupOrder := scReduce_spec s

/-- C71: the result is reduced. -/
theorem C71_minimal (s : Arr 64) : scMinimal (scReduce s) = true := by
  rw [scMinimal_spec, C71_reduce]; exact Nat.mod_lt _ (by norm_num [groupOrder])

/-- C72: `ScMinimal` accepts exactly the numbers below the group order. -/
theorem C72_minimal (a : Arr 32) : scMinimal a = true ↔ leNat a.toList < groupOrder := scMinimal_spec a

/-- C72: so exactly one 32-byte string is accepted for each residue. -/
theorem C72_unique (a b : Arr 32) (ha : scMinimal a = true) (hb : scMinimal b = true)
    (h : leNat a.toList % groupOrder = leNat b.toList % groupOrder) : a = b := by
  rw [C72_minimal] at ha hb
  rw [Nat.mod_eq_of_lt ha, Nat.mod_eq_of_lt hb] at h
  exact Vector.toList_inj.1 (leNat_inj (by simp) h)

/-- C72: a reduced number fits the scalar multiplications. -/
theorem C72_top (a : Arr 32) (ha : scMinimal a = true) : a[31].toNat ≤ 127 ∧ leNat a.toList ≤ 2 ^ 255 := by
  rw [C72_minimal] at ha
  have e := leNat_ends a.toList (by simp)
  have e31 : (a.toList[31]'(by simp)) = a[31] := by simp
  rw [e31] at e
  unfold groupOrder at ha
  omega

example : scMinimal (Vector.replicate 32 5) = true ∧ scMinimal (Vector.replicate 32 100) = false := by decide +kernel

/-! ### C73: signatures by the RFC verify -/

theorem mod_smul_base (n : Nat) : (n % groupOrder) • base = n • base := by
  conv_rhs => rw [← Nat.mod_add_div n groupOrder, add_nsmul, mul_comm, mul_nsmul', order_smul_base, smul_zero, add_zero]

theorem groupOrder_lt : groupOrder < 2 ^ 256 := by norm_num [groupOrder]
theorem mod_order_lt (n : Nat) : n % groupOrder < groupOrder := Nat.mod_lt _ (by norm_num [groupOrder])

theorem rfcSign_halves (sha : Bytes → Arr 64) (seed : Arr 32) (m : Bytes) :
    (rfcSign sha seed m).toList.take 32 = (encodePoint (rfcNonce sha seed m • base)).toList ∧
    leNat ((rfcSign sha seed m).toList.drop 32) = (rfcNonce sha seed m +
      rfcChallenge sha (encodePoint (rfcNonce sha seed m • base)).toList (rfcPublic sha seed).toList m *
        clampNat (leNat ((sha seed.toList).toList.take 32))) % groupOrder := by
  unfold rfcSign
  extract_lets s r R k
  rw [copyZ_toList_eq (by simp), List.take_left' (by simp), List.drop_left' (by simp),
    leNat_encodeLE _ ((mod_order_lt _).trans groupOrder_lt)]
  exact ⟨rfl, rfl⟩

/-- C73: a signature made by RFC 8032, 5.1.6 is valid by 5.1.7, whatever the hash function. -/
theorem C73_valid (sha : Bytes → Arr 64) (seed : Arr 32) (m : Bytes) :
    RfcValid sha (rfcPublic sha seed) m (rfcSign sha seed m) := by
  obtain ⟨h1, h2⟩ := rfcSign_halves sha seed m
  refine ⟨clampNat (leNat ((sha seed.toList).toList.take 32)) • base, rfcNonce sha seed m • base, _, rfl, rfl, h1, ?_, ?_⟩
  · rw [h2]; exact mod_order_lt _
  · rw [h2, h1, mod_smul_base, add_nsmul, mul_nsmul']

/-- C73: so primitives that follow the RFC satisfy the hypothesis of C18. -/
theorem C73_correct (P : Prims) (hP : Signs P) : EdCorrect P := by
  intro seed key m hk
  rw [hP.edPublic] at hk ⊢
  rw [hP.edSign seed key m hk]
  exact hP.edVerify _ _ _ (C73_valid _ _ _)

open Classical in
/-- Primitives that follow the RFC (with a hash function that is no hash function). -/
noncomputable def rfcSigner : Prims :=
  { toy with
    edPublic := rfcPublic toy.sha512
    edSign := fun key m => rfcSign toy.sha512 (copyZ 32 (key.toList.take 32)) m
    edVerify := fun pub m sig => decide (RfcValid toy.sha512 pub m sig) }

example : Signs rfcSigner := by
  refine ⟨fun _ => rfl, fun seed key m h => ?_, fun pub m sig h => by simpa [rfcSigner] using h⟩
  show rfcSign toy.sha512 (copyZ 32 (key.toList.take 32)) m = rfcSign toy.sha512 seed m
  rw [h, List.take_left' (by simp), show copyZ 32 seed.toList = seed from arr_ext (copyZ_toList_eq (by simp))]

/-- C18 with Ed25519 by RFC 8032 in place of a hypothesis about signatures. -/
theorem C18_rfc (P : Prims) (hP : Signs P) (base dir name : Path) (pw : Bytes) (opts : Option Int)
    (w0 : World) (hgen : (GenerateKey P base pw opts w0).1 = .ok ())
    (hsplit : Splits base dir name) (hnl : 10 ∉ name) (hlen : name.length < 64000)
    (mp sp : Path) (fm : File) (w1 : World) (hq1 : w1.Quiet)
    (hsec : w1.fs (base ++ b!".sec") = (GenerateKey P base pw opts w0).2.fs (base ++ b!".sec"))
    (hmsg : w1.fs mp = some fm) (htty : pw ≠ [] → ∃ rest, w1.tty = some pw :: rest)
    (w2 : World) (hq2 : w2.Quiet)
    (hpub : w2.fs (base ++ b!".pub") = (GenerateKey P base pw opts w0).2.fs (base ++ b!".pub"))
    (hmsg2 : w2.fs mp = some fm)
    (hsig : w2.fs (sigPath mp sp) = (Sign P (base ++ b!".sec") mp sp w1).2.fs (sigPath mp sp)) :
    (Sign P (base ++ b!".sec") mp sp w1).1 = .ok () ∧ (Verify P (base ++ b!".pub") mp sp w2).1 = .ok () :=
  C18_sign_verify P (C73_correct P hP) base dir name pw opts w0 hgen hsplit hnl hlen mp sp fm w1 hq1 hsec hmsg htty w2 hq2
    hpub hmsg2 hsig

/-! ### C74: the functions fit together -/

theorem top_of_lt {a : Arr 32} (h : leNat a.toList < 2 ^ 255) : a[31].toNat ≤ 127 := by
  have e := leNat_ends a.toList (by simp)
  have e31 : (a.toList[31]'(by simp)) = a[31] := by simp
  rw [e31] at e
  omega

theorem clamp_lt (n : Nat) : clampNat n < 2 ^ 255 := by unfold clampNat; omega

theorem asmSecret_num (sha : Bytes → Arr 64) (seed : Arr 32) :
    leNat (asmSecret sha seed).toList = clampNat (leNat ((sha seed.toList).toList.take 32)) :=
  leNat_encodeLE _ ((clamp_lt _).trans (by norm_num))

theorem smul_bytes (a : Arr 32) (ha : leNat a.toList < 2 ^ 255) : (geScalarMultBase a).toBytes = encodePoint (leNat a.toList • base) :=
  C67_bytes a (top_of_lt ha)

theorem scReduce_lt (s : Arr 64) : leNat (scReduce s).toList < 2 ^ 255 := by
  rw [C71_reduce]; exact (mod_order_lt _).trans (by norm_num [groupOrder])

/-- C74: public keys assembled from the package are those of the RFC. -/
theorem C74_public (sha : Bytes → Arr 64) (seed : Arr 32) : asmPublic sha seed = rfcPublic sha seed := by
  unfold asmPublic rfcPublic
  rw [smul_bytes _ (by rw [asmSecret_num]; exact clamp_lt _), asmSecret_num]

/-- C74: signatures assembled from the package are those of the RFC. -/
theorem C74_sign (sha : Bytes → Arr 64) (seed : Arr 32) (m : Bytes) :
    asmSign sha seed (rfcPublic sha seed) m = rfcSign sha seed m := by
  unfold asmSign rfcSign
  extract_lets r R k S s r' R' k'
  have hR : R = R' := by
    show (geScalarMultBase (scReduce _)).toBytes = encodePoint (_ • base)
    rw [smul_bytes _ (scReduce_lt _), C71_reduce, mod_smul_base]; rfl
  have hk : leNat k.toList = k' % groupOrder := by
    show leNat (scReduce _).toList = _
    rw [C71_reduce, hR]; rfl
  have hS : S = encodeLE ((r' + k' * s) % groupOrder) := by
    apply encodeLE_unique ((mod_order_lt _).trans groupOrder_lt)
    show leNat (scMulAdd _ _ _).toList = _
    rw [C70_mulAdd, hk, asmSecret_num, show leNat r.toList = r' % groupOrder from C71_reduce _]
    show (k' % groupOrder * s + r' % groupOrder) % groupOrder = _
    rw [add_comm, Nat.add_mod, Nat.mod_mod, Nat.mul_mod, Nat.mod_mod, ← Nat.mul_mod, ← Nat.add_mod]
  rw [hR, hS]

theorem decodes_unique {s : Arr 32} {P Q : Point} (hP : Decodes s P) (hQ : Decodes s Q) : P = Q := by
  have hy : P.y = Q.y := hP.1.trans hQ.1.symm
  refine Point.ext ?_ hy
  have hc : OnCurve P.x Q.y := by rw [← hy]; exact P.on
  rcases sq_eq_of_onCurve Q.on hc with h | h
  · exact h
  · by_cases h0 : Q.x = 0
    · rw [h, h0, neg_zero]
    · have hne : P.x ≠ 0 := by rw [h]; exact neg_ne_zero.2 h0
      have h1 := hP.2 hne
      have h2 := hQ.2 h0
      rw [h, neg_parity h0] at h1
      omega

theorem decode_iff (s : Arr 32) (P : Point) : Decodes s P ↔ ∃ A, extFromBytes s = some A ∧ A.Bounded ∧ A.Is P := by
  have of : ∀ A, extFromBytes s = some A → ∃ Q, Decodes s Q ∧ A.Bounded ∧ A.Is Q := by
    intro A hA
    have hd := (extFromBytes_spec s).1 A hA
    obtain ⟨hb, hi⟩ := hd.point
    exact ⟨_, ⟨hd.y, hd.sign⟩, hb, hi⟩
  constructor
  · intro h
    cases hA : extFromBytes s with
    | none => exact absurd (exists_onCurve_iff.1 ⟨P.x, by rw [← h.1]; exact P.on⟩) ((extFromBytes_spec s).2.1 hA)
    | some A =>
      obtain ⟨Q, hq, hb, hi⟩ := of A hA
      rw [decodes_unique h hq]
      exact ⟨A, rfl, hb, hi⟩
  · rintro ⟨A, hA, -, hi⟩
    obtain ⟨Q, hq, -, hi'⟩ := of A hA
    rw [Ext.Is.unique hi hi']; exact hq

theorem neg_ext {A : Ext} {P : Point} (hb : A.Bounded) (hi : A.Is P) :
    (⟨feNeg A.X, A.Y, A.Z, feNeg A.T⟩ : Ext).Bounded ∧ (⟨feNeg A.X, A.Y, A.Z, feNeg A.T⟩ : Ext).Is (-P) := by
  obtain ⟨b1, v1⟩ := feNeg_spec hb.X (by norm_num) (by norm_num)
  obtain ⟨b2, v2⟩ := feNeg_spec hb.T (by norm_num) (by norm_num)
  refine ⟨⟨b1, hb.Y, hb.Z, b2⟩, hi.nz, ?_, hi.y, ?_⟩
  · show (feNeg A.X).val / A.Z.val = -P.x
    rw [v1, neg_div, hi.x]
  · show (feNeg A.X).val * A.Y.val = A.Z.val * (feNeg A.T).val
    rw [v1, v2, neg_mul, hi.t, mul_neg]

theorem asmVerify_none {sha : Bytes → Arr 64} {pub : Arr 32} (m : Bytes) (sig : Arr 64) (h : extFromBytes pub = none) :
    asmVerify sha pub m sig = .ok false := by
  unfold asmVerify; rw [h, ifDecoded]

theorem asmVerify_some {sha : Bytes → Arr 64} {pub : Arr 32} (m : Bytes) (sig : Arr 64) {A : Ext} (h : extFromBytes pub = some A) :
    asmVerify sha pub m sig = asmCheck sha A pub m sig := by
  unfold asmVerify; rw [h, ifDecoded]

theorem asmCheck_spec (sha : Bytes → Arr 64) (A : Ext) (pub : Arr 32) (m : Bytes) (sig : Arr 64) {P : Point} (hb : A.Bounded)
    (hi : A.Is P) : ∃ b, asmCheck sha A pub m sig = .ok b ∧ (b = true ↔ leNat (sig.toList.drop 32) < groupOrder ∧
      sig.toList.take 32 = (encodePoint (leNat (sig.toList.drop 32) • base -
        (rfcChallenge sha (sig.toList.take 32) pub.toList m % groupOrder) • P)).toList) := by
  obtain ⟨nb, ni⟩ := neg_ext hb hi
  have hS : (copyZ 32 (sig.toList.drop 32)).toList = sig.toList.drop 32 := copyZ_toList_eq (by simp)
  unfold asmCheck
  extract_lets A' k S
  cases hm : scMinimal S with
  | false =>
    refine ⟨false, by rw [if_pos rfl], ?_⟩
    simp only [Bool.false_eq_true, false_iff]
    rintro ⟨h, _⟩
    have := (C72_minimal S).not.1 (by rw [hm]; simp)
    rw [hS] at this; exact this h
  | true =>
    have hlt := (C72_minimal S).1 hm
    have hk : leNat k.toList < 2 ^ 255 := scReduce_lt _
    have hv : leNat k.toList = rfcChallenge sha (sig.toList.take 32) pub.toList m % groupOrder := C71_reduce _
    obtain ⟨r, e, rb, ri⟩ := C69_doubleScalarMult_partial k S A' (-P) nb ni hk.le (C72_top S hm).2
    rw [hS] at hlt ri
    rw [hv, smul_neg, neg_add_eq_sub] at ri
    rw [if_neg (by simp), e]
    refine ⟨_, rfl, ?_⟩
    rw [decide_eq_true_eq, Proj.toBytes_spec rb ri]
    exact ⟨fun h => ⟨hlt, h.symm⟩, fun h => h.2.symm⟩

/-- C74: verification assembled from the package returns, and accepts exactly if the key decodes to a point A, the second half of the
signature is a number S below the group order, and the first half is the encoding of S·B - k·A with k reduced. -/
theorem C74_verify (sha : Bytes → Arr 64) (pub : Arr 32) (m : Bytes) (sig : Arr 64) :
    ∃ b, asmVerify sha pub m sig = .ok b ∧ (b = true ↔ ∃ A, Decodes pub A ∧ leNat (sig.toList.drop 32) < groupOrder ∧
      sig.toList.take 32 = (encodePoint (leNat (sig.toList.drop 32) • base -
        (rfcChallenge sha (sig.toList.take 32) pub.toList m % groupOrder) • A)).toList) := by
  rcases Option.eq_none_or_eq_some (extFromBytes pub) with hA | ⟨A, hA⟩
  · refine ⟨false, asmVerify_none m sig hA, ?_⟩
    simp only [Bool.false_eq_true, false_iff]
    rintro ⟨A, h, -⟩
    obtain ⟨A', h, -⟩ := (decode_iff pub A).1 h
    rw [hA] at h; exact absurd h (by simp)
  · obtain ⟨P, hP⟩ : ∃ P, Decodes pub P := by
      have hd := (extFromBytes_spec pub).1 A hA
      exact ⟨⟨_, _, hd.curve⟩, hd.y, hd.sign⟩
    obtain ⟨A', hA', hb, hi⟩ := (decode_iff pub P).1 hP
    rw [hA] at hA'
    obtain rfl : A = A' := Option.some.inj hA'
    rw [asmVerify_some m sig hA]
    obtain ⟨b, h1, h2⟩ := asmCheck_spec sha A pub m sig hb hi
    refine ⟨b, h1, h2.trans ⟨fun h => ⟨P, hP, h⟩, ?_⟩⟩
    rintro ⟨Q, hQ, h⟩
    rwa [decodes_unique hP hQ]

/-- C74: verification accepts what signing produced, for every hash function, seed and message. -/
theorem C74_roundtrip (sha : Bytes → Arr 64) (seed : Arr 32) (m : Bytes) :
    asmVerify sha (asmPublic sha seed) m (asmSign sha seed (asmPublic sha seed) m) = .ok true := by
  rw [C74_public, C74_sign]
  obtain ⟨b, h, hb⟩ := C74_verify sha (rfcPublic sha seed) m (rfcSign sha seed m)
  rw [h]
  obtain ⟨h1, h2⟩ := rfcSign_halves sha seed m
  have : b = true := hb.2 ⟨clampNat (leNat ((sha seed.toList).toList.take 32)) • base, ?_, ?_, ?_⟩
  · rw [this]
  · exact (decode_iff _ _).2 (extFromBytes_encode _)
  · rw [h2]; exact mod_order_lt _
  · rw [h2, h1, mod_smul_base, add_nsmul, mul_nsmul', smul_comm (_ % groupOrder), mod_smul_base, smul_comm (clampNat _),
      add_sub_cancel_right]

end Verif.Props
