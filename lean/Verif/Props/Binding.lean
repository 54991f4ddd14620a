/-
Properties C81 to C83: what a signature binds, and public keys without a private key.
-/
import Verif.Props.Scalar
import Verif.Props.Matching
import Verif.Props.Sign
import Verif.Props.SealFiles

namespace Verif.Props
open World Spec Ed

/-! ### The group -/

theorem encodePoint_inj {P Q : Point} (h : encodePoint P = encodePoint Q) : P = Q := by
  obtain ⟨A, hA, -, hi⟩ := extFromBytes_encode P
  obtain ⟨B, hB, -, hj⟩ := extFromBytes_encode Q
  rw [h, hB] at hA
  obtain rfl := Option.some.inj hA
  exact Ext.Is.unique hi hj

theorem mod_eq_of_dvd_sub {m n : Nat} (h : (groupOrder : Int) ∣ (m : Int) - n) : m % groupOrder = n % groupOrder := by
  have h2 : (m : Int) % groupOrder = n % groupOrder := Int.emod_eq_emod_iff_emod_sub_eq_zero.2 (Int.emod_eq_zero_of_dvd h)
  exact_mod_cast h2

theorem smul_base_inj {m n : Nat} (h : m • base = n • base) : m % groupOrder = n % groupOrder := by
  have h0 : ((m : Int) - n) • base = 0 := by rw [sub_zsmul, natCast_zsmul, natCast_zsmul, h]; exact sub_self _
  exact mod_eq_of_dvd_sub ((smul_base_eq_zero _).1 h0)

/-- The secret scalar of a key is never zero modulo the group order. -/
theorem clampNat_ne (n : Nat) : ¬ groupOrder ∣ clampNat n := by
  intro h
  have h8 : 8 ∣ clampNat n := by unfold clampNat; omega
  have hc : Nat.Coprime 8 groupOrder := by decide +kernel
  have hm : 8 * groupOrder ∣ clampNat n := hc.mul_dvd_of_dvd_of_dvd h8 h
  have h1 := Nat.le_of_dvd (by unfold clampNat; omega) hm
  have h2 := clampNat_lt n
  have h3 : 2 ^ 255 < 8 * groupOrder := by norm_num [groupOrder]
  omega

theorem groupOrder_int_prime : Prime (groupOrder : Int) := Nat.prime_iff_prime_int.1 groupOrder_prime

/-- Multiples of a key point determine the factor modulo the group order. -/
theorem smul_key_eq_zero {a : Nat} (ha : ¬ groupOrder ∣ a) {n : Int} (h : n • (a • base) = 0) : (groupOrder : Int) ∣ n := by
  rw [← natCast_zsmul, ← mul_zsmul', smul_base_eq_zero] at h
  rcases groupOrder_int_prime.dvd_or_dvd h with h | h
  · first | exact h | exact absurd (Int.natCast_dvd_natCast.1 h) ha
  · first | exact absurd (Int.natCast_dvd_natCast.1 h) ha | exact h

/-! ### C81 -/

/-- C81, for keys that have a seed: a signature that is accepted for two messages is a collision of the hash function modulo the
group order, on two inputs that differ only in the messages. -/
theorem C81_binding_partial (P : Prims) (hV : GoVerifies P) (seed : Arr 32) (m m' : Bytes) (sig : Arr 64)
    (h : P.edVerify (rfcPublic P.sha512 seed) m sig = true) (h' : P.edVerify (rfcPublic P.sha512 seed) m' sig = true) :
    rfcChallenge P.sha512 (sig.toList.take 32) (rfcPublic P.sha512 seed).toList m % groupOrder =
      rfcChallenge P.sha512 (sig.toList.take 32) (rfcPublic P.sha512 seed).toList m' % groupOrder := by
  obtain ⟨A, hA, -, h⟩ := (hV _ _ _).1 h
  obtain ⟨A', hA', -, h'⟩ := (hV _ _ _).1 h'
  obtain rfl := decodes_unique hA' hA
  have hAs : A' = clampNat (leNat ((P.sha512 seed.toList).toList.take 32)) • base :=
    decodes_unique hA ((decode_iff _ _).2 (extFromBytes_encode _))
  have hp := encodePoint_inj (Vector.toList_inj.1 (h.symm.trans h'))
  generalize rfcChallenge P.sha512 _ _ m = k at hp ⊢
  generalize rfcChallenge P.sha512 _ _ m' = k' at hp ⊢
  rw [sub_right_inj] at hp
  have h0 : ((k % groupOrder : Nat) - (k' % groupOrder : Nat) : Int) • A' = 0 := by
    rw [sub_zsmul, natCast_zsmul, natCast_zsmul, hp]; exact sub_self _
  rw [hAs] at h0
  have h1 := mod_eq_of_dvd_sub (smul_key_eq_zero (clampNat_ne _) h0)
  rwa [Nat.mod_mod, Nat.mod_mod] at h1

theorem accepts_parsed (P : Prims) (pub : Public) (m sigFile : Bytes) : Accepts P (publicFile pub) m sigFile ↔
    ∃ s, readSignatureFile sigFile = .ok s ∧ (pub.keyAlgo.toList = b!"Ed" ∧ s.pkAlgo.toList = b!"Ed") ∧
      pub.keyNum.toList = s.keyNum.toList ∧ P.edVerify pub.key m s.sig = true := by
  rw [← verifyFiles_ok_iff, verifyFiles, readPublicKeyFile_public, Res.bind_ok]
  constructor
  · intro h
    obtain ⟨s, h1, h2⟩ := Res.bind_ok_inv h
    obtain ⟨a, b, c, d⟩ := (verify_ok_iff _ _ _ _).1 h2
    exact ⟨s, h1, ⟨a, b⟩, c, d⟩
  · rintro ⟨s, h1, ⟨a, b⟩, c, d⟩
    rw [h1, Res.bind_ok]
    exact (verify_ok_iff _ _ _ _).2 ⟨a, b, c, d⟩

/-- C81 for files: a signature file that is accepted with the public key file of a key with a seed, for two messages. -/
theorem C81_files_partial (P : Prims) (hV : GoVerifies P) (seed : Arr 32) (pub : Public) (hpub : pub.key = rfcPublic P.sha512 seed)
    (m m' sigFile : Bytes) (h : Accepts P (publicFile pub) m sigFile) (h' : Accepts P (publicFile pub) m' sigFile) :
    ∃ R : Bytes, R.length = 32 ∧ leNat (P.sha512 (R ++ pub.key.toList ++ m)).toList % groupOrder =
      leNat (P.sha512 (R ++ pub.key.toList ++ m')).toList % groupOrder := by
  obtain ⟨s, h1, -, h3⟩ := (accepts_parsed P pub m sigFile).1 h
  obtain ⟨s', g1, -, g3⟩ := (accepts_parsed P pub m' sigFile).1 h'
  obtain rfl := Res.ok.inj (g1.symm.trans h1)
  rw [hpub] at h3 g3
  refine ⟨s'.sig.toList.take 32, by simp, ?_⟩
  rw [hpub]
  exact C81_binding_partial P hV seed m m' s'.sig h3.2 g3.2

/-- The encoding of the neutral point. -/
theorem decodes_zero : Decodes (encodePoint 0) (0 : Point) := (decode_iff _ _).2 (extFromBytes_encode _)

/-- The signature with R the neutral point and S = 0. -/
def nullSignature : Arr 64 := copyZ 64 (1 :: List.replicate 63 0)

theorem encodePoint_zero : (encodePoint 0).toList = 1 :: List.replicate 31 0 := by
  have h1 : (0 : Point).y.val = 1 := by
    show ((1 : F)).val = 1
    exact ZMod.val_one _
  have h2 : (0 : Point).x.val = 0 := ZMod.val_zero
  unfold encodePoint
  rw [h1, h2]
  decide +kernel

/-- C81 is false for all public keys: under the key that encodes the neutral point one signature is accepted for every message. -/
theorem C81_key_negation (P : Prims) (hV : GoVerifies P) (m : Bytes) : P.edVerify (encodePoint 0) m nullSignature = true := by
  have h1 : nullSignature.toList.take 32 = 1 :: List.replicate 31 0 := by decide +kernel
  have h2 : leNat (nullSignature.toList.drop 32) = 0 := by decide +kernel
  refine (hV _ _ _).2 ⟨0, decodes_zero, ?_, ?_⟩
  · rw [h2]; norm_num [groupOrder]
  · rw [h1, h2, smul_zero, zero_nsmul, sub_zero, encodePoint_zero]

/-- C81 is false: for every key number there are a public key file and a signature file that `Verify` accepts for all messages. -/
theorem C81_negation (P : Prims) (hV : GoVerifies P) (num : Arr 8) :
    ∃ pubFile sigFile, ∀ m, Accepts P pubFile m sigFile ∧
      ∀ (pp mp sp : Path) (w : World), w.Quiet → (w.fs pp).map (·.data) = some pubFile → (w.fs mp).map (·.data) = some m →
        (w.fs (sigPath mp sp)).map (·.data) = some sigFile → (Verify P pp mp sp w).1 = .ok () := by
  let pub : Public := { keyAlgo := copyZ 2 b!"Ed", keyNum := num, key := encodePoint 0 }
  let priv : Private := { lockedKey with keyNum := num }
  let sigFile := signatureFile { P with edSign := fun _ _ => nullSignature } priv b!"k" []
  have hs : readSignatureFile sigFile = .ok { pkAlgo := priv.keyAlgo, keyNum := priv.keyNum, sig := nullSignature } :=
    readSignatureFile_signature { P with edSign := fun _ _ => nullSignature } priv b!"k" [] (by decide) (by decide)
  have key : ∀ m, Accepts P (publicFile pub) m sigFile := fun m =>
    (accepts_parsed P pub m sigFile).2 ⟨_, hs, ⟨show (copyZ 2 b!"Ed").toList = _ by decide, show (copyZ 2 b!"Ed").toList = _ by decide⟩, rfl, C81_key_negation P hV m⟩
  refine ⟨publicFile pub, sigFile, fun m => ⟨key m, ?_⟩⟩
  intro pp mp sp w hq h1 h2 h3
  obtain ⟨fp, h1, e1⟩ := Option.map_eq_some_iff.1 h1
  obtain ⟨fm, h2, e2⟩ := Option.map_eq_some_iff.1 h2
  obtain ⟨fs, h3, e3⟩ := Option.map_eq_some_iff.1 h3
  exact (C19_exact P pp mp sp w hq).2 ⟨fp, fm, fs, h1, h2, h3, by rw [e1, e2, e3]; exact key m⟩

/-! ### C82 -/

/-- C82: for every public key (also a malformed one), message and first half R there is at most one accepted signature. -/
theorem C82_unique (P : Prims) (hV : GoVerifies P) (pub : Arr 32) (m : Bytes) (sig sig' : Arr 64)
    (h : P.edVerify pub m sig = true) (h' : P.edVerify pub m sig' = true) (hR : sig.toList.take 32 = sig'.toList.take 32) :
    sig = sig' := by
  obtain ⟨A, hA, hS, h⟩ := (hV _ _ _).1 h
  obtain ⟨A', hA', hS', h'⟩ := (hV _ _ _).1 h'
  obtain rfl := decodes_unique hA' hA
  have hp := encodePoint_inj (Vector.toList_inj.1 (h.symm.trans (hR.trans h')))
  rw [hR, sub_left_inj] at hp
  have h1 := smul_base_inj hp
  rw [Nat.mod_eq_of_lt hS, Nat.mod_eq_of_lt hS'] at h1
  apply Vector.toList_inj.1
  rw [← List.take_append_drop 32 sig.toList, ← List.take_append_drop 32 sig'.toList, hR, leNat_inj (by simp) h1]

/-- C82 for files: two signature files accepted with the same key file for the same message, and with the same R, hold the same
signature. -/
theorem C82_files (P : Prims) (hV : GoVerifies P) (pub : Public) (m file file' : Bytes)
    (h : Accepts P (publicFile pub) m file) (h' : Accepts P (publicFile pub) m file') :
    ∃ s s', readSignatureFile file = .ok s ∧ readSignatureFile file' = .ok s' ∧
      (s.sig.toList.take 32 = s'.sig.toList.take 32 → s = s') := by
  obtain ⟨s, h1, ⟨-, h2⟩, h3, h4⟩ := (accepts_parsed P pub m file).1 h
  obtain ⟨s', g1, ⟨-, g2⟩, g3, g4⟩ := (accepts_parsed P pub m file').1 h'
  refine ⟨s, s', h1, g1, fun hR => ?_⟩
  have e1 := Vector.toList_inj.1 (h2.trans g2.symm)
  have e2 := Vector.toList_inj.1 (h3.symm.trans g3)
  have e3 := C82_unique P hV pub.key m s.sig s'.sig h4 g4 hR
  cases s; cases s'
  simp_all

open Classical in
/-- Primitives that verify as described. -/
noncomputable def goVerifier : Prims := { toy with edVerify := fun pub m sig => decide (GoValid toy.sha512 pub m sig) }

theorem goVerifier_verifies : GoVerifies goVerifier := by
  intro pub m sig
  classical
  show @decide _ (Classical.propDecidable _) = true ↔ GoValid toy.sha512 pub m sig
  exact decide_eq_true_iff

/-- Under these, signatures of a key with a seed are accepted, so the hypotheses of C81 and C82 can be met. -/
example (seed : Arr 32) (m : Bytes) : goVerifier.edVerify (rfcPublic goVerifier.sha512 seed) m (rfcSign goVerifier.sha512 seed m) = true := by
  obtain ⟨b, h, hb⟩ := C74_verify goVerifier.sha512 (rfcPublic goVerifier.sha512 seed) m (rfcSign goVerifier.sha512 seed m)
  have h1 := C74_roundtrip goVerifier.sha512 seed m
  rw [C74_public, C74_sign, h] at h1
  exact (goVerifier_verifies _ _ _).2 (hb.1 (Res.ok.inj h1))

/-! ### C83 -/

theorem neg_y (Q : Point) : (-Q).y = Q.y := rfl

/-- Points with the same y-coordinate are equal or opposite. -/
theorem eq_or_neg_of_y {P Q : Point} (h : P.y = Q.y) : P = Q ∨ P = -Q := by
  have hc : OnCurve P.x Q.y := by rw [← h]; exact P.on
  rcases sq_eq_of_onCurve Q.on hc with hx | hx
  · exact .inl (Point.ext hx h)
  · exact .inr (Point.ext hx h)

theorem two_ne : (2 : F) ≠ 0 := by
  have h : ((2 : Nat) : F) ≠ 0 := by rw [Ne, ZMod.natCast_eq_zero_iff]; decide +kernel
  exact_mod_cast h

theorem x_of_y_sq {P : Point} (h : P.y ^ 2 = 1) : P.x = 0 := by
  have ho := P.on
  unfold OnCurve at ho
  rw [h] at ho
  have h1 : P.x ^ 2 * (1 + d * 1) = 0 := by linear_combination -ho
  have hne : 1 + d * (1 : F) ≠ 0 := by
    have := denom_ne (1 : F)
    intro h0; apply this; linear_combination h0
  exact pow_eq_zero_iff (two_ne_zero) |>.1 ((mul_eq_zero.1 h1).resolve_right hne)

/-- The u-coordinate determines a multiple of the base point up to the sign. -/
theorem eq_or_neg_of_u {m n : Nat} (h : (m • base).u = (n • base).u) : m • base = n • base ∨ m • base = -(n • base) := by
  have hbad : ∀ k : Nat, (k • base).y ≠ -1 := by
    intro k hk
    have hx := x_of_y_sq (P := k • base) (by rw [hk]; ring)
    have h2 : k • base = -(k • base) := Point.ext (by show _ = -_; rw [hx, neg_zero]) rfl
    have h3 : ((2 * k : Nat) : Int) • base = 0 := by
      rw [natCast_zsmul, mul_nsmul', two_nsmul]
      nth_rewrite 1 [h2]
      exact neg_add_cancel _
    have h4 := (smul_base_eq_zero _).1 h3
    have h5 : groupOrder ∣ k := by
      have := Int.natCast_dvd_natCast.1 h4
      exact (Nat.Coprime.dvd_of_dvd_mul_left (by decide +kernel) this)
    have h6 : (k • base) = 0 := by
      have := (smul_base_eq_zero (k : Int)).2 (Int.natCast_dvd_natCast.2 h5)
      rwa [natCast_zsmul] at this
    rw [h6] at hk
    have : (1 : F) = -1 := hk
    exact two_ne (by linear_combination this)
  have hy : ∀ k : Nat, 1 + (k • base).y ≠ 0 := fun k h0 => hbad k (by linear_combination h0)
  have key : (m • base).y = (n • base).y := by
    unfold Point.u at h
    by_cases hm : 1 - (m • base).y = 0
    · by_cases hn : 1 - (n • base).y = 0
      · linear_combination hn - hm
      · rw [hm, div_zero] at h
        exact absurd ((div_eq_zero_iff.1 h.symm).resolve_right hn) (hy n)
    · by_cases hn : 1 - (n • base).y = 0
      · rw [hn, div_zero] at h
        exact absurd ((div_eq_zero_iff.1 h).resolve_right hm) (hy m)
      · rw [div_eq_div_iff hm hn] at h
        have : (2 : F) * ((m • base).y - (n • base).y) = 0 := by linear_combination h
        exact sub_eq_zero.1 ((mul_eq_zero.1 this).resolve_left two_ne)
  exact eq_or_neg_of_y key

/-- Two clamped scalars with the same residue are equal; with opposite residues, their sum is 8L. -/
theorem clamp_cases {a b : Nat} (h : (groupOrder : Int) ∣ (clampNat a : Int) - clampNat b ∨ (groupOrder : Int) ∣ (clampNat a : Int) + clampNat b) :
    clampNat a = clampNat b ∨ clampNat a + clampNat b = 8 * groupOrder := by
  have h8 : ∀ n, 8 ∣ clampNat n := fun n => by unfold clampNat; omega
  have hr : ∀ n, 2 ^ 254 ≤ clampNat n ∧ clampNat n < 2 ^ 255 := fun n => ⟨by unfold clampNat; omega, clampNat_lt n⟩
  have hc : IsCoprime (8 : Int) (groupOrder : Int) := by
    rw [Int.isCoprime_iff_gcd_eq_one]; decide +kernel
  have a8 : (8 : Int) ∣ clampNat a := by exact_mod_cast h8 a
  have b8 : (8 : Int) ∣ clampNat b := by exact_mod_cast h8 b
  obtain ⟨ra, ra'⟩ := hr a
  obtain ⟨rb, rb'⟩ := hr b
  have hL : 2 ^ 255 < 8 * groupOrder ∧ 8 * groupOrder < 2 ^ 255 + 2 ^ 254 := by constructor <;> norm_num [groupOrder]
  generalize clampNat a = x at *
  generalize clampNat b = y at *
  rcases h with h | h
  · left
    obtain ⟨c, hc⟩ := hc.mul_dvd (dvd_sub a8 b8) h
    generalize groupOrder = L at *
    have : c = 0 := by
      rcases lt_trichotomy c 0 with h0 | h0 | h0
      · nlinarith
      · exact h0
      · nlinarith
    subst this
    omega
  · right
    obtain ⟨c, hc⟩ := hc.mul_dvd (dvd_add a8 b8) h
    generalize groupOrder = L at *
    have : c = 1 := by
      have h1 : 0 < c := by by_contra h0; nlinarith
      have h2 : c < 2 := by by_contra h0; nlinarith
      omega
    subst this
    omega

/-- C83, for public keys that have a seed: two X25519 scalars give the same shared secret only if they are the same scalar after
clamping, or add up to 8L; so the 2^251 possible scalars give at least 2^250 different secrets. -/
theorem C83_secrets_partial (sha : Bytes → Arr 64) (seed e e' : Arr 32) (pub : Public) (hpub : pub.key = rfcPublic sha seed) :
    ∃ ed, pub.toBox = .ok ed ∧ (rfcX25519 e ed = rfcX25519 e' ed →
      clampNat (leNat e.toList) = clampNat (leNat e'.toList) ∨
      clampNat (leNat e.toList) + clampNat (leNat e'.toList) = 8 * groupOrder) := by
  refine ⟨_, toBox_of_y pub _ (by rw [hpub, rfcPublic, yOf_encodePoint]), fun h => ?_⟩
  rw [rfcX25519_point, rfcX25519_point] at h
  have hu := congrArg (fun v => leNat (Vector.toList v)) h
  dsimp only [encodeU] at hu
  rw [leNat_encodeLE _ (val_lt_256 _), leNat_encodeLE _ (val_lt_256 _)] at hu
  have hu := ZMod.val_injective _ hu
  have ha := clampNat_ne (leNat ((sha seed.toList).toList.take 32))
  generalize clampNat (leNat ((sha seed.toList).toList.take 32)) = a at hu ha
  rw [← mul_nsmul', ← mul_nsmul'] at hu
  apply clamp_cases
  generalize clampNat (leNat e.toList) = x at hu ⊢
  generalize clampNat (leNat e'.toList) = y at hu ⊢
  rcases eq_or_neg_of_u hu with h | h
  · left
    apply smul_key_eq_zero ha
    rw [sub_zsmul, natCast_zsmul, natCast_zsmul, ← mul_nsmul', ← mul_nsmul', h]
    exact sub_self _
  · right
    apply smul_key_eq_zero ha
    rw [add_zsmul, natCast_zsmul, natCast_zsmul, ← mul_nsmul', ← mul_nsmul', h]
    exact neg_add_cancel _

theorem encodeU_zero : encodeU 0 = copyZ 32 [] := by
  have h : (0 : Point).u.val = 0 := by
    show ((1 + (1 : F)) / (1 - 1)).val = 0
    rw [sub_self, div_zero]; exact ZMod.val_zero
  unfold encodeU
  rw [h]
  decide +kernel

/-- C83 is false for all public keys: for a key whose point Q has small order (8Q = 0) the conversion succeeds, and the key that
protects the sealed chunks is one fixed key, whatever secret the sender draws: nobody needs a private key to read the message. -/
theorem C83_negation (P : Prims) (hP : Conforms P) (pub : Public) (Q : Point) (hQ : 8 • Q = 0) (hy : yOf pub.key = Q.y) :
    ∃ ed, pub.toBox = .ok ed ∧ ∀ secret, P.precompute ed secret = P.hsalsa20 (copyZ 32 []) := by
  refine ⟨_, toBox_of_y pub Q hy, fun secret => ?_⟩
  unfold Prims.precompute
  rw [hP.x25519, rfcX25519_point]
  have h8 : 8 ∣ clampNat (leNat secret.toList) := by unfold clampNat; omega
  obtain ⟨c, hc⟩ := h8
  rw [hc, mul_comm, mul_nsmul', hQ, smul_zero, encodeU_zero]

/-- C83 for files: what `Seal` writes for such a key is protected by that fixed key. -/
theorem C83_file_negation (P : Prims) (hP : Conforms P) (pp mp ep : Path) {w : World} (hq : w.Quiet) {fp fm : File} {pub : Public}
    (Q : Point) (hQ : 8 • Q = 0) (hy : yOf pub.key = Q.y) (hfp : w.fs pp = some fp) (hpub : readPublicKeyFile fp.data = .ok pub)
    (hfm : w.fs mp = some fm) (hne : fm.data ≠ []) (hpath : mp ≠ encPath mp ep) (hlen : fm.data.length < 2 ^ 63) :
    (Seal P pp mp ep w).1 = .ok () ∧ ∃ ephemeral, ((Seal P pp mp ep w).2.fs (encPath mp ep)).map (·.data) =
      some (encryptedComment ++ encodedText (sealedStream P (P.hsalsa20 (copyZ 32 [])) ephemeral (pieces 16385 (by decide) fm.data))) := by
  obtain ⟨ed, hbox, hk⟩ := C83_negation P hP pub Q hQ hy
  obtain ⟨h1, h2⟩ := Seal_quiet P pp mp ep hq hfp hpub (fun _ => hbox) hfm hpath hlen
  refine ⟨h1, P.x25519Base (draw w w.rngPos 32), ?_⟩
  rw [h2, World.setFile_self, if_neg hne, hk]
  rfl

/-- Such keys: the encoding of the neutral point, and the key of all zeros, whose point has order 4. -/
example : (∃ Q : Point, 8 • Q = 0 ∧ yOf (encodePoint 0) = Q.y) ∧ ∃ Q : Point, 8 • Q = 0 ∧ yOf zeroKey.key = Q.y := by
  refine ⟨⟨0, smul_zero _, yOf_encodePoint 0⟩, ?_⟩
  have hy : yOf zeroKey.key = 0 := by
    have : leNat zeroKey.key.toList = 0 := by decide +kernel
    unfold yOf; rw [this]; simp
  have h1 : feSqrtM1.val ^ 2 = -1 := feSqrtM1_spec.2
  let Q : Point := ⟨feSqrtM1.val, 0, by unfold OnCurve; rw [h1]; ring⟩
  let R : Point := ⟨0, -1, by unfold OnCurve; ring⟩
  have h2 : Q + Q = R := by
    refine Point.ext ?_ ?_
    · show sumX feSqrtM1.val 0 feSqrtM1.val 0 = 0
      simp [sumX]
    · show sumY feSqrtM1.val 0 feSqrtM1.val 0 = -1
      simp only [sumY, mul_zero, zero_add, sub_zero, div_one]
      rw [← h1]; ring
  have h4 : R + R = 0 := by
    refine Point.ext ?_ ?_
    · show sumX 0 (-1) 0 (-1) = 0
      simp [sumX]
    · show sumY 0 (-1) 0 (-1) = 1
      simp [sumY]
  refine ⟨Q, ?_, hy⟩
  rw [show 8 = 2 * (2 * 2) from rfl, mul_nsmul', mul_nsmul', two_nsmul Q, h2, two_nsmul R, h4, smul_zero]

end Verif.Props
