/-
C87: signatures made with a damaged key.
-/
import Verif.Spec.GoSign
import Verif.Props.Truncation

namespace Verif.Props
open World Spec Ed

/-! ### C87 -/

instance : Fact (Nat.Prime groupOrder) := ⟨groupOrder_prime⟩

theorem goSign_halves (sha : Bytes → Arr 64) (key : Arr 64) (m : Bytes) :
    let h := (sha (key.toList.take 32)).toList
    let r := leNat (sha (h.drop 32 ++ m)).toList
    (goSign sha key m).toList.take 32 = (encodePoint (r • base)).toList ∧
    leNat ((goSign sha key m).toList.drop 32) =
      (r + rfcChallenge sha ((goSign sha key m).toList.take 32) (key.toList.drop 32) m * clampNat (leNat (h.take 32))) % groupOrder := by
  unfold goSign
  extract_lets h r R k
  have e : (copyZ 64 (R.toList ++ (encodeLE ((r + k * clampNat (leNat (List.take 32 h))) % groupOrder)).toList)).toList =
      R.toList ++ (encodeLE ((r + k * clampNat (leNat (List.take 32 h))) % groupOrder)).toList := copyZ_toList_eq (by simp)
  rw [e, List.take_left' (by simp), List.drop_left' (by simp), leNat_encodeLE _ ((mod_order_lt _).trans groupOrder_lt)]
  exact ⟨rfl, rfl⟩

/-- With the right public key in the second half, Go's signing is that of RFC 8032. -/
theorem goSign_rfc (sha : Bytes → Arr 64) (seed : Arr 32) (key : Arr 64) (m : Bytes)
    (hk : key.toList = seed.toList ++ (rfcPublic sha seed).toList) : goSign sha key m = rfcSign sha seed m := by
  unfold goSign rfcSign rfcNonce
  rw [hk, List.take_left' (by simp), List.drop_left' (by simp)]

/-- What the functions of the package assemble to, with any second half. -/
theorem goSign_assembled (sha : Bytes → Arr 64) (seed pub : Arr 32) (key : Arr 64) (m : Bytes)
    (hk : key.toList = seed.toList ++ pub.toList) : asmSign sha seed pub m = goSign sha key m := by
  unfold asmSign goSign
  rw [hk, List.take_left' (by simp), List.drop_left' (by simp)]
  extract_lets r R k S h r' R' k'
  have hR : R = R' := by
    show (geScalarMultBase (scReduce _)).toBytes = encodePoint (_ • base)
    rw [smul_bytes _ (scReduce_lt _), C71_reduce, mod_smul_base]
  have hS : S = encodeLE ((r' + k' * clampNat (leNat (h.take 32))) % groupOrder) := by
    refine Vector.toList_inj.1 (leNat_inj (by simp) ?_)
    show leNat (scMulAdd _ _ _).toList = _
    rw [leNat_encodeLE _ ((mod_order_lt _).trans groupOrder_lt), C70_mulAdd, asmSecret_num]
    show (leNat (scReduce (sha (R.toList ++ pub.toList ++ m))).toList * _ + leNat (scReduce _).toList) % _ = _
    rw [C71_reduce, C71_reduce, hR, Nat.add_mod, Nat.mod_mod, Nat.mul_mod, Nat.mod_mod, ← Nat.mul_mod, ← Nat.add_mod, Nat.add_comm]
    rfl
  rw [hR, hS]

/-- C87, two signatures of one message by keys that agree in the seed but not in the second half: the first halves of the signatures
are the same, and the difference of the second halves is the secret scalar times a number that everybody knows. -/
theorem C87_two_signatures (P : Prims) (hS : GoSigns P) (key key' : Arr 64) (hseed : key.toList.take 32 = key'.toList.take 32)
    (m : Bytes) (a : Nat) (ha : a = clampNat (leNat ((P.sha512 (key.toList.take 32)).toList.take 32))) :
    (P.edSign key m).toList.take 32 = (P.edSign key' m).toList.take 32 ∧
    (leNat ((P.edSign key m).toList.drop 32) : ZMod groupOrder) - leNat ((P.edSign key' m).toList.drop 32) =
      ((rfcChallenge P.sha512 ((P.edSign key m).toList.take 32) (key.toList.drop 32) m : ZMod groupOrder) -
        rfcChallenge P.sha512 ((P.edSign key' m).toList.take 32) (key'.toList.drop 32) m) * a := by
  obtain ⟨h1, h2⟩ := goSign_halves P.sha512 key m
  obtain ⟨h3, h4⟩ := goSign_halves P.sha512 key' m
  rw [hS key m, hS key' m, ha]
  rw [← hseed] at h3 h4
  refine ⟨h1.trans h3.symm, ?_⟩
  rw [h2, h4, ZMod.natCast_mod, ZMod.natCast_mod]
  push_cast
  ring

/-- C87: so the secret scalar can be computed, unless the challenges coincide modulo the group order. -/
theorem C87_scalar (P : Prims) (hS : GoSigns P) (key key' : Arr 64) (hseed : key.toList.take 32 = key'.toList.take 32) (m : Bytes)
    (hne : (rfcChallenge P.sha512 ((P.edSign key m).toList.take 32) (key.toList.drop 32) m : ZMod groupOrder) ≠
      rfcChallenge P.sha512 ((P.edSign key' m).toList.take 32) (key'.toList.drop 32) m) :
    secretFrom P.sha512 (key.toList.drop 32) (key'.toList.drop 32) m (P.edSign key m) (P.edSign key' m) =
      (clampNat (leNat ((P.sha512 (key.toList.take 32)).toList.take 32)) : ZMod groupOrder) := by
  rw [secretFrom, (C87_two_signatures P hS key key' hseed m _ rfl).2, mul_right_comm,
    mul_inv_cancel₀ (sub_ne_zero.2 hne), one_mul]

/-- Who knows the scalar of a public key can sign. -/
theorem forge_valid (P : Prims) (hV : GoVerifies P) (a : Nat) (m : Bytes) :
    P.edVerify (encodePoint (a • base)) m (forge P.sha512 (encodePoint (a • base)) (a : ZMod groupOrder) m) = true := by
  have e : (forge P.sha512 (encodePoint (a • base)) (a : ZMod groupOrder) m).toList =
      (encodePoint base).toList ++ (encodeLE ((1 + rfcChallenge P.sha512 (encodePoint base).toList
        (encodePoint (a • base)).toList m * (a : ZMod groupOrder).val) % groupOrder)).toList := by
    unfold forge
    exact copyZ_toList_eq (by simp)
  refine (hV _ _ _).2 ⟨a • base, (decode_iff _ _).2 (extFromBytes_encode _), ?_, ?_⟩
  · rw [e, List.drop_left' (by simp), leNat_encodeLE _ ((mod_order_lt _).trans groupOrder_lt)]
    exact mod_order_lt _
  · rw [e, List.drop_left' (by simp), List.take_left' (by simp), leNat_encodeLE _ ((mod_order_lt _).trans groupOrder_lt)]
    generalize rfcChallenge P.sha512 _ _ m = k
    have h1 : (k % groupOrder) • a • base = k • a • base := by
      rw [← mul_nsmul', ← mul_nsmul', ← mod_smul_base, ← mod_smul_base (k * a), Nat.mul_mod, Nat.mod_mod, ← Nat.mul_mod]
    have h2 : (a : ZMod groupOrder).val • base = a • base := by rw [ZMod.val_natCast, mod_smul_base]
    rw [h1, mod_smul_base, add_nsmul, one_nsmul, mul_nsmul', h2, add_sub_cancel_right]

/-- The state of a machine on which a message can be signed with an unencrypted key file. -/
structure SignReady (kp mp : Path) (keyText m : Bytes) (w : World) : Prop where
  quiet : w.Quiet
  key : ∃ fk, w.fs kp = some fk ∧ fk.data = keyText
  msg : ∃ fm, w.fs mp = some fm ∧ fm.data = m

/-- C87 is false. Take an unencrypted secret key file and a copy of it that ends early (after a whole group of base64, anywhere in
the stored public key). `Sign` succeeds with both. From the two signature files of any one message and the public key everybody can
compute signatures that are accepted for all messages, provided that the two challenges (hash values) differ. -/
theorem C87_negation (P : Prims) (hS : GoSigns P) (hV : GoVerifies P) {opts : Option Int} {seed : Arr 32} {salt : Arr 16} {num : Arr 8}
    {priv : Private} {pub : Public} (hpub : P.edPublic seed = rfcPublic P.sha512 seed)
    (gen : Generated P [] opts seed salt num priv pub) (j : Nat) (h1 : 24 ≤ j) (h2 : j ≤ 34)
    (kp kp' mp sp sp' dir name dir' name' : Path) (hs : Splits kp dir (name ++ b!".sec")) (hs' : Splits kp' dir' (name' ++ b!".sec"))
    (hnl : 10 ∉ name) (hlen : name.length < 64000) (hnl' : 10 ∉ name') (hlen' : name'.length < 64000) (m : Bytes) (w w' : World)
    (hw : SignReady kp mp (secretFile priv) m w) (hw' : SignReady kp' mp ((secretFile priv).take (39 + 4 * j)) m w') :
    (Sign P kp mp sp w).1 = .ok () ∧ (Sign P kp' mp sp' w').1 = .ok () ∧
    ∃ (f f' : File) (s s' : Signature) (pub' : Bytes), (Sign P kp mp sp w).2.fs (sigPath mp sp) = some f ∧
      (Sign P kp' mp sp' w').2.fs (sigPath mp sp') = some f' ∧
      readSignatureFile f.data = .ok s ∧ readSignatureFile f'.data = .ok s' ∧
      pub' = pub.key.toList.take (3 * j - 72) ++ List.replicate (104 - 3 * j) 0 ∧
      ((rfcChallenge P.sha512 (s.sig.toList.take 32) pub.key.toList m : ZMod groupOrder) ≠
          rfcChallenge P.sha512 (s'.sig.toList.take 32) pub' m →
        ∀ m' file, readSignatureFile file =
            .ok { s with sig := forge P.sha512 pub.key (secretFrom P.sha512 pub.key.toList pub' m s.sig s'.sig) m' } →
          Accepts P (publicFile pub) m' file) := by
  obtain ⟨fk, hfk, ek⟩ := hw.key
  obtain ⟨fm, hfm, em⟩ := hw.msg
  obtain ⟨fk', hfk', ek'⟩ := hw'.key
  obtain ⟨fm', hfm', em'⟩ := hw'.msg
  have hr : priv.kdfRounds = 0 := by rw [gen.rounds]; rfl
  have hkey := gen.plain rfl
  rw [hpub] at hkey
  have hpk : pub.key = rfcPublic P.sha512 seed := gen.pubKey.trans hpub
  have hread : readPrivateKeyFile fk.data = .ok priv := by rw [ek]; exact readPrivateKeyFile_secret priv
  have hread' : readPrivateKeyFile fk'.data = .ok { priv with key := copyZ 64 (priv.key.toList.take (3 * j - 40)) } := by
    rw [ek']; exact C86_secret_negation priv j h1 h2
  generalize hpr' : ({ priv with key := copyZ 64 (priv.key.toList.take (3 * j - 40)) } : Private) = priv' at hread'
  have hr' : priv'.kdfRounds = 0 := by rw [← hpr']; exact hr
  have hok := Sign_quiet P (sp := sp) hw.quiet hfk hread hfm (.inl ⟨hr, rfl⟩)
  have hok' := Sign_quiet P (sp := sp') hw'.quiet hfk' hread' hfm' (.inl ⟨hr', rfl⟩)
  refine ⟨hok, hok', ?_⟩
  have parse : ∀ (kp sp dir name : Path) (w : World) (fk : File) (priv : Private) (fm : File), Splits kp dir (name ++ b!".sec") →
      10 ∉ name → name.length < 64000 → w.fs kp = some fk → readPrivateKeyFile fk.data = .ok priv → priv.kdfRounds = 0 →
      w.fs mp = some fm → (Sign P kp mp sp w).1 = .ok () → ∃ f, (Sign P kp mp sp w).2.fs (sigPath mp sp) = some f ∧
        readSignatureFile f.data = .ok { pkAlgo := priv.keyAlgo, keyNum := priv.keyNum, sig := P.edSign priv.key fm.data } := by
    intro kp sp dir name w fk priv fm hs hnl hlen hfk hread hr hfm hok
    obtain ⟨fk2, fm2, p1, p2, f, g1, g2, g3, g4, g5, g6⟩ := C24_content P kp mp sp w dir name hs hok
    rw [hfk] at g1; obtain rfl := Option.some.inj g1
    rw [hfm] at g3; obtain rfl := Option.some.inj g3
    rw [hread] at g2; obtain rfl := Res.ok.inj g2
    obtain rfl : p2 = priv := by
      rcases g4 with ⟨-, g4⟩ | ⟨g4, -⟩
      · exact g4
      · exact absurd hr g4
    refine ⟨f, g5, ?_⟩
    rw [g6]
    exact readSignatureFile_signature P p2 _ _ (by
      intro hm
      rcases List.mem_append.1 hm with hm | hm
      · exact hnl hm
      · revert hm; decide) (by rw [List.length_append]; simp; omega)
  obtain ⟨f, hf, hp⟩ := parse kp sp dir name w fk priv fm hs hnl hlen hfk hread hr hfm hok
  obtain ⟨f', hf', hp'⟩ := parse kp' sp' dir' name' w' fk' priv' fm' hs' hnl' hlen' hfk' hread' hr' hfm' hok'
  rw [em] at hp
  rw [em'] at hp'
  refine ⟨f, f', _, _, _, hf, hf', hp, hp', rfl, ?_⟩
  simp only
  intro hne m' file hfile
  have hk32 : priv.key.toList.take 32 = seed.toList := by rw [hkey, List.take_left' (by simp)]
  have hk64 : priv.key.toList.drop 32 = pub.key.toList := by rw [hkey, List.drop_left' (by simp), hpk]
  have hkt : priv'.key.toList = priv.key.toList.take (3 * j - 40) ++ List.replicate (104 - 3 * j) 0 := by
    rw [← hpr', copyZ_toList, List.take_append, List.take_of_length_le (by simp), List.take_replicate]
    simp
    omega
  have hk32' : priv'.key.toList.take 32 = priv.key.toList.take 32 := by
    rw [hkt, List.take_append_of_le_length (by simp; omega), List.take_take, Nat.min_eq_left (by omega)]
  have hk64' : priv'.key.toList.drop 32 = pub.key.toList.take (3 * j - 72) ++ List.replicate (104 - 3 * j) 0 := by
    rw [hkt, List.drop_append_of_le_length (by simp; omega), List.drop_take, hk64, show 3 * j - 40 - 32 = 3 * j - 72 by omega]
  have hsec := C87_scalar P hS priv.key priv'.key hk32'.symm m (by rw [hk64, hk64']; exact hne)
  rw [hk64, hk64', hk32] at hsec
  refine (accepts_parsed P pub m' file).2 ⟨_, hfile, ⟨gen.pubAlgo, gen.algo⟩, ?_, ?_⟩
  · simp only [gen.pubNum, gen.numEq]
  · simp only
    rw [hsec, hpk]
    exact forge_valid P hV _ m'

/-- C87, encrypted keys: with a secret key file that ends early `Sign` succeeds only if the first eight bytes of the hash of what the
passphrase makes of the damaged key are those of the hash of the original key. -/
theorem C87_encrypted_partial (P : Prims) {pw : Bytes} {opts : Option Int} {seed : Arr 32} {salt : Arr 16} {num : Arr 8}
    {priv : Private} {pub : Public} (gen : Generated P pw opts seed salt num priv pub) (hpw : pw ≠ []) (j : Nat) (h1 : 24 ≤ j)
    (h2 : j ≤ 34) (kp mp sp : Path) (w : World) (fk : File) (hfk : w.fs kp = some fk)
    (hdata : fk.data = (secretFile priv).take (39 + 4 * j)) (hok : (Sign P kp mp sp w).1 = .ok ()) :
    ∃ typed, (P.sha512 (xorArr (copyZ 64 (priv.key.toList.take (3 * j - 40)))
        (P.bcrypt typed salt priv.kdfRounds.toNat)).toList).toList.take 8 =
      (P.sha512 (seed.toList ++ (P.edPublic seed).toList)).toList.take 8 := by
  have hread := C86_secret_negation priv j h1 h2
  rw [← hdata] at hread
  obtain ⟨typed, rest, priv', -, hu⟩ := C25_checked P kp mp sp w fk _ hfk hread (gen.roundsPos hpw) (.inr hok)
  refine ⟨typed, ?_⟩
  have h3 := hu.checksum
  rw [hu.result] at h3
  simp only at h3
  rw [gen.saltEq, gen.checksum] at h3
  exact h3

/-- A hash function (that is no hash function) with different challenges for a public key and for zeros in its place. -/
def leakyHash (x : Bytes) : Arr 64 := if (x.drop 32).take 32 = List.replicate 32 0 then copyZ 64 [1] else copyZ 64 []

open Classical in
/-- Primitives as C87 assumes them. -/
noncomputable def leaky : Prims :=
  { toy with
    sha512 := leakyHash
    edPublic := rfcPublic leakyHash
    edSign := goSign leakyHash
    edVerify := fun pub m sig => decide (GoValid leakyHash pub m sig) }

theorem four_smul_of_y_zero {Q : Point} (h : Q.y = 0) : (4 : Nat) • Q = 0 := by
  have hx : Q.x * Q.x = -1 := by
    have := Q.on
    unfold OnCurve at this
    rw [h] at this
    linear_combination -this
  have h2 : (Q + Q).x = 0 ∧ (Q + Q).y = -1 := by
    rw [Point.add_x, Point.add_y, sumX, sumY, h]
    simp [hx]
  have h4 : (Q + Q) + (Q + Q) = 0 := by
    refine Point.ext ?_ ?_
    · rw [Point.add_x, sumX, h2.1, h2.2, Point.zero_x]; simp
    · rw [Point.add_y, sumY, h2.1, h2.2, Point.zero_y]; simp
  rw [show (4 : Nat) = 1 + 1 + (1 + 1) by rfl]
  simp only [add_nsmul, one_nsmul]
  exact h4

/-- The hypotheses of C87 can be met, for every seed and message, with the public half lost (j = 24). -/
example : GoSigns leaky ∧ GoVerifies leaky ∧ (∀ seed, leaky.edPublic seed = rfcPublic leaky.sha512 seed) ∧
    ∀ (seed : Arr 32) (R : Arr 32) (m : Bytes),
      (rfcChallenge leaky.sha512 R.toList (rfcPublic leaky.sha512 seed).toList m : ZMod groupOrder) ≠
        rfcChallenge leaky.sha512 R.toList ((rfcPublic leaky.sha512 seed).toList.take (3 * 24 - 72) ++ List.replicate (104 - 3 * 24) 0) m := by
  refine ⟨fun _ _ => rfl, fun pub m sig => by simp [leaky], fun _ => rfl, fun seed R m => ?_⟩
  have hz : (rfcPublic leaky.sha512 seed).toList ≠ List.replicate 32 0 := by
    intro h
    have h1 : yOf (rfcPublic leaky.sha512 seed) = 0 := by
      unfold yOf
      rw [h, show leNat (List.replicate 32 0) = 0 by decide]
      simp
    rw [rfcPublic, yOf_encodePoint] at h1
    have h2 := four_smul_of_y_zero h1
    rw [← natCast_zsmul] at h2
    have h3 := smul_key_eq_zero (clampNat_ne _) h2
    have h4 := Int.le_of_dvd (by norm_num) h3
    norm_num [groupOrder] at h4
  have e1 : rfcChallenge leaky.sha512 R.toList (rfcPublic leaky.sha512 seed).toList m = 0 := by
    unfold rfcChallenge
    show leNat (leakyHash _).toList = 0
    rw [leakyHash, if_neg (by
      rw [List.append_assoc, List.drop_left' (by simp), List.take_left' (by simp)]; exact hz)]
    decide
  have e2 : rfcChallenge leaky.sha512 R.toList
      ((rfcPublic leaky.sha512 seed).toList.take (3 * 24 - 72) ++ List.replicate (104 - 3 * 24) 0) m = 1 := by
    unfold rfcChallenge
    show leNat (leakyHash _).toList = 1
    rw [leakyHash, if_pos (by
      rw [List.append_assoc, List.drop_left' (by simp), List.take_left' (by simp)]
      simp)]
    decide
  rw [e1, e2]
  simp

end Verif.Props
