/-
C52: the two halves of a generated key pair convert to matching box keys, if the libraries implement Ed25519 key generation
(RFC 8032) and X25519 (RFC 7748); and C36 under that hypothesis.
-/
import Verif.Lemmas.Ladder
import Verif.Lemmas.Encode
import Verif.Props.Field
import Verif.Props.Cli

namespace Verif.Props
open World Spec Ed

/-! ### Scalars -/

theorem clamp_num {x x' z z' M : Nat} (h0 : x' / 8 = x / 8) (h31 : z' % 64 = z % 64) (g0 : x' % 8 = 0) (g31 : 64 ≤ z' ∧ z' < 128)
    (hM : M < 256 ^ 30) (b0 : x < 256) : x' + 256 * M + 2 ^ 248 * z' = clampNat (x + 256 * M + 2 ^ 248 * z) := by
  unfold clampNat
  omega

theorem boxSecret_num (P : Prims) (seed : Bytes) :
    leNat (boxSecret P seed).toList = clampNat (leNat ((P.sha512 seed).toList.take 32)) := by
  have hl : ((P.sha512 seed).toList.take 32).length = 32 := by simp
  rw [leNat_ends (boxSecret P seed).toList (by simp), leNat_ends _ hl]
  have hm : ((boxSecret P seed).toList.drop 1).take 30 = (((P.sha512 seed).toList.take 32).drop 1).take 30 := by
    apply List.ext_getElem
    · simp
    · intro i h1 h2
      have hi : i < 30 := by simpa using h1
      simp only [List.getElem_take, List.getElem_drop, Vector.getElem_toList]
      exact (C51_bits P seed (1 + i) (by omega)).1 (by omega) (by omega)
  rw [hm]
  have hM := leNat_lt ((((P.sha512 seed).toList.take 32).drop 1).take 30)
  rw [show ((((P.sha512 seed).toList.take 32).drop 1).take 30).length = 30 by simp] at hM
  simp only [List.getElem_take, Vector.getElem_toList]
  refine clamp_num ((C51_bits P seed 0 (by omega)).2.1 rfl) ((C51_bits P seed 31 (by omega)).2.2 rfl) ?_ ?_ hM (UInt8.toNat_lt _)
  · simp only [boxSecret, Vector.getElem_ofFn, if_true]; exact (and248 _).1
  · simp only [boxSecret, Vector.getElem_ofFn]; exact ⟨(or64 _).1, (or64 _).2.1⟩

theorem clampNat_lt (n : Nat) : clampNat n < 2 ^ 255 := by unfold clampNat; omega
theorem clampNat_even (n : Nat) : 2 ∣ clampNat n := by unfold clampNat; omega
theorem clampNat_idem (n : Nat) : clampNat (clampNat n) = clampNat n := by unfold clampNat; omega

/-! ### X25519 on multiples of the base point -/

theorem base_u : base.u = 9 := by
  have h5 : (5 : F) ≠ 0 := by
    have h : ((5 : Nat) : F) ≠ 0 := by rw [Ne, ZMod.natCast_eq_zero_iff]; decide +kernel
    exact_mod_cast h
  have hy : base.y = 4 / 5 := by
    rw [eq_div_iff h5, ← sub_eq_zero]
    have h : ((46316835694926478169428394003475163141307993866256225615783033603165251855960 * 5 - 4 : Int) : F) = 0 :=
      int_zero (by decide +kernel)
    show baseY * 5 - 4 = 0
    unfold baseY
    push_cast at h ⊢; exact h
  rw [Point.u, hy]
  have : (1 : F) - 4 / 5 = 1 / 5 := by field_simp; norm_num
  rw [this]; field_simp; norm_num

/-- The u-coordinate of a point as 32 bytes. -/
def encodeU (Q : Point) : Arr 32 := encodeLE Q.u.val

theorem rfcX25519_point (k : Arr 32) (Q : Point) :
    rfcX25519 k (encodeU Q) = encodeU (clampNat (leNat k.toList) • Q) := by
  unfold rfcX25519 encodeU
  have h1 : Q.u.val < 2 ^ 255 := (ZMod.val_lt Q.u).trans (by norm_num)
  rw [leNat_encodeLE _ (val_lt_256 _), Nat.mod_eq_of_lt h1, ZMod.natCast_zmod_val,
    ladder_spec Q (clampNat_lt _) (clampNat_even _)]

theorem rfcX25519_base (k : Arr 32) : rfcX25519 k (encodeLE 9) = encodeU (clampNat (leNat k.toList) • base) := by
  rw [← rfcX25519_point, encodeU, base_u, show ((9 : F)).val = 9 from ZMod.val_natCast_of_lt (n := p) (a := 9) (by norm_num)]

/-- C52: X25519 as RFC 7748 defines it gives both sides of an exchange the same key. -/
theorem C52_exchange (P : Prims) (hP : Conforms P) : DHAgrees P := by
  intro a b
  rw [hP.x25519, hP.x25519, hP.x25519Base, hP.x25519Base, rfcX25519_base, rfcX25519_base, rfcX25519_point, rfcX25519_point,
    smul_comm]

theorem toBox_of_y (pub : Public) (Q : Point) (hy : yOf pub.key = Q.y) : pub.toBox = .ok (encodeU Q) := by
  obtain ⟨k, hok⟩ := (C50_rejects pub).2.2 ⟨Q.x, by rw [hy]; exact Q.on⟩
  obtain ⟨h1, h2⟩ := C49_montgomery pub k hok
  rw [hok]
  refine congrArg Res.ok (encodeLE_unique (val_lt_256 _) ?_)
  rw [hy] at h2
  rw [Point.u, ← h2, ZMod.val_natCast_of_lt h1]

/-- C52: for every seed, `Public.ToBox` of the Ed25519 public key succeeds and returns the X25519 public key of the scalar that
`Private.ToBox` computes from the seed. -/
theorem C52_matching (P : Prims) (hP : Conforms P) : BoxMatches P := by
  intro seed pub hk
  have e : P.x25519Base (boxSecret P seed.toList) =
      encodeU (clampNat (leNat ((P.sha512 seed.toList).toList.take 32)) • base) := by
    rw [hP.x25519Base, rfcX25519_base, boxSecret_num, clampNat_idem]
  rw [e]
  exact toBox_of_y pub _ (by rw [hk, hP.edPublic, rfcPublic, yOf_encodePoint])

/-- Primitives that conform: the other ones are those of `flat`. -/
noncomputable def rfcPrims : Prims :=
  { flat with
    edPublic := rfcPublic flat.sha512
    x25519 := rfcX25519
    x25519Base := fun k => rfcX25519 k (encodeLE 9) }

example : Conforms rfcPrims := ⟨fun _ => rfl, fun _ _ => rfl, fun _ => rfl⟩

/-- C52: for every pair that `GenerateKey` wrote and for every user input that makes `Private.ToBox` succeed on the loaded private
key through the stored passphrase, the two conversions match. -/
theorem C52_generated (P : Prims) (hP : Conforms P) {pw : Bytes} {opts : Option Int} {seed salt num} {priv pub}
    (g : Generated P pw opts seed salt num priv pub) (w : World) (ht : pw ≠ [] → ∃ rest, w.tty = some pw :: rest)
    (hu : pw ≠ [] → (P.sha512 priv.key.toList).toList.take 8 ≠ priv.checksum.toList) :
    ∃ k, (Private.toBox P (priv, w)).1 = .ok k ∧ pub.toBox = .ok (P.x25519Base k) :=
  ⟨boxSecret P seed.toList, (toBox_ok_iff P priv w _).2 (Generated.boxUsable g w.tty ht hu), C52_matching P hP seed pub g.pubKey⟩

/-- C36 when the libraries implement the RFCs: sealing and opening round-trips. -/
theorem C36_roundtrip_rfc (P : Prims) (hP : Conforms P) (base : Path) (pw : Bytes) (opts : Option Int)
    (w0 : World) (hgen : (GenerateKey P base pw opts w0).1 = .ok ())
    (mp ep out : Path) (fm : File) (hne : fm.data ≠ []) (hlen : fm.data.length < 2 ^ 63)
    (w1 : World) (hq1 : w1.Quiet)
    (hpub : w1.fs (base ++ b!".pub") = (GenerateKey P base pw opts w0).2.fs (base ++ b!".pub"))
    (hmsg : w1.fs mp = some fm) (hpath1 : mp ≠ encPath mp ep)
    (w2 : World) (hq2 : w2.Quiet)
    (hsec : w2.fs (base ++ b!".sec") = (GenerateKey P base pw opts w0).2.fs (base ++ b!".sec"))
    (henc : w2.fs (encPath mp ep) = (Seal P (base ++ b!".pub") mp ep w1).2.fs (encPath mp ep))
    (hpath2 : encPath mp ep ≠ out) (htty : pw ≠ [] → ∃ rest, w2.tty = some pw :: rest)
    (hluck : pw ≠ [] → ∀ fk priv, w2.fs (base ++ b!".sec") = some fk → readPrivateKeyFile fk.data = .ok priv →
      (P.sha512 priv.key.toList).toList.take 8 ≠ priv.checksum.toList)
    (fuel : Nat) (hfuel : ∀ fe, w2.fs (encPath mp ep) = some fe → fe.data.length < fuel) :
    (Seal P (base ++ b!".pub") mp ep w1).1 = .ok () ∧
    (Open P fuel (base ++ b!".sec") (encPath mp ep) out w2).1 = .ok () ∧
    ∃ mode, (Open P fuel (base ++ b!".sec") (encPath mp ep) out w2).2.fs out = some ⟨fm.data, mode⟩ :=
  C36_roundtrip P (C52_exchange P hP) (C52_matching P hP) base pw opts w0 hgen mp ep out fm hne hlen w1 hq1 hpub hmsg hpath1 w2
    hq2 hsec henc hpath2 htty hluck fuel hfuel

end Verif.Props
