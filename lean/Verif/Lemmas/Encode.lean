/-
Little-endian encodings of numbers and points, and the `ToBytes` methods.
-/
import Verif.Spec.X25519
import Verif.Lemmas.FromBytes
import Verif.Lemmas.Group

namespace Verif.Ed

theorem leNat_digits (n k : Nat) : leNat ((List.range k).map fun i => UInt8.ofNat (n / 256 ^ i % 256)) = n % 256 ^ k := by
  induction k with
  | zero => simp [leNat, Nat.mod_one]
  | succ k ih =>
    rw [List.range_succ, List.map_append, leNat_append, ih]
    simp only [List.length_map, List.length_range, List.map_cons, List.map_nil, leNat, List.foldr_cons, List.foldr_nil,
      Nat.mul_zero, Nat.add_zero]
    rw [UInt8.toNat_ofNat', Nat.mod_eq_of_lt (a := n / 256 ^ k % 256) (Nat.mod_lt _ (by norm_num)), Nat.mod_pow_succ]

theorem leNat_encodeLE (n : Nat) (h : n < 2 ^ 256) : leNat (encodeLE n).toList = n := by
  have e : (encodeLE n).toList = (List.range 32).map fun i => UInt8.ofNat (n / 256 ^ i % 256) := by
    apply List.ext_getElem <;> simp [encodeLE]
  rw [e, leNat_digits, Nat.mod_eq_of_lt]
  calc n < 2 ^ 256 := h
    _ = 256 ^ 32 := by norm_num

theorem encodeLE_unique {a : Arr 32} {n : Nat} (h : n < 2 ^ 256) (ha : leNat a.toList = n) : a = encodeLE n :=
  Vector.toList_inj.1 (leNat_inj (by simp) (by rw [ha, leNat_encodeLE n h]))

theorem val_lt_256 (x : F) : x.val < 2 ^ 256 := (ZMod.val_lt x).trans (by norm_num)

/-- The y-coordinate of an encoded point. -/
theorem yOf_encodePoint (Q : Point) : yOf (encodePoint Q) = Q.y := by
  have h1 : Q.y.val < 2 ^ 255 := (ZMod.val_lt Q.y).trans (by norm_num)
  have h2 : Q.x.val % 2 < 2 := Nat.mod_lt _ (by norm_num)
  unfold yOf encodePoint
  rw [leNat_encodeLE _ (by omega), Nat.add_mul_mod_self_left, Nat.mod_eq_of_lt h1, ZMod.natCast_zmod_val]

theorem leNat_ends (l : Bytes) (h : l.length = 32) :
    leNat l = (l[0]'(by omega)).toNat + 256 * leNat ((l.drop 1).take 30) + 2 ^ 248 * (l[31]'(by omega)).toNat := by
  have e : l = l[0]'(by omega) :: ((l.drop 1).take 30 ++ [l[31]'(by omega)]) := by
    match l, h with
    | x :: l, h =>
      simp only [List.getElem_cons_zero, List.drop_succ_cons, List.drop_zero, List.getElem_cons_succ]
      simp only [List.length_cons] at h
      rw [List.take_append_getElem (by omega), List.take_of_length_le (by omega)]
  have hl : ((l.drop 1).take 30).length = 30 := by rw [List.length_take, List.length_drop]; omega
  conv => lhs; rw [e]
  rw [leNat_head, leNat_append, hl, show leNat [l[31]'(by omega)] = (l[31]'(by omega)).toNat by simp [leNat]]
  rw [Nat.mul_add, ← Nat.mul_assoc, ← Nat.add_assoc, show 256 * 256 ^ 30 = 2 ^ 248 by norm_num]

/-! ### `ToBytes` -/

theorem xor_top : ∀ b : UInt8, b.toNat < 128 →
    ((b ^^^ (0 : UInt8) <<< 7).toNat = b.toNat ∧ (b ^^^ (1 : UInt8) <<< 7).toNat = b.toNat + 128) :=
  forall_byte (by decide +kernel)

theorem leNat_set31 (s : Arr 32) (b : UInt8) (hb : b.toNat < 2) (h : leNat s.toList < 2 ^ 255) :
    leNat (s.set 31 (s[31] ^^^ b <<< 7)).toList = leNat s.toList + 2 ^ 255 * b.toNat := by
  have e1 := leNat_ends s.toList (by simp)
  have e2 := leNat_ends (s.set 31 (s[31] ^^^ b <<< 7)).toList (by simp)
  have hm : ((s.set 31 (s[31] ^^^ b <<< 7)).toList.drop 1).take 30 = (s.toList.drop 1).take 30 := by
    apply List.ext_getElem
    · simp
    · intro i h1 h2
      have hi : i < 30 := by simpa using h1
      simp only [List.getElem_take, List.getElem_drop, Vector.getElem_toList]
      rw [Vector.getElem_set_ne _ _ (by omega)]
  rw [hm] at e2
  simp only [Vector.getElem_toList] at e1 e2
  rw [Vector.getElem_set_ne _ _ (by omega), Vector.getElem_set_self] at e2
  have h31 : s[31].toNat < 128 := by omega
  have hx := xor_top s[31] h31
  have hbb : b = 0 ∨ b = 1 := by
    rcases (by omega : b.toNat = 0 ∨ b.toNat = 1) with h | h
    · exact .inl (UInt8.toNat_inj.1 h)
    · exact .inr (UInt8.toNat_inj.1 h)
  rcases hbb with rfl | rfl
  · rw [hx.1] at e2
    rw [e2, e1]; rfl
  · rw [hx.2] at e2
    rw [e2, e1, show (1 : UInt8).toNat = 1 from rfl]; omega

theorem bytesOf_spec {X Y Z : Fe} {P : Point} (hX : X.Ok) (hY : Y.Ok) (hZ : Z.Ok) (hx : X.val / Z.val = P.x)
    (hy : Y.val / Z.val = P.y) : bytesOf X Y Z = encodePoint P := by
  obtain ⟨b1, v1⟩ := feInvert_val hZ
  obtain ⟨b2, v2⟩ := feMul_val hX b1.ok
  obtain ⟨b3, v3⟩ := feMul_val hY b1.ok
  rw [v1, ← div_eq_mul_inv, hx] at v2
  rw [v1, ← div_eq_mul_inv, hy] at v3
  have h1 := feToBytes_num b3.wide
  have h2 := feIsNegative_num b2.wide
  rw [v3] at h1
  rw [v2] at h2
  have hlt : P.y.val < 2 ^ 255 := (ZMod.val_lt P.y).trans (by norm_num)
  have hb : (feIsNegative (feMul X (feInvert Z))).1.toNat < 2 := by rw [h2]; exact Nat.mod_lt _ (by norm_num)
  have hs := leNat_set31 (feToBytes (feMul Y (feInvert Z))).1 _ hb (by rw [h1]; exact hlt)
  refine encodeLE_unique ?_ ?_
  · have : P.x.val % 2 < 2 := Nat.mod_lt _ (by norm_num)
    omega
  · rw [← h1, ← h2]; exact hs

theorem Proj.toBytes_spec {p : Proj} {P : Point} (hb : p.Bounded) (h : p.Is P) : p.toBytes = encodePoint P :=
  bytesOf_spec hb.X.ok hb.Y.ok hb.Z.ok h.x h.y

theorem Ext.toBytes_spec {p : Ext} {P : Point} (hb : p.Bounded) (h : p.Is P) : p.toBytes = encodePoint P :=
  bytesOf_spec hb.X.ok hb.Y.ok hb.Z.ok h.x h.y

/-! ### `FromBytes` -/

theorem Decoded.point {s : Arr 32} {A : Ext} (h : Decoded s A) : A.Bounded ∧ A.Is ⟨A.X.val, A.Y.val, h.curve⟩ := by
  refine ⟨⟨h.hX, h.hY, h.hZ.mono (by norm_num) (by norm_num), h.hT⟩, ?_, ?_, ?_, ?_⟩
  · rw [h.z]; exact one_ne_zero
  · rw [h.z, div_one]
  · rw [h.z, div_one]
  · rw [h.z, h.t, one_mul]

theorem leNat_encodePoint (P : Point) : leNat (encodePoint P).toList = P.y.val + 2 ^ 255 * (P.x.val % 2) := by
  have h1 : P.y.val < 2 ^ 255 := (ZMod.val_lt P.y).trans (by norm_num)
  have h2 : P.x.val % 2 < 2 := Nat.mod_lt _ (by norm_num)
  exact leNat_encodeLE _ (by omega)

theorem sq_eq_of_onCurve {x x' y : F} (h : OnCurve x y) (h' : OnCurve x' y) : x' = x ∨ x' = -x := by
  have e : x ^ 2 * (1 + d * y ^ 2) = x' ^ 2 * (1 + d * y ^ 2) := by
    unfold OnCurve at h h'; linear_combination h' - h
  have hne : 1 + d * y ^ 2 ≠ 0 := by
    have := denom_ne y; rwa [add_comm] at this
  exact sq_eq_sq_iff_eq_or_eq_neg.1 (mul_right_cancel₀ hne e).symm

/-- Decoding an encoded point gives the point. -/
theorem extFromBytes_encode (P : Point) : ∃ A, extFromBytes (encodePoint P) = some A ∧ A.Bounded ∧ A.Is P := by
  obtain ⟨h1, h2⟩ := extFromBytes_spec (encodePoint P)
  have hy := yOf_encodePoint P
  cases hA : extFromBytes (encodePoint P) with
  | none =>
    exact absurd (exists_onCurve_iff.1 ⟨P.x, by rw [hy]; exact P.on⟩) (h2.1 hA)
  | some A =>
    have hd := h1 A hA
    obtain ⟨hb, hi⟩ := hd.point
    refine ⟨A, rfl, hb, ?_⟩
    have ey : A.Y.val = P.y := by rw [hd.y, hy]
    have hpar : A.X.val ≠ 0 → A.X.val.val % 2 = P.x.val % 2 := by
      intro hne
      rw [hd.sign hne, leNat_encodePoint]
      have h1 : P.y.val < 2 ^ 255 := (ZMod.val_lt P.y).trans (by norm_num)
      omega
    have ex : A.X.val = P.x := by
      have hc := hd.curve
      rw [ey] at hc
      rcases sq_eq_of_onCurve P.on hc with h | h
      · exact h
      · by_cases h0 : P.x = 0
        · rw [h, h0, neg_zero]
        · have hne : A.X.val ≠ 0 := by rw [h]; exact neg_ne_zero.2 h0
          have := hpar hne
          rw [h, neg_parity h0] at this
          omega
    have : (⟨A.X.val, A.Y.val, hd.curve⟩ : Point) = P := Point.ext ex ey
    rw [← this]; exact hi

end Verif.Ed
