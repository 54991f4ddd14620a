/-
`GeDoubleScalarMultVartime` never panics and computes the combination of its two points by the values of the digits.
-/
import Verif.Lemmas.Slide

namespace Verif.Ed

theorem oddMultiples_length (A2 : Ext) : ∀ (n : Nat) (c : Cached), (oddMultiples A2 n c).length = n + 1
  | 0, _ => rfl
  | n + 1, c => by rw [oddMultiples, List.length_cons, oddMultiples_length A2 n]

theorem oddMultiples_spec {A2 : Ext} {P : Point} (hb : A2.Bounded) (hi : A2.Is (P + P)) :
    ∀ (n : Nat) (c : Cached) (m : Nat), c.Bounded → c.Is ((2 * m + 1) • P) →
      ∀ j (hj : j < (oddMultiples A2 n c).length),
        (oddMultiples A2 n c)[j].Bounded ∧ (oddMultiples A2 n c)[j].Is ((2 * (m + j) + 1) • P)
  | 0, c, m, cb, ci, j, hj => by
    have : j = 0 := by rw [oddMultiples_length] at hj; omega
    subst this
    exact ⟨cb, ci⟩
  | n + 1, c, m, cb, ci, j, hj => by
    match j, hj with
    | 0, _ => exact ⟨cb, ci⟩
    | j + 1, hj =>
      obtain ⟨b1, i1⟩ := geAdd_spec hb hi cb ci
      obtain ⟨b2, i2⟩ := Comp.toExt_spec b1 i1
      obtain ⟨b3, i3⟩ := Ext.toCached_spec b2 i2
      have e : P + P + (2 * m + 1) • P = (2 * (m + 1) + 1) • P := by
        rw [show 2 * (m + 1) + 1 = 2 + (2 * m + 1) by ring, add_nsmul P 2, two_nsmul]
      rw [e] at i3
      have := oddMultiples_spec hb hi n _ (m + 1) b3 i3 j (by rw [oddMultiples, List.length_cons] at hj; omega)
      rw [show m + 1 + j = m + (j + 1) by omega] at this
      exact this

theorem tableAt_spec {α : Type} {t : List α} (ht : t.length = 8) {x : Int} (h1 : 0 < x) (h2 : x ≤ 15) (h3 : x % 2 = 1) :
    ∃ j : Nat, ∃ hj : j < t.length, tableAt t x = .ok t[j] ∧ x = ((2 * j + 1 : Nat) : Int) := by
  refine ⟨(x / 2).toNat, by omega, ?_, by omega⟩
  unfold tableAt
  rw [List.getElem?_eq_getElem (show (x / 2).toNat < t.length by omega)]

theorem addOwn_spec {Ai : List Cached} {P : Point} (hl : Ai.length = 8)
    (hA : ∀ j (hj : j < Ai.length), Ai[j].Bounded ∧ Ai[j].Is ((2 * j + 1) • P)) {t : Comp} {R : Point} (tb : t.Bounded)
    (ti : t.Is R) {x : Int} (hx : IsDigit x) :
    ∃ u, addOwn Ai x t = .ok u ∧ u.Bounded ∧ u.Is (R + x • P) := by
  obtain ⟨eb, ei⟩ := Comp.toExt_spec tb ti
  rcases hx with rfl | ⟨ho, hlo, hhi⟩
  · exact ⟨t, rfl, tb, by rw [zero_zsmul, add_zero]; exact ti⟩
  · rcases (by omega : 0 < x ∨ x < 0) with hp | hn
    · obtain ⟨j, hj, h1, h2⟩ := tableAt_spec hl hp hhi ho
      obtain ⟨ub, ui⟩ := geAdd_spec eb ei (hA j hj).1 (hA j hj).2
      rw [addOwn, if_pos hp, h1]
      refine ⟨_, rfl, ub, ?_⟩
      rw [h2, natCast_zsmul]; exact ui
    · obtain ⟨j, hj, h1, h2⟩ := tableAt_spec (x := -x) hl (by omega) (by omega) (by omega)
      obtain ⟨ub, ui⟩ := geSub_spec eb ei (hA j hj).1 (hA j hj).2
      rw [addOwn, if_neg (by omega), if_pos hn, w8_id (by omega) (by omega), h1]
      refine ⟨_, rfl, ub, ?_⟩
      rw [show x = -((2 * j + 1 : Nat) : Int) by omega, neg_zsmul, natCast_zsmul, ← sub_eq_add_neg]; exact ui

theorem addBase_spec {t : Comp} {R : Point} (tb : t.Bounded) (ti : t.Is R) {x : Int} (hx : IsDigit x) :
    ∃ u, addBase x t = .ok u ∧ u.Bounded ∧ u.Is (R + x • base) := by
  obtain ⟨eb, ei⟩ := Comp.toExt_spec tb ti
  have hl : biTable.length = 8 := rfl
  have hA : ∀ j (hj : j < biTable.length), biTable[j].Bounded ∧ biTable[j].Is ((2 * j + 1) • base) := by
    intro j hj
    exact biTable_spec j hj
  rcases hx with rfl | ⟨ho, hlo, hhi⟩
  · exact ⟨t, rfl, tb, by rw [zero_zsmul, add_zero]; exact ti⟩
  · rcases (by omega : 0 < x ∨ x < 0) with hp | hn
    · obtain ⟨j, hj, h1, h2⟩ := tableAt_spec hl hp hhi ho
      obtain ⟨ub, ui⟩ := geMixedAdd_spec eb ei (hA j hj).1 (hA j hj).2
      rw [addBase, if_pos hp, h1]
      refine ⟨_, rfl, ub, ?_⟩
      rw [h2, natCast_zsmul]; exact ui
    · obtain ⟨j, hj, h1, h2⟩ := tableAt_spec (x := -x) hl (by omega) (by omega) (by omega)
      obtain ⟨ub, ui⟩ := geMixedSub_spec eb ei (hA j hj).1 (hA j hj).2
      rw [addBase, if_neg (by omega), if_pos hn, w8_id (by omega) (by omega), h1]
      refine ⟨_, rfl, ub, ?_⟩
      rw [show x = -((2 * j + 1 : Nat) : Int) by omega, neg_zsmul, natCast_zsmul, ← sub_eq_add_neg]; exact ui

theorem doubleStep_spec {Ai : List Cached} {P : Point} (hl : Ai.length = 8)
    (hA : ∀ j (hj : j < Ai.length), Ai[j].Bounded ∧ Ai[j].Is ((2 * j + 1) • P)) {r : Proj} {R : Point} (rb : r.Bounded)
    (ri : r.Is R) {x y : Int} (hx : IsDigit x) (hy : IsDigit y) :
    ∃ r', doubleStep Ai x y r = .ok r' ∧ r'.Bounded ∧ r'.Is (R + R + x • P + y • base) := by
  obtain ⟨tb, ti⟩ := Proj.double_spec rb ri
  obtain ⟨u, hu, ub, ui⟩ := addOwn_spec hl hA tb ti hx
  obtain ⟨v, hv, vb, vi⟩ := addBase_spec ub ui hy
  obtain ⟨wb, wi⟩ := Comp.toProj_spec vb vi
  refine ⟨v.toProj, ?_, wb, wi⟩
  unfold doubleStep
  rw [hu]
  show (do let t ← addBase y u; pure t.toProj) = _
  rw [hv]; rfl

theorem doubleLoop_spec {Ai : List Cached} {P : Point} (hl : Ai.length = 8)
    (hA : ∀ j (hj : j < Ai.length), Ai[j].Bounded ∧ Ai[j].Is ((2 * j + 1) • P)) {a b : Digits} :
    ∀ (i : Nat) (r : Proj) (R : Point), (∀ j, j < i → IsDigit (a j)) → (∀ j, j < i → IsDigit (b j)) → r.Bounded → r.Is R →
      ∃ r', doubleLoop Ai a b i r = .ok r' ∧ r'.Bounded ∧
        r'.Is ((2 : Int) ^ i • R + num a 0 i • P + num b 0 i • base)
  | 0, r, R, _, _, rb, ri => ⟨r, rfl, rb, by simpa [num] using ri⟩
  | i + 1, r, R, ha, hb, rb, ri => by
    obtain ⟨s, hs, sb, si⟩ := doubleStep_spec hl hA rb ri (ha i (by omega)) (hb i (by omega))
    obtain ⟨t, ht, tb, ti⟩ := doubleLoop_spec hl hA i s _ (fun j hj => ha j (by omega)) (fun j hj => hb j (by omega)) sb si
    refine ⟨t, ?_, tb, ?_⟩
    · rw [doubleLoop, hs]; exact ht
    · have e : ∀ f : Digits, num f 0 (i + 1) = num f 0 i + 2 ^ i * f i := by
        intro f; rw [num_append, Nat.zero_add]; simp [num]
      rw [e, e]
      have : (2 : Int) ^ i • (R + R + a i • P + b i • base) + num a 0 i • P + num b 0 i • base =
          (2 : Int) ^ (i + 1) • R + (num a 0 i + 2 ^ i * a i) • P + (num b 0 i + 2 ^ i * b i) • base := by
        rw [pow_succ, mul_two, add_zsmul, add_zsmul, add_zsmul, mul_zsmul, mul_zsmul]
        simp only [zsmul_add]
        abel
      rw [← this]; exact ti

theorem topDigit_spec (a b : Digits) : ∀ n, topDigit a b n ≤ n ∧ num a 0 n = num a 0 (topDigit a b n) ∧
    num b 0 n = num b 0 (topDigit a b n)
  | 0 => ⟨le_rfl, rfl, rfl⟩
  | n + 1 => by
    rw [topDigit]
    split
    · exact ⟨le_rfl, rfl, rfl⟩
    · rename_i h
      rw [not_or, not_not, not_not] at h
      obtain ⟨h1, h2, h3⟩ := topDigit_spec a b n
      have e : ∀ f : Digits, f n = 0 → num f 0 (n + 1) = num f 0 n := by
        intro f hf; rw [num_append, Nat.zero_add]; simp [num, hf]
      rw [e a h.1, e b h.2]
      exact ⟨by omega, h2, h3⟩

theorem geDoubleScalarMult_digits (a : Arr 32) {A : Ext} {P : Point} (b : Arr 32) (hb : A.Bounded) (hi : A.Is P) :
    ∃ r, geDoubleScalarMultVartime a A b = .ok r ∧ r.Bounded ∧
      r.Is (num (slide a) 0 256 • P + num (slide b) 0 256 • base) := by
  obtain ⟨c1, j1⟩ := Ext.double_spec hb hi
  obtain ⟨b2, i2⟩ := Comp.toExt_spec c1 j1
  obtain ⟨b3, i3⟩ := Ext.toCached_spec hb hi
  have hA := oddMultiples_spec b2 i2 7 A.toCached 0 b3 (by simpa using i3)
  simp only [Nat.zero_add] at hA
  obtain ⟨t1, t2, t3⟩ := topDigit_spec (slide a) (slide b) 256
  obtain ⟨r, h1, h2, h3⟩ := doubleLoop_spec (oddMultiples_length _ 7 _) hA (a := slide a) (b := slide b)
    (topDigit (slide a) (slide b) 256) Proj.zero 0 (fun j hj => (slide_spec a).1 j (by omega))
    (fun j hj => (slide_spec b).1 j (by omega)) Proj.zero_spec.1 Proj.zero_spec.2
  refine ⟨r, h1, h2, ?_⟩
  rw [t2, t3]
  rwa [zsmul_zero, zero_add] at h3

end Verif.Ed
