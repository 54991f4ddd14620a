/-
The text of `zero` of signify/common.go compared with the model.
-/
import Verif.Source.SignCalls

namespace Verif.Src

variable {ω : Type} (S : Sys ω) (v0 v1 : Val)

/-- The body of the loop. -/
noncomputable def zeroLoop : List Stmt := (Stmt.rangeParts common.zero.body[1]?).2.2.2

/-- What is in scope in the loop. -/
def zeroCtx : Ctx := ⟨id!"signify", [(id!"i", .var ⟨5, []⟩), (0, .val .nil), (id!"buf", .var ⟨4, []⟩)]⟩

/-- Memory in the loop. -/
def zeroMem (vs : List Val) (n cap : Nat) (iv : Val) : List Val := [v0, v1, .slice ⟨3, []⟩ 0 n cap, .arr vs, .ptr ⟨2, []⟩, iv]

theorem zero_step {vs : List Val} {n i : Nat} (cap : Nat) {iv : Val} (hv : iv = .nil ∨ ∃ z, iv = .int .int z) (w : ω) (hi : i < n) {x : UInt8}
    (hx : vs[i]? = some (byteVal x)) :
    rangeStep (interp (repo S) 18) zeroCtx zeroLoop (.place ⟨3, []⟩ 0 n) (some ⟨5, []⟩) none i ⟨zeroMem v0 v1 vs n cap iv, 4, [], w⟩ =
      .ok .next ⟨zeroMem v0 v1 (vs.set i (byteVal 0)) n cap (.int .int i), 4, [], w⟩ := by
  have h1 : (i : Int) < n := by omega
  have h2 : (0 : Int) ≤ i := by omega
  have hx' : vs[0 + i]? = some (.int .uint8 (x.toNat : Int)) := by rw [Nat.zero_add]; exact hx
  have e : vs.set i (byteVal 0) = vs.set (0 + (i : Int).toNat) (.int .uint8 (ITy.uint8.bitwise (· ^^^ ·) x.toNat x.toNat)) := by
    have : ITy.uint8.bitwise (· ^^^ ·) x.toNat x.toNat = ((x ^^^ x).toNat : Int) := EdSrc.xor8_eq x x
    rw [this, Int.toNat_natCast, Nat.zero_add, UInt8.xor_self]
  rw [e]
  rcases hv with rfl | ⟨z, rfl⟩
  · seval [h1, h2, hx']
  · seval [h1, h2, hx']

theorem zero_loop (cap : Nat) (w : ω) (n k : Nat) : ∀ (i : Nat) (rest : Bytes) (iv : Val), (iv = .nil ∨ ∃ z, iv = .int .int z) → i + k = n → rest.length = k →
    ∃ iv', rangeLoop (interp (repo S) 18) zeroCtx zeroLoop (.place ⟨3, []⟩ 0 n) (some ⟨5, []⟩) none k i
        ⟨zeroMem v0 v1 (byteVals (List.replicate i 0 ++ rest)) n cap iv, 4, [], w⟩ =
      .ok .next ⟨zeroMem v0 v1 (byteVals (List.replicate n 0)) n cap iv', 4, [], w⟩ := by
  induction k with
  | zero =>
    rintro i rest iv hv rfl hr
    cases List.length_eq_zero_iff.1 hr
    exact ⟨iv, by rw [List.append_nil]; rfl⟩
  | succ k ih =>
    intro i rest iv hv hi hr
    obtain ⟨x, rest, rfl⟩ := List.exists_cons_of_length_eq_add_one hr
    have hx : (byteVals (List.replicate i 0 ++ x :: rest))[i]? = some (byteVal x) := by
      simp [byteVals]
    have hs : (byteVals (List.replicate i 0 ++ x :: rest)).set i (byteVal 0) = byteVals (List.replicate (i + 1) 0 ++ rest) := by
      simp only [byteVals]
      rw [← List.map_set, List.set_append_right _ _ (by simp), List.replicate_succ', List.append_assoc]
      simp
    obtain ⟨iv', e⟩ := ih (i + 1) rest (.int .int i) (.inr ⟨_, rfl⟩) (by omega) (by simpa using hr)
    refine ⟨iv', ?_⟩
    rw [range_succ, zero_step S v0 v1 cap hv w (by omega) hx, hs]
    exact e

/-- `zero(buf *[]byte)`, common.go:62-70. -/
theorem zero_run (pw : Bytes) (cap : Nat) (w : ω) :
    (interp (repo S) 20).call id!"signify" common.zero [.ptr ⟨2, []⟩] ⟨v0 :: v1 :: [.slice ⟨3, []⟩ 0 pw.length cap, .arr (byteVals pw)], 4, [], w⟩ =
      .ok [] ⟨v0 :: v1 :: [.slice ⟨3, []⟩ 0 pw.length cap, .arr (byteVals (List.replicate pw.length 0))], 4, [], w⟩ := by
  obtain ⟨iv', e⟩ := zero_loop S v0 v1 cap w pw.length pw.length 0 pw .nil (.inl rfl) (by omega) rfl
  rw [List.replicate_zero, List.nil_append] at e
  generalize byteVals (List.replicate pw.length 0) = us at *
  generalize byteVals pw = vs at *
  generalize pw.length = n at *
  rw [call_range (n := 18) 1 (by seval []) (by seval []) (by krfl) (by seval []) e]
  seval []

/-- The same in any memory. -/
theorem zero_in {s : St ω} {v0 v1 : Val} (G : Globals s v0 v1) {lb lp : Loc} (hb : 2 ≤ lb.blk) (hp : 2 ≤ lp.blk) (d : lb.disjoint lp = true)
    {pw : Bytes} {cap : Nat} (eb : lb.get s.mem = some (.slice lp 0 pw.length cap)) (ep : lp.get s.mem = some (.arr (byteVals pw)))
    {n : Nat} (hn : 20 ≤ n) :
    ∃ m, lp.set s.mem (.arr (byteVals (List.replicate pw.length 0))) = some m ∧
      (interp (repo S) n).call id!"signify" common.zero [.ptr lb] s = .ok [] { s with mem := m } := by
  have pl : ∀ b : Bytes, Val.anyRefers 0 (byteVals b) = false := fun b => byteVals_plain 0 _
  have r0 : (beside s [lb, lp]).ren ⟨2, []⟩ = lb := ren_two 0 lb rfl
  have r1 : (beside s [lb, lp]).ren ⟨3, []⟩ = lp := ren_two 1 lp rfl
  obtain ⟨M, k1, k2⟩ := carry_ok S hn (ρ := [lb, lp]) (us := [.slice ⟨3, []⟩ 0 pw.length cap, .arr (byteVals pw)])
    (us' := [.slice ⟨3, []⟩ 0 pw.length cap, .arr (byteVals (List.replicate pw.length 0))]) (new := []) G (by simp [hb, hp]) (by simp [d])
    (by simp only [getAll, eb, ep, Emb.renVs, Emb.renV, Emb.renVs_plain _ _ (pl _), r1]) rfl
    (by rw [List.append_nil]; exact zero_run S v0 v1 pw cap s.world)
  simp only [Emb.renVs, Emb.renV, Emb.renVs_plain _ _ (pl _), r0, r1, List.append_nil, List.zip_cons_cons, List.zip_nil_right] at k1 k2
  obtain ⟨m1, c1, k1⟩ := writeAll_cons k1
  obtain ⟨m2, c2, k1⟩ := writeAll_cons k1
  cases k1
  rw [Loc.set_get eb] at c1
  cases c1
  exact ⟨_, c2, k2⟩

end Verif.Src
