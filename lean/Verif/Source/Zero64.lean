/-
The text of `zero64` of signify/common.go compared with the model.
-/
import Verif.Source.ZeroRun

namespace Verif.Src

variable {ω : Type} (S : Sys ω) (v0 v1 : Val)

/-- The body of the loop. -/
noncomputable def wipeLoop : List Stmt := (Stmt.rangeParts common.zero64.body[1]?).2.2.2

/-- What is in scope in the loop. -/
def wipeCtx : Ctx := ⟨id!"signify", [(id!"i", .var ⟨4, []⟩), (0, .val .nil), (id!"buf", .var ⟨3, []⟩)]⟩

/-- Memory in the loop. -/
def wipeMem (vs : List Val) (iv : Val) : List Val := [v0, v1, .arr vs, .ptr ⟨2, []⟩, iv]

theorem wipe_step {vs us : List Val} {i : Nat} {iv : Val} (hv : iv = .nil ∨ ∃ z, iv = .int .int z) (w : ω) (hi : i < vs.length) {x : UInt8}
    (hx : vs[i]? = some (byteVal x)) :
    rangeStep (interp (repo S) 18) wipeCtx wipeLoop (.vals us) (some ⟨4, []⟩) none i ⟨wipeMem v0 v1 vs iv, 3, [], w⟩ =
      .ok .next ⟨wipeMem v0 v1 (vs.set i (byteVal 0)) (.int .int i), 3, [], w⟩ := by
  have h1 : (i : Int) < vs.length := by omega
  have h2 : (0 : Int) ≤ i := by omega
  have hx' : vs[i]? = some (.int .uint8 (x.toNat : Int)) := hx
  have e : vs.set i (byteVal 0) = vs.set (i : Int).toNat (.int .uint8 (ITy.uint8.bitwise (· ^^^ ·) x.toNat x.toNat)) := by
    have : ITy.uint8.bitwise (· ^^^ ·) x.toNat x.toNat = ((x ^^^ x).toNat : Int) := EdSrc.xor8_eq x x
    rw [this, Int.toNat_natCast, UInt8.xor_self]
  rw [e]
  rcases hv with rfl | ⟨z, rfl⟩
  · seval [h1, h2, hx']
  · seval [h1, h2, hx']

theorem wipe_loop (us : List Val) (w : ω) (n k : Nat) : ∀ (i : Nat) (rest : Bytes) (iv : Val), (iv = .nil ∨ ∃ z, iv = .int .int z) → i + k = n → rest.length = k →
    ∃ iv', rangeLoop (interp (repo S) 18) wipeCtx wipeLoop (.vals us) (some ⟨4, []⟩) none k i
        ⟨wipeMem v0 v1 (byteVals (List.replicate i 0 ++ rest)) iv, 3, [], w⟩ =
      .ok .next ⟨wipeMem v0 v1 (byteVals (List.replicate n 0)) iv', 3, [], w⟩ := by
  induction k with
  | zero =>
    rintro i rest iv hv rfl hr
    cases List.length_eq_zero_iff.1 hr
    exact ⟨iv, by rw [List.append_nil]; rfl⟩
  | succ k ih =>
    intro i rest iv hv hi hr
    obtain ⟨x, rest, rfl⟩ := List.exists_cons_of_length_eq_add_one hr
    have hx : (byteVals (List.replicate i 0 ++ x :: rest))[i]? = some (byteVal x) := by
      simp [byteVals]
    have hs : (byteVals (List.replicate i 0 ++ x :: rest)).set i (byteVal 0) = byteVals (List.replicate (i + 1) 0 ++ rest) := by
      simp only [byteVals]
      rw [← List.map_set, List.set_append_right _ _ (by simp), List.replicate_succ', List.append_assoc]
      simp
    obtain ⟨iv', e⟩ := ih (i + 1) rest (.int .int i) (.inr ⟨_, rfl⟩) (by omega) (by simpa using hr)
    refine ⟨iv', ?_⟩
    rw [range_succ, wipe_step S v0 v1 hv w (by simp [byteVals_length]) hx, hs]
    exact e

/-- `zero64(buf *[64]byte)`, common.go:72-80. -/
theorem wipe_run (bs : Bytes) (w : ω) :
    (interp (repo S) 20).call id!"signify" common.zero64 [.ptr ⟨2, []⟩] ⟨v0 :: v1 :: [.arr (byteVals bs)], 3, [], w⟩ =
      .ok [] ⟨v0 :: v1 :: [.arr (byteVals (List.replicate bs.length 0))], 3, [], w⟩ := by
  obtain ⟨iv', e⟩ := wipe_loop S v0 v1 (byteVals bs) w bs.length bs.length 0 bs .nil (.inl rfl) (by omega) rfl
  rw [List.replicate_zero, List.nil_append, ← byteVals_length bs] at e
  rw [← byteVals_length bs]
  generalize byteVals (List.replicate (byteVals bs).length 0) = us at *
  generalize byteVals bs = vs at *
  rw [call_range (n := 18) 1 (by seval []) (by seval []) (by krfl) (by seval []) e]
  seval []

/-- The same in any memory. -/
theorem wipe_in {s : St ω} {v0 v1 : Val} (G : Globals s v0 v1) {l : Loc} (hl : 2 ≤ l.blk) {bs : Bytes} (E : l.get s.mem = some (.arr (byteVals bs)))
    {n : Nat} (hn : 20 ≤ n) :
    ∃ m, l.set s.mem (.arr (byteVals (List.replicate bs.length 0))) = some m ∧
      (interp (repo S) n).call id!"signify" common.zero64 [.ptr l] s = .ok [] { s with mem := m } := by
  have pl : ∀ b : Bytes, Val.anyRefers 0 (byteVals b) = false := fun b => byteVals_plain 0 _
  have r0 : (beside s [l]).ren ⟨2, []⟩ = l := ren_two 0 l rfl
  obtain ⟨M, k1, k2⟩ := carry_ok S hn (ρ := [l]) (us := [.arr (byteVals bs)])
    (us' := [.arr (byteVals (List.replicate bs.length 0))]) (new := []) G (by simp [hl]) (by simp)
    (by simp only [getAll, E, Emb.renVs, Emb.renV, Emb.renVs_plain _ _ (pl _)]) rfl
    (by rw [List.append_nil]; exact wipe_run S v0 v1 bs s.world)
  simp only [Emb.renVs, Emb.renV, Emb.renVs_plain _ _ (pl _), r0, List.append_nil, List.zip_cons_cons, List.zip_nil_right] at k1 k2
  obtain ⟨m1, c1, k1⟩ := writeAll_cons k1
  cases k1
  exact ⟨_, c1, k2⟩

end Verif.Src
