/-
The text of `Public.ToBox` of signify/key.go run on a few blocks of memory, then in any memory.
-/
import Verif.Source.CryptoNonce

namespace Verif.Src

variable {ω : Type} (S : Sys ω) (v0 v1 : Val)

/-- A public key in memory. -/
def publicVal (pub : Public) : Val :=
  .struct id!"Public" [(id!"keyAlgo", encArr pub.keyAlgo), (id!"keyNum", encArr pub.keyNum), (id!"key", encArr pub.key)]

theorem publicVal_plain (pub : Public) (k : Nat) : (publicVal pub).refers k = false := by
  refine Val.refers_mono (Nat.zero_le k) _ ?_
  simp [publicVal, Val.refers, Val.fieldRefers, Emb.encArr_plain]

theorem toBox_run (hS : S.ed = edFns) (pub : Public) (w : ω) :
    Agrees (pub.toBox, w) id
      (fun a w' r => ∃ new : List Val, new.length = 8 ∧ new[7]? = some (encArr a) ∧ Val.anyRefers 11 new = false ∧
        r = .ok [.ptr ⟨10, []⟩, .nil] ⟨[v0, v1, publicVal pub] ++ new, 3, [], w'⟩)
      (fun e w' r => r = .ok [.nil, errVal e] ⟨[v0, v1, publicVal pub], 3, [], w'⟩)
      ((interp (repo S) 20).call id!"signify" key.Public.ToBox [.ptr ⟨2, []⟩] ⟨[v0, v1, publicVal pub], 3, [], w⟩) := by
  have hf : S.ed.fromBytes = Ed.extFromBytes := by rw [hS]; rfl
  rcases hA : S.ed.fromBytes pub.key with _ | A
  · refine Agrees.of (o' := (.err .invalidPublicKey, w)) ?_ (by seval [hA]) rfl
    rw [Public.toBox, Public.toBoxBytes, ← hf, hA]
    rfl
  · refine Agrees.of (o' := (.ok (S.ed.toBytes (S.ed.mul (S.ed.add Ed.feOne A.Y) (S.ed.invert (S.ed.sub Ed.feOne A.Y)))).1, w)) ?_ rfl ?_
    · rw [Public.toBox, Public.toBoxBytes, ← hf, hA, hS]
      rfl
    · refine ⟨[_, _, _, _, _, _, _, _], rfl, rfl, ?_, by seval [hA]⟩
      rfl

theorem beside_valid {s : St ω} {v0 v1 : Val} (G : Globals s v0 v1) {ρ : List Loc} (own : ∀ l ∈ ρ, 2 ≤ l.blk)
    (apart : ρ.Pairwise fun l m => l.disjoint m = true) (get : ∀ l ∈ ρ, ∃ v, l.get s.mem = some v) : (beside s ρ).Valid := by
  refine ⟨fun l hl => ?_, ?_⟩
  · rcases List.mem_cons.1 hl with rfl | hl
    · exact ⟨v0, by rw [Loc.get_eq, G.first]; rfl⟩
    · rcases List.mem_cons.1 hl with rfl | hl
      · exact ⟨v1, by rw [Loc.get_eq, G.second]; rfl⟩
      · exact get l hl
  · refine List.pairwise_cons.2 ⟨fun l hl => ?_, List.pairwise_cons.2 ⟨fun l hl => ?_, apart⟩⟩
    · rcases List.mem_cons.1 hl with rfl | hl
      · rfl
      · exact Loc.disjoint_iff.2 (.inl (by have := own l hl; simp only; omega))
    · exact Loc.disjoint_iff.2 (.inl (by have := own l hl; simp only; omega))

/-- `(pub *Public) ToBox() (*[32]byte, error)`, key.go:316-338. -/
theorem toBox_in (hS : S.ed = edFns) {s : St ω} {v0 v1 : Val} (G : Globals s v0 v1) {l : Loc} (hl : 2 ≤ l.blk) {pub : Public}
    (E : l.get s.mem = some (publicVal pub)) {n : Nat} (hn : 20 ≤ n) :
    match pub.toBox with
    | .ok a => ∃ new : List Val, new.length = 8 ∧ new[7]? = some (encArr a) ∧ Val.anyRefers (s.mem.length + 8) new = false ∧
        (interp (repo S) n).call id!"signify" key.Public.ToBox [.ptr l] s =
          .ok [.ptr ⟨s.mem.length + 7, []⟩, .nil] { s with mem := s.mem ++ new }
    | .err e => (interp (repo S) n).call id!"signify" key.Public.ToBox [.ptr l] s = .ok [.nil, errVal e] s
    | _ => True := by
  have c := carry S hn (ρ := [l]) (us := [publicVal pub]) G (by simp [hl]) (by simp)
    (by simp only [getAll, E, Emb.renVs, Emb.renV_plain _ _ (publicVal_plain pub 0)])
    (toBox_run S v0 v1 hS pub s.world)
  have ea : (beside s [l]).renVs [.ptr ⟨2, []⟩] = [.ptr l] := by simp only [Emb.renVs, Emb.renV]; rw [ren_two 0 l rfl]
  rw [ea] at c
  generalize pub.toBox = o at c
  rcases o with a | e | _ | _ | _
  · obtain ⟨r0, ⟨new, h1, h2, h3, rfl⟩, k⟩ := c
    obtain ⟨m, k1, k2⟩ := k _ [publicVal pub] new _ _ _ rfl rfl
    simp only [Emb.renVs, List.zip_cons_cons, List.zip_nil_right, Emb.renV_plain _ _ (publicVal_plain pub 0)] at k1
    rw [writeAll, Loc.set_get E] at k1
    cases k1
    refine ⟨(beside s [l]).renVs new, by rw [Emb.renVs_length, h1], ?_, ?_, ?_⟩
    · rw [Emb.renVs_eq, List.getElem?_map, h2, Option.map_some, Emb.renV_encArr']
    · have v := beside_valid G (ρ := [l]) (by simp [hl]) (by simp) (by simp [E])
      rw [← h3]
      exact Emb.renVs_refers (fun m => Emb.ren_lt v (b := 11) (by simp)) new
    · rw [k2]
      simp only [Emb.renVs, Emb.renV]
      rfl
  · obtain ⟨r0, rfl, k⟩ := c
    obtain ⟨m, k1, k2⟩ := k _ [publicVal pub] [] _ _ _ rfl rfl
    simp only [Emb.renVs, List.zip_cons_cons, List.zip_nil_right, Emb.renV_plain _ _ (publicVal_plain pub 0)] at k1
    rw [writeAll, Loc.set_get E] at k1
    cases k1
    show _ = _
    rw [k2]
    simp only [Emb.renVs, Emb.renV, List.append_nil]
    cases e <;> rfl
  · trivial
  · trivial
  · trivial

end Verif.Src
