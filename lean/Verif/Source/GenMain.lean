/-
The text of `GenerateKey` of signify/key.go compared with the model, on a few blocks of memory and then in any memory.
-/
import Verif.Source.GenText

namespace Verif.Src

variable {ω : Type} (S : Sys ω) (v0 : Val)

/-- `GenerateKey` as the model says, on any system. -/
def keyS (p pw : Bytes) (r : Int) : Act ω Unit := do
  let a ← generateS S pw r
  S.writeFile (p ++ b!".sec") (DataFile.encode ⟨b!"untrusted comment: signify private key", B64.encode a.1.encode⟩) 0o644
  S.writeFile (p ++ b!".pub") (DataFile.encode ⟨b!"untrusted comment: signify public key", B64.encode a.2.encode⟩) 0o644

theorem pair_shape {new : List Val} {j : Nat} {priv : Private} {pub : Public} (hl : new.length = j + 10) (h1 : new[7]? = some (privateVal priv))
    (h2 : new[j + 8]? = some (publicVal pub)) : ∃ pre mid post, new = pairMem j priv pub pre mid post := by
  obtain ⟨a, post, rfl⟩ := pub_shape (i := j + 8) (k := 1) (by omega) h2
  have la : (spread (j + 8) a).length = j + 8 := by simp [spread]
  rw [List.getElem?_append_left (by omega)] at h1
  obtain ⟨pre, mid, e⟩ := pub_shape (new := spread (j + 8) a) (i := 7) (k := j) (by omega) h1
  refine ⟨pre, mid, post, ?_⟩
  rw [e, pairMem, List.append_assoc]

/-- What a caller passes stays what it is in its own memory. -/
def GenArgs.places (us : List Val) : List Loc := (List.range us.length).map fun i => ⟨i + 2, []⟩

theorem GenArgs.at {us : List Val} {v o q : Val} {pw : Bytes} {r : Int} (ha : GenArgs us v pw o q r) (new : List Val) :
    (∀ l ∈ places us, 2 ≤ l.blk) ∧ (places us).Pairwise (fun l m => l.disjoint m = true) ∧ getAll (callerMem v0 us ++ new) (places us) = some us ∧
      ∀ s : St ω, (beside s (places us)).renVs [v, o] = [v, o] := by
  cases ha
  · refine ⟨by simp [places], by simp [places], rfl, fun s => ?_⟩
    simp only [Emb.renVs, Emb.renV]
  · refine ⟨by simp [places], by simp [places], rfl, fun s => ?_⟩
    simp only [Emb.renVs, Emb.renV]
    rw [ren_two 0 ⟨2, []⟩ rfl]
  · refine ⟨by simp [places], by simp [places], rfl, fun s => ?_⟩
    simp only [Emb.renVs, Emb.renV]
    rw [ren_two 0 ⟨2, []⟩ rfl]
  · refine ⟨by simp [places], by simp [places, List.range, List.range.loop, Loc.disjoint], rfl, fun s => ?_⟩
    simp only [Emb.renVs, Emb.renV]
    rw [ren_two 0 ⟨2, []⟩ rfl, ren_two 1 ⟨3, []⟩ rfl]

/-- `GenerateKey(keyPath string, passphrase []byte, opts *GenerateOptions) error`, key.go:470-487. -/
theorem key_text (p0 : v0.refers 2 = false) {us : List Val} {v o q : Val} {pw : Bytes} {r : Int} (ha : GenArgs us v pw o q r) (p : Bytes) (w : ω)
    {n : Nat} (hn : 40 ≤ n) :
    Agrees (keyS S p pw r w) id
      (fun _ w' res => res = .ok [.nil] ⟨callerMem v0 us, us.length + 2, [], w'⟩)
      (fun e w' res => res = .ok [libErr e] ⟨callerMem v0 us, us.length + 2, [], w'⟩)
      ((interp (repo S) n).call id!"signify" key.GenerateKey [.str p, v, o] ⟨callerMem v0 us, us.length + 2, [], w⟩) := by
  have p1 : defaultOpts.refers 2 = false := rfl
  have le := (interpK_le (genK_sound S (n - 20)) 20).trans (interp_mono (.refl (repo S)) (show 20 + (n - 20) ≤ n by omega))
  have cle := le.call id!"signify" key.GenerateKey [.str p, v, o]
  have hn' : 20 ≤ n - 20 := by omega
  have gl : ∀ (new : List Val) (w : ω), Globals (⟨callerMem v0 us ++ new, us.length + 2, [], w⟩ : St ω) v0 defaultOpts := fun new w => ⟨rfl, rfl, p0, p1⟩
  obtain ⟨a1, a2, a3, a4⟩ := ha.at (ω := ω) v0 [.str p, v, o]
  have hG := gen_in S (gl [.str p, v, o] w) ha a1 a2 a3 hn'
  rw [a4] at hG
  unfold keyS
  rw [Act.bind_eq]
  change Ends _ (generateS S pw r w) _ _ _ _ at hG
  rcases hg : generateS S pw r w with ⟨⟨priv, pub⟩ | e | _ | _ | _, w1⟩
  · rw [hg] at hG
    obtain ⟨rs, new, ⟨j, hj, rfl, m1, m2, m3⟩, hG⟩ := hG
    obtain ⟨pre, mid, post, rfl⟩ := pair_shape m1 m2 m3
    have lm : (callerMem v0 us ++ [.str p, v, o]).length = us.length + 5 := by simp [callerMem]
    have lp : (pairMem j priv pub pre mid post).length = j + 10 := m1
    have l1 : (keyMem1 v0 us p v o j priv pub pre mid post).length = us.length + 2 + (16 + j) := by
      simp only [keyMem1, keyMem0, List.length_append, lp, List.length_cons, List.length_nil, callerMem]
      omega
    have l2 : (keyMem2 v0 us p v o j priv pub pre mid post).length = us.length + 2 + (20 + j) := by
      simp only [keyMem2, List.length_append, l1, List.length_cons, List.length_nil]
      omega
    have hG' : callOf S (n - 20) key.GenerateKeypair [v, o] ⟨keyMem0 v0 us p v o, us.length + 2, [], w⟩ =
        .ok [.ptr ⟨us.length + 2 + 10, []⟩, .ptr ⟨us.length + 2 + (11 + j), []⟩, .nil]
          ⟨keyMem0 v0 us p v o ++ pairMem j priv pub pre mid post, us.length + 2, [], w1⟩ := by
      refine hG.trans ?_
      simp only [lm]
      rw [show us.length + 5 + 7 = us.length + 2 + 10 by omega, show us.length + 5 + (8 + j) = us.length + 2 + (11 + j) by omega]
      rfl
    have e1 : keyMem1 v0 us p v o j priv pub pre mid post = callerMem v0 us ++ ([.str p, v, o] ++ pairMem j priv pub pre mid post ++
        [.ptr ⟨us.length + 2 + 10, []⟩, .ptr ⟨us.length + 2 + (11 + j), []⟩, .nil]) := by
      simp only [keyMem1, keyMem0, List.append_assoc]
    have g1 : Globals (⟨keyMem1 v0 us p v o j priv pub pre mid post, us.length + 2, [], w1⟩ : St ω) v0 defaultOpts := by rw [e1]; exact gl _ _
    have lc : (callerMem v0 us).length = us.length + 2 := rfl
    have at' : ∀ (new : List Val) (i : Nat) (x : Val), ([.str p, v, o] ++ pairMem j priv pub pre mid post ++
        [.ptr ⟨us.length + 2 + 10, []⟩, .ptr ⟨us.length + 2 + (11 + j), []⟩, .nil] ++ new)[i]? = some x →
        Loc.get (keyMem1 v0 us p v o j priv pub pre mid post ++ new) ⟨us.length + 2 + i, []⟩ = some x := by
      intro new i x h
      unfold Loc.get
      rw [e1, List.append_assoc, List.getElem?_append_right (by simp only [lc]; omega), lc, show us.length + 2 + i - (us.length + 2) = i by omega, h]
      cases x <;> rfl
    have hP' : callOf S (n - 20) key.Private.encode [.ptr ⟨us.length + 2 + 10, []⟩] ⟨keyMem1 v0 us p v o j priv pub pre mid post, us.length + 2, [], w1⟩ =
        .ok [.slice ⟨us.length + 2 + (19 + j), []⟩ 0 104 (byteVals priv.encode).length]
          ⟨keyMem2 v0 us p v o j priv pub pre mid post, us.length + 2, [], w1⟩ := by
      have g := at' [] 10 (privateVal priv) (by
        rcases hj with rfl | rfl <;> rfl)
      rw [List.append_nil] at g
      refine (encPriv_in S g1 (l := ⟨us.length + 2 + 10, []⟩) (by simp only; omega) g hn').trans ?_
      simp only [l1]
      rw [show us.length + 2 + (16 + j) + 3 = us.length + 2 + (19 + j) by omega, show us.length + 2 + (16 + j) + 1 = us.length + 2 + (17 + j) by omega]
      rfl
    have g2 : ∀ w, Globals (⟨keyMem2 v0 us p v o j priv pub pre mid post, us.length + 2, [], w⟩ : St ω) v0 defaultOpts := by
      intro w
      unfold keyMem2
      rw [e1, List.append_assoc]
      exact gl _ _
    have hw1 := writeData_in S (g2 w1) (l := ⟨us.length + 2 + (19 + j), []⟩) (by simp only; omega) (p ++ b!".sec") b!"untrusted comment: signify private key"
      (data := priv.encode) (at' _ _ _ (by rcases hj with rfl | rfl <;> rfl)) (byteVals priv.encode).length hn'
    rw [show priv.encode.length = 104 by simp [Private.encode, be32]] at hw1
    simp only
    rw [Act.bind_eq]
    change Ends [] (S.writeFile _ _ _ w1) _ _ _ _ at hw1
    rcases hx : S.writeFile (p ++ b!".sec") (DataFile.encode ⟨b!"untrusted comment: signify private key", B64.encode priv.encode⟩) 0o644 w1
      with ⟨_ | e | _ | _ | _, w2⟩
    · rw [hx] at hw1
      simp only
      have hQ' : callOf S (n - 20) key.Public.encode [.ptr ⟨us.length + 2 + (11 + j), []⟩] ⟨keyMem2 v0 us p v o j priv pub pre mid post, us.length + 2, [], w2⟩ =
          .ok [.slice ⟨us.length + 2 + (23 + j), []⟩ 0 42 (byteVals pub.encode).length]
            ⟨keyMem3 v0 us p v o j priv pub pre mid post, us.length + 2, [], w2⟩ := by
        refine (encPub_in S (g2 w2) (l := ⟨us.length + 2 + (11 + j), []⟩) (by simp only; omega)
          (at' _ _ (publicVal pub) (by rcases hj with rfl | rfl <;> rfl)) hn').trans ?_
        simp only [l2]
        rw [show us.length + 2 + (20 + j) + 3 = us.length + 2 + (23 + j) by omega, show us.length + 2 + (20 + j) + 1 = us.length + 2 + (21 + j) by omega]
        rfl
      have g3 : Globals (⟨keyMem3 v0 us p v o j priv pub pre mid post, us.length + 2, [], w2⟩ : St ω) v0 defaultOpts := by
        unfold keyMem3 keyMem2
        rw [e1, List.append_assoc, List.append_assoc]
        exact gl _ _
      have e3 : keyMem3 v0 us p v o j priv pub pre mid post = keyMem1 v0 us p v o j priv pub pre mid post ++
          ([.ptr ⟨us.length + 2 + 10, []⟩, .str priv.encode, .ptr ⟨us.length + 2 + (17 + j), []⟩, .arr (byteVals priv.encode)] ++
          [.ptr ⟨us.length + 2 + (11 + j), []⟩, .str pub.encode, .ptr ⟨us.length + 2 + (21 + j), []⟩, .arr (byteVals pub.encode)]) := by
        unfold keyMem3 keyMem2
        rw [List.append_assoc]
      have hw2 := writeData_in S g3 (l := ⟨us.length + 2 + (23 + j), []⟩) (by simp only; omega) (p ++ b!".pub") b!"untrusted comment: signify public key"
        (data := pub.encode) (by simp only [e3]; exact at' _ _ _ (by rcases hj with rfl | rfl <;> rfl)) (byteVals pub.encode).length hn'
      rw [show pub.encode.length = 42 by simp [Public.encode]] at hw2
      change Ends [] (S.writeFile _ _ _ w2) _ _ _ _ at hw2
      rcases hy : S.writeFile (p ++ b!".pub") (DataFile.encode ⟨b!"untrusted comment: signify public key", B64.encode pub.encode⟩) 0o644 w2
        with ⟨_ | e | _ | _ | _, w3⟩
      · rw [hy] at hw2
        exact le_ok cle (key3_ok S v0 _ _ _ _ ha hj hG' hP' hw1 hQ' hw2)
      · rw [hy] at hw2
        exact le_ok cle (key3_err S v0 _ _ _ _ ha hj hG' hP' hw1 hQ' hw2)
      · rw [hy] at hw2
        obtain ⟨t, k1, k2, k3⟩ := hw2
        obtain ⟨mem, b, df, w'⟩ := t
        cases k2
        cases k3
        obtain ⟨t, c1, c2, c3⟩ := key3_panic S v0 _ _ _ _ ha hj hG' hP' hw1 hQ' k1
        exact ⟨t, le_panic cle c1, c2, c3⟩
      · rw [hy] at hw2
        obtain ⟨t, k1, k2⟩ := hw2
        obtain ⟨mem, b, df, w'⟩ := t
        cases k2
        obtain ⟨t, c1, c2⟩ := key3_crash S v0 _ _ _ _ ha hj hG' hP' hw1 hQ' k1
        exact ⟨t, le_crash cle c1, c2⟩
      · trivial
    · rw [hx] at hw1
      exact le_ok cle (key2_err S v0 _ _ _ _ ha hj hG' hP' hw1)
    · rw [hx] at hw1
      obtain ⟨t, k1, k2, k3⟩ := hw1
      obtain ⟨mem, b, df, w'⟩ := t
      cases k2
      cases k3
      obtain ⟨t, c1, c2, c3⟩ := key2_panic S v0 _ _ _ _ ha hj hG' hP' k1
      exact ⟨t, le_panic cle c1, c2, c3⟩
    · rw [hx] at hw1
      obtain ⟨t, k1, k2⟩ := hw1
      obtain ⟨mem, b, df, w'⟩ := t
      cases k2
      obtain ⟨t, c1, c2⟩ := key2_crash S v0 _ _ _ _ ha hj hG' hP' k1
      exact ⟨t, le_crash cle c1, c2⟩
    · trivial
  · rw [hg] at hG
    exact le_ok cle (key1_err S v0 _ _ _ _ ha hG)
  · rw [hg] at hG
    obtain ⟨t, k1, k2, k3⟩ := hG
    obtain ⟨mem, b, df, w'⟩ := t
    cases k2
    cases k3
    obtain ⟨t, c1, c2, c3⟩ := key1_panic S v0 _ _ _ _ ha k1
    exact ⟨t, le_panic cle c1, c2, c3⟩
  · rw [hg] at hG
    obtain ⟨t, k1, k2⟩ := hG
    obtain ⟨mem, b, df, w'⟩ := t
    cases k2
    obtain ⟨t, c1, c2⟩ := key1_crash S v0 _ _ _ _ ha k1
    exact ⟨t, le_crash cle c1, c2⟩
  · trivial

/-- The same in any memory. -/
theorem key_in {s : St ω} {v0 : Val} (G : Globals s v0 defaultOpts) {us : List Val} {v o q : Val} {pw : Bytes} {r : Int} (ha : GenArgs us v pw o q r)
    {ρ : List Loc} (own : ∀ l ∈ ρ, 2 ≤ l.blk) (apart : ρ.Pairwise fun l m => l.disjoint m = true) (get : getAll s.mem ρ = some us) (p : Bytes)
    {n : Nat} (hn : 40 ≤ n) :
    Ends s.defers (keyS S p pw r s.world) id
      (fun _ t res => res = .ok [.nil] ⟨s.mem, s.base, s.defers, t⟩)
      (fun e t res => res = .ok [libErr e] ⟨s.mem, s.base, s.defers, t⟩)
      ((interp (repo S) n).call id!"signify" key.GenerateKey ((beside s ρ).renVs [.str p, v, o]) s) := by
  have c := carry_keep S hn (ρ := ρ) (us := us) (Q := fun _ rs new => rs = [.nil] ∧ new = []) (Q' := fun e rs new => rs = [libErr e] ∧ new = [])
    G own apart (by rw [get, Emb.renVs_plain _ _ ha.plain]) ((key_text S v0 G.plain0 ha p s.world (Nat.le_refl 40)).mono
      (fun _ w' h => ⟨_, [], ⟨rfl, rfl⟩, by rw [List.append_nil]; exact h⟩) (fun e w' h => ⟨_, [], ⟨rfl, rfl⟩, by rw [List.append_nil]; exact h⟩))
  refine c.mono ?_ ?_
  · rintro a t ⟨rs, new, ⟨rfl, rfl⟩, k⟩
    refine k.trans ?_
    simp only [Emb.renVs, Emb.renV, List.append_nil]
    rfl
  · rintro e t ⟨rs, new, ⟨rfl, rfl⟩, k⟩
    refine k.trans ?_
    simp only [Emb.renVs, List.append_nil]
    rfl

end Verif.Src
