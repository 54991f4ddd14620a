/-
The text of `Verify` of signify/key.go compared with the model.
-/
import Verif.Source.VerifyRun

namespace Verif.Src

variable {ω : Type} (S : Sys ω) (v0 v1 : Val)

/-- Summaries of what `Verify` calls. -/
def verifyK (FL FS FV : List Val → M ω (List Val)) : Known ω :=
  knownK [(id!"signify", id!"LoadPublicKey", FL), (id!"signify", id!"readSignaturePath", FS)] [(id!"Public", id!"verify", FV)]

theorem verifyK_sound (k : Nat) :
    (verifyK (callOf S k key.LoadPublicKey) (callOf S k signature.readSignaturePath) (callOf S k key.Public.verify)).Sound (repo S) k := by
  refine knownK_sound ?_ ?_
  · intro t ht
    rcases List.mem_cons.1 ht with rfl | h
    · exact func_sound S (by krfl)
    rcases List.mem_cons.1 h with rfl | h
    · exact func_sound S (by krfl)
    · cases h
  · intro t ht
    rcases List.mem_cons.1 ht with rfl | h
    · exact ⟨id!"signify", key.Public.verify, by krfl, fun _ => .refl _⟩
    · cases h

/-- The path of the signature. -/
def SigPath (m s s' : Bytes) : Prop := (s = [] ∧ s' = m ++ b!".sig") ∨ (¬s = [] ∧ s' = s)

/-- Memory at the start of `Verify`, once the path of the signature is known. -/
def startMem (p m s : Bytes) : List Val := [v0, v1, .str p, .str m, .str s]

/-- What `LoadPublicKey` adds. -/
def pubMem (pub : Public) (pre post : List Val) : List Val := spread 18 pre ++ publicVal pub :: spread 2 post

/-- What `readSignaturePath` adds. -/
def sigMem (sig : Signature) (pre post : List Val) : List Val := spread 18 pre ++ signatureVal sig :: spread 1 post

/-- What is added in between. -/
def msgMem (msg : Bytes) : List Val := [.ptr ⟨23, []⟩, .nil, .arr (byteVals msg), .slice ⟨28, []⟩ 0 msg.length (byteVals msg).length]

/-- A run of `Verify`. -/
noncomputable abbrev verifying (FL FS FV : List Val → M ω (List Val)) (p m s : Bytes) (w : ω) : R ω (List Val) :=
  (interpK (repo S) (verifyK FL FS FV) 20).call id!"signify" key.Verify [.str p, .str m, .str s] ⟨[v0, v1], 2, [], w⟩

section
variable (FL FS FV : List Val → M ω (List Val)) {p m s s' : Bytes} {w w1 w2 w3 w4 : ω} (hs : SigPath m s s')
include hs

theorem verify1_err {x : EVal}  (h : FL [.str p] ⟨startMem v0 v1 p m s', 2, [], w⟩ = .ok [.nil, .err x] ⟨startMem v0 v1 p m s', 2, [], w1⟩) :
    verifying S v0 v1 FL FS FV p m s w = .ok [.err x] ⟨[v0, v1], 2, [], w1⟩ := by
  unfold startMem at *
  rcases hs with ⟨hs, rfl⟩ | ⟨hs, rfl⟩
  · seval [hs, h]
  · seval [hs, h]

theorem verify1_panic {l : List Val} {b : Nat}  (h : FL [.str p] ⟨startMem v0 v1 p m s', 2, [], w⟩ = .panic ⟨l, b, [], w1⟩) :
    ∃ t, verifying S v0 v1 FL FS FV p m s w = .panic t ∧ t.world = w1 ∧ t.defers = [] := by
  unfold startMem at *
  rcases hs with ⟨hs, rfl⟩ | ⟨hs, rfl⟩
  · exact ⟨_, by seval [hs, h], rfl, rfl⟩
  · exact ⟨_, by seval [hs, h], rfl, rfl⟩

theorem verify1_crash {l : List Val} {b : Nat} {df : List Deferred}  (h : FL [.str p] ⟨startMem v0 v1 p m s', 2, [], w⟩ = .crash ⟨l, b, df, w1⟩) :
    ∃ t', verifying S v0 v1 FL FS FV p m s w = .crash t' ∧ t'.world = w1 := by
  unfold startMem at *
  rcases hs with ⟨hs, rfl⟩ | ⟨hs, rfl⟩
  · exact ⟨_, by seval [hs, h], rfl⟩
  · exact ⟨_, by seval [hs, h], rfl⟩

theorem verify2_err {e : GoErr} {pub : Public} {a b' : List Val} (hL : FL [.str p] ⟨startMem v0 v1 p m s', 2, [], w⟩ =
      .ok [.ptr ⟨23, []⟩, .nil] ⟨startMem v0 v1 p m s' ++ pubMem pub a b', 2, [], w1⟩) (h : S.readFile m w1 = (.err e, w2)) :
    verifying S v0 v1 FL FS FV p m s w = .ok [libErr e] ⟨[v0, v1], 2, [], w2⟩ := by
  unfold startMem at *
  rcases hs with ⟨hs, rfl⟩ | ⟨hs, rfl⟩
  · seval [hs, hL, h]
  · seval [hs, hL, h]

theorem verify2_panic {pub : Public} {a b' : List Val} (hL : FL [.str p] ⟨startMem v0 v1 p m s', 2, [], w⟩ =
      .ok [.ptr ⟨23, []⟩, .nil] ⟨startMem v0 v1 p m s' ++ pubMem pub a b', 2, [], w1⟩) (h : S.readFile m w1 = (.panic, w2)) :
    ∃ t, verifying S v0 v1 FL FS FV p m s w = .panic t ∧ t.world = w2 ∧ t.defers = [] := by
  unfold startMem at *
  rcases hs with ⟨hs, rfl⟩ | ⟨hs, rfl⟩
  · exact ⟨_, by seval [hs, hL, h], rfl, rfl⟩
  · exact ⟨_, by seval [hs, hL, h], rfl, rfl⟩

theorem verify2_crash {pub : Public} {a b' : List Val} (hL : FL [.str p] ⟨startMem v0 v1 p m s', 2, [], w⟩ =
      .ok [.ptr ⟨23, []⟩, .nil] ⟨startMem v0 v1 p m s' ++ pubMem pub a b', 2, [], w1⟩) (h : S.readFile m w1 = (.crash, w2)) :
    ∃ t, verifying S v0 v1 FL FS FV p m s w = .crash t ∧ t.world = w2 := by
  unfold startMem at *
  rcases hs with ⟨hs, rfl⟩ | ⟨hs, rfl⟩
  · exact ⟨_, by seval [hs, hL, h], rfl⟩
  · exact ⟨_, by seval [hs, hL, h], rfl⟩

theorem verify3_err {x : EVal} {pub : Public} {a b' : List Val} (hL : FL [.str p] ⟨startMem v0 v1 p m s', 2, [], w⟩ =
      .ok [.ptr ⟨23, []⟩, .nil] ⟨startMem v0 v1 p m s' ++ pubMem pub a b', 2, [], w1⟩) {msg : Bytes} (hR : S.readFile m w1 = (.ok msg, w2)) (h : FS [.str s'] ⟨startMem v0 v1 p m s' ++ pubMem pub a b' ++ msgMem msg, 2, [], w2⟩ = .ok [.nil, .err x] ⟨startMem v0 v1 p m s' ++ pubMem pub a b' ++ msgMem msg, 2, [], w3⟩) :
    verifying S v0 v1 FL FS FV p m s w = .ok [.err x] ⟨[v0, v1], 2, [], w3⟩ := by
  unfold startMem at *
  rcases hs with ⟨hs, rfl⟩ | ⟨hs, rfl⟩
  · seval [hs, hL, hR, h]
  · seval [hs, hL, hR, h]

theorem verify3_panic {l : List Val} {b : Nat} {pub : Public} {a b' : List Val} (hL : FL [.str p] ⟨startMem v0 v1 p m s', 2, [], w⟩ =
      .ok [.ptr ⟨23, []⟩, .nil] ⟨startMem v0 v1 p m s' ++ pubMem pub a b', 2, [], w1⟩) {msg : Bytes} (hR : S.readFile m w1 = (.ok msg, w2)) (h : FS [.str s'] ⟨startMem v0 v1 p m s' ++ pubMem pub a b' ++ msgMem msg, 2, [], w2⟩ = .panic ⟨l, b, [], w3⟩) :
    ∃ t, verifying S v0 v1 FL FS FV p m s w = .panic t ∧ t.world = w3 ∧ t.defers = [] := by
  unfold startMem at *
  rcases hs with ⟨hs, rfl⟩ | ⟨hs, rfl⟩
  · exact ⟨_, by seval [hs, hL, hR, h], rfl, rfl⟩
  · exact ⟨_, by seval [hs, hL, hR, h], rfl, rfl⟩

theorem verify3_crash {l : List Val} {b : Nat} {df : List Deferred} {pub : Public} {a b' : List Val} (hL : FL [.str p] ⟨startMem v0 v1 p m s', 2, [], w⟩ =
      .ok [.ptr ⟨23, []⟩, .nil] ⟨startMem v0 v1 p m s' ++ pubMem pub a b', 2, [], w1⟩) {msg : Bytes} (hR : S.readFile m w1 = (.ok msg, w2)) (h : FS [.str s'] ⟨startMem v0 v1 p m s' ++ pubMem pub a b' ++ msgMem msg, 2, [], w2⟩ = .crash ⟨l, b, df, w3⟩) :
    ∃ t', verifying S v0 v1 FL FS FV p m s w = .crash t' ∧ t'.world = w3 := by
  unfold startMem at *
  rcases hs with ⟨hs, rfl⟩ | ⟨hs, rfl⟩
  · exact ⟨_, by seval [hs, hL, hR, h], rfl⟩
  · exact ⟨_, by seval [hs, hL, hR, h], rfl⟩

theorem verify4_err {x : EVal} {pub : Public} {a b' : List Val} (hL : FL [.str p] ⟨startMem v0 v1 p m s', 2, [], w⟩ =
      .ok [.ptr ⟨23, []⟩, .nil] ⟨startMem v0 v1 p m s' ++ pubMem pub a b', 2, [], w1⟩) {msg : Bytes} (hR : S.readFile m w1 = (.ok msg, w2)) {sig : Signature} {c d : List Val} (hS : FS [.str s'] ⟨startMem v0 v1 p m s' ++ pubMem pub a b' ++ msgMem msg, 2, [], w2⟩ = .ok [.ptr ⟨48, []⟩, .nil] ⟨startMem v0 v1 p m s' ++ pubMem pub a b' ++ msgMem msg ++ sigMem sig c d, 2, [], w3⟩) (h : FV [.ptr ⟨23, []⟩, .slice ⟨28, []⟩ 0 msg.length (byteVals msg).length, .ptr ⟨48, []⟩] ⟨startMem v0 v1 p m s' ++ pubMem pub a b' ++ msgMem msg ++ sigMem sig c d ++ [.ptr ⟨48, []⟩], 2, [], w3⟩ = .ok [.err x] ⟨startMem v0 v1 p m s' ++ pubMem pub a b' ++ msgMem msg ++ sigMem sig c d ++ [.ptr ⟨48, []⟩], 2, [], w4⟩) :
    verifying S v0 v1 FL FS FV p m s w = .ok [.err x] ⟨[v0, v1], 2, [], w4⟩ := by
  unfold startMem at *
  rcases hs with ⟨hs, rfl⟩ | ⟨hs, rfl⟩
  · seval [hs, hL, hR, hS, h]
  · seval [hs, hL, hR, hS, h]

theorem verify4_ok {pub : Public} {a b' : List Val} (hL : FL [.str p] ⟨startMem v0 v1 p m s', 2, [], w⟩ =
      .ok [.ptr ⟨23, []⟩, .nil] ⟨startMem v0 v1 p m s' ++ pubMem pub a b', 2, [], w1⟩) {msg : Bytes} (hR : S.readFile m w1 = (.ok msg, w2)) {sig : Signature} {c d : List Val} (hS : FS [.str s'] ⟨startMem v0 v1 p m s' ++ pubMem pub a b' ++ msgMem msg, 2, [], w2⟩ = .ok [.ptr ⟨48, []⟩, .nil] ⟨startMem v0 v1 p m s' ++ pubMem pub a b' ++ msgMem msg ++ sigMem sig c d, 2, [], w3⟩) (h : FV [.ptr ⟨23, []⟩, .slice ⟨28, []⟩ 0 msg.length (byteVals msg).length, .ptr ⟨48, []⟩] ⟨startMem v0 v1 p m s' ++ pubMem pub a b' ++ msgMem msg ++ sigMem sig c d ++ [.ptr ⟨48, []⟩], 2, [], w3⟩ = .ok [.nil] ⟨startMem v0 v1 p m s' ++ pubMem pub a b' ++ msgMem msg ++ sigMem sig c d ++ [.ptr ⟨48, []⟩], 2, [], w4⟩) :
    verifying S v0 v1 FL FS FV p m s w = .ok [.nil] ⟨[v0, v1], 2, [], w4⟩ := by
  unfold startMem at *
  rcases hs with ⟨hs, rfl⟩ | ⟨hs, rfl⟩
  · seval [hs, hL, hR, hS, h]
  · seval [hs, hL, hR, hS, h]

end

/-- `Verify` as the model says, on any system. -/
def verifyWith (p m s : Bytes) : Act ω Unit := do
  let s' := if s = [] then m ++ b!".sig" else s
  let pub ← loadWith S readPublicKeyData p
  let msg ← S.readFile m
  let sig ← loadWith S readSignatureData s'
  Act.ofRes (pub.verify S.prims msg sig)

/-- Fuel for reading a file. -/
def fuelFor (o : Res Bytes × ω) : Nat := match o with
  | (.ok data, _) => data.length + 43
  | _ => 43

theorem fuelFor_ge (o : Res Bytes × ω) : 43 ≤ fuelFor o := by
  unfold fuelFor
  split <;> omega

theorem fuelFor_ok {o : Res Bytes × ω} {n : Nat} (h : fuelFor o ≤ n) : ∀ data w1, o = (.ok data, w1) → data.length + 43 ≤ n := by
  rintro data w1 rfl
  exact h

theorem pub_shape {new : List Val} {k i : Nat} {x : Val} (hl : new.length = i + 1 + k) (hi : new[i]? = some x) :
    ∃ pre post, new = spread i pre ++ x :: spread k post := by
  refine ⟨new.take i, new.drop (i + 1), ?_⟩
  rw [spread_eq (by simp; omega), spread_eq (by simp; omega)]
  have h : i < new.length := by omega
  rw [List.getElem?_eq_getElem h] at hi
  cases hi
  rw [List.getElem_cons_drop, List.take_append_drop]

/-- Fuel for a run of `Verify`. -/
def verifyFuel (p m s : Bytes) (w : ω) : Nat :=
  let s' := if s = [] then m ++ b!".sig" else s
  let a := fuelFor (S.readFile p w)
  match loadWith S readPublicKeyData p w with
  | (.ok _, w1) => match S.readFile m w1 with
    | (.ok _, w2) => max a (fuelFor (S.readFile s' w2)) + 20
    | _ => a + 20
  | _ => a + 20

/-- `Verify(publicPath, messagePath, signaturePath string) error`, key.go:377-404. -/
theorem verify_text (p0 : v0.refers 2 = false) (p1 : v1.refers 2 = false) (p m s : Bytes) (w : ω) {n : Nat} (hn : verifyFuel S p m s w ≤ n) :
    Agrees (verifyWith S p m s w) id
      (fun _ w' r => r = .ok [.nil] ⟨[v0, v1], 2, [], w'⟩)
      (fun e w' r => ∃ v, Says e v ∧ r = .ok [v] ⟨[v0, v1], 2, [], w'⟩)
      ((interp (repo S) n).call id!"signify" key.Verify [.str p, .str m, .str s] ⟨[v0, v1], 2, [], w⟩) := by
  have hs : SigPath m s (if s = [] then m ++ b!".sig" else s) := by
    by_cases h : s = []
    · exact .inl ⟨h, if_pos h⟩
    · exact .inr ⟨h, if_neg h⟩
  unfold verifyWith verifyFuel at *
  simp only at *
  generalize (if s = [] then m ++ b!".sig" else s) = s' at *
  have fa := fuelFor_ge (S.readFile p w)
  have ha : fuelFor (S.readFile p w) + 20 ≤ n := by
    refine Nat.le_trans ?_ hn
    split
    · split <;> omega
    · omega
  have le := (interpK_le (verifyK_sound S (n - 20)) 20).trans (interp_mono (.refl (repo S)) (show 20 + (n - 20) ≤ n by omega))
  refine Agrees.more ?_ (le.call _ _ _) (by rintro a t h; cases h) (by rintro a t ⟨_, _, h⟩; cases h)
  rw [Act.bind_eq]
  have hL := load_in S (fun a => publicVal_plain a 0) (s := ⟨startMem v0 v1 p m s', 2, [], w⟩) (v0 := v0) (v1 := v1) ⟨rfl, rfl, p0, p1⟩
    (loadPublic_run S v0 v1 p0 p1 p w (n := n - 20) (by omega) (fuelFor_ok (by omega)))
  rcases hl : loadWith S readPublicKeyData p w with ⟨pub | e | _ | _ | _, w1⟩
  · rw [hl] at hL hn
    obtain ⟨new, h1, h2, h3, hL⟩ := hL
    obtain ⟨pre, post, rfl⟩ := pub_shape (k := 2) h1 h2
    simp only at hn ⊢
    rw [Act.bind_eq]
    rcases hR : S.readFile m w1 with ⟨msg | e | _ | _ | _, w2⟩
    · rw [hR] at hn
      simp only at hn ⊢
      have fb := fuelFor_ge (S.readFile s' w2)
      rw [Act.bind_eq]
      have hS := load_in S (fun a => signatureVal_plain a 0) (s := ⟨startMem v0 v1 p m s' ++ pubMem pub pre post ++ msgMem msg, 2, [], w2⟩)
        (v0 := v0) (v1 := v1) ⟨rfl, rfl, p0, p1⟩
        (loadSig_run S v0 v1 p0 p1 s' w2 (n := n - 20) (by omega) (fuelFor_ok (by omega)))
      rcases hg : loadWith S readSignatureData s' w2 with ⟨sig | e | _ | _ | _, w3⟩
      · rw [hg] at hS
        obtain ⟨new, h1, h2, h3, hS⟩ := hS
        obtain ⟨pre', post', rfl⟩ := pub_shape (k := 1) h1 h2
        have hV := verify_in S (s := ⟨startMem v0 v1 p m s' ++ pubMem pub pre post ++ msgMem msg ++ sigMem sig pre' post' ++ [.ptr ⟨48, []⟩], 2, [], w3⟩)
          (v0 := v0) (v1 := v1) ⟨rfl, rfl, p0, p1⟩ (lp := ⟨23, []⟩) (lm := ⟨28, []⟩) (ls := ⟨48, []⟩) (by simp) (by simp) (by simp) rfl rfl rfl
          (pub := pub) (sig := sig) (msg := msg) rfl rfl rfl (byteVals msg).length (n := n - 20) (by omega)
        simp only [Act.ofRes]
        rcases hv : pub.verify S.prims msg sig with _ | e | _ | _ | _
        · rw [hv] at hV
          exact verify4_ok S v0 v1 _ _ _ hs hL hR hS hV
        · rw [hv] at hV
          obtain ⟨v, m1, hV⟩ := hV
          obtain ⟨x, rfl⟩ := m1.err
          exact ⟨_, .inr m1, verify4_err S v0 v1 _ _ _ hs hL hR hS hV⟩
        · rw [hv] at hV
          exact absurd hv (by unfold Public.verify Public.verifyEd25519; (repeat' split) <;> simp)
        · exact absurd hv (by unfold Public.verify Public.verifyEd25519; (repeat' split) <;> simp)
        · trivial
      · rw [hg] at hS
        obtain ⟨v, m1, hS⟩ := hS
        obtain ⟨x, rfl⟩ := m1.err
        exact ⟨_, m1, verify3_err S v0 v1 _ _ _ hs hL hR hS⟩
      · rw [hg] at hS
        obtain ⟨⟨l, b, df, w'⟩, k1, k2, k3⟩ := hS
        cases k2
        cases k3
        exact verify3_panic S v0 v1 _ _ _ hs hL hR k1
      · rw [hg] at hS
        obtain ⟨⟨l, b, df, w'⟩, k1, k2⟩ := hS
        cases k2
        exact verify3_crash S v0 v1 _ _ _ hs hL hR k1
      · trivial
    · exact ⟨_, .inl rfl, verify2_err S v0 v1 _ _ _ hs hL hR⟩
    · exact verify2_panic S v0 v1 _ _ _ hs hL hR
    · exact verify2_crash S v0 v1 _ _ _ hs hL hR
    · trivial
  · rw [hl] at hL
    obtain ⟨v, m1, hL⟩ := hL
    obtain ⟨x, rfl⟩ := m1.err
    exact ⟨_, m1, verify1_err S v0 v1 _ _ _ hs hL⟩
  · rw [hl] at hL
    obtain ⟨⟨l, b, df, w'⟩, k1, k2, k3⟩ := hL
    cases k2
    cases k3
    exact verify1_panic S v0 v1 _ _ _ hs k1
  · rw [hl] at hL
    obtain ⟨⟨l, b, df, w'⟩, k1, k2⟩ := hL
    cases k2
    exact verify1_crash S v0 v1 _ _ _ hs k1
  · trivial

end Verif.Src
