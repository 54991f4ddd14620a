/-
The text of `GenerateKey` of signify/key.go compared with the model.
-/
import Verif.Source.GenPair

namespace Verif.Src

variable {ω : Type} (S : Sys ω) (v0 : Val)

/-- Summaries of what `GenerateKey` calls. -/
def genK (FG FP FQ FW : List Val → M ω (List Val)) : Known ω :=
  knownK [(id!"signify", id!"GenerateKeypair", FG), (id!"signify", id!"writeDataFile", FW)]
    [(id!"Private", id!"encode", FP), (id!"Public", id!"encode", FQ)]

theorem genK_sound (k : Nat) :
    (genK (callOf S k key.GenerateKeypair) (callOf S k key.Private.encode) (callOf S k key.Public.encode) (callOf S k common.writeDataFile)).Sound (repo S) k := by
  refine knownK_sound ?_ ?_
  · intro t ht
    rcases List.mem_cons.1 ht with rfl | h
    · exact func_sound S (by krfl)
    rcases List.mem_cons.1 h with rfl | h
    · exact func_sound S (by krfl)
    · cases h
  · intro t ht
    rcases List.mem_cons.1 ht with rfl | h
    · exact ⟨id!"signify", key.Private.encode, by krfl, fun _ => .refl _⟩
    rcases List.mem_cons.1 h with rfl | h
    · exact ⟨id!"signify", key.Public.encode, by krfl, fun _ => .refl _⟩
    · cases h

/-- What `GenerateKeypair` adds. -/
def pairMem (j : Nat) (priv : Private) (pub : Public) (pre mid post : List Val) : List Val :=
  spread 7 pre ++ privateVal priv :: spread j mid ++ publicVal pub :: spread 1 post

/-- Memory when `GenerateKeypair` is called, -/
def keyMem0 (us : List Val) (p : Bytes) (v o : Val) : List Val := callerMem v0 us ++ [.str p, v, o]

/-- when the pair is known, -/
def keyMem1 (us : List Val) (p : Bytes) (v o : Val) (j : Nat) (priv : Private) (pub : Public) (pre mid post : List Val) : List Val :=
  keyMem0 v0 us p v o ++ pairMem j priv pub pre mid post ++ [.ptr ⟨us.length + 2 + 10, []⟩, .ptr ⟨us.length + 2 + (11 + j), []⟩, .nil]

/-- when the private key is encoded -/
def keyMem2 (us : List Val) (p : Bytes) (v o : Val) (j : Nat) (priv : Private) (pub : Public) (pre mid post : List Val) : List Val :=
  keyMem1 v0 us p v o j priv pub pre mid post ++ [.ptr ⟨us.length + 2 + 10, []⟩, .str priv.encode, .ptr ⟨us.length + 2 + (17 + j), []⟩, .arr (byteVals priv.encode)]

/-- and when the public key is encoded. -/
def keyMem3 (us : List Val) (p : Bytes) (v o : Val) (j : Nat) (priv : Private) (pub : Public) (pre mid post : List Val) : List Val :=
  keyMem2 v0 us p v o j priv pub pre mid post ++ [.ptr ⟨us.length + 2 + (11 + j), []⟩, .str pub.encode, .ptr ⟨us.length + 2 + (21 + j), []⟩, .arr (byteVals pub.encode)]

/-- A run of `GenerateKey`. -/
noncomputable abbrev keyRun (FG FP FQ FW : List Val → M ω (List Val)) (us : List Val) (p : Bytes) (v o : Val) (w : ω) : R ω (List Val) :=
  (interpK (repo S) (genK FG FP FQ FW) 20).call id!"signify" key.GenerateKey [.str p, v, o] ⟨callerMem v0 us, us.length + 2, [], w⟩

section
variable (FG FP FQ FW : List Val → M ω (List Val)) {us : List Val} {p pw : Bytes} {v o q : Val} {r : Int} {w w1 w2 w3 : ω} (ha : GenArgs us v pw o q r)
include ha

theorem key1_err {x : EVal} (h : FG [v, o] ⟨keyMem0 v0 us p v o, us.length + 2, [], w⟩ = .ok [.nil, .nil, .err x] ⟨keyMem0 v0 us p v o, us.length + 2, [], w1⟩) :
    keyRun S v0 FG FP FQ FW us p v o w = .ok [.err x] ⟨callerMem v0 us, us.length + 2, [], w1⟩ := by
  cases ha <;> seval [h]

theorem key1_panic {l : List Val} {b : Nat} (h : FG [v, o] ⟨keyMem0 v0 us p v o, us.length + 2, [], w⟩ = .panic ⟨l, b, [], w1⟩) :
    ∃ t, keyRun S v0 FG FP FQ FW us p v o w = .panic t ∧ t.world = w1 ∧ t.defers = [] := by
  cases ha <;> exact ⟨_, by seval [h], rfl, rfl⟩

theorem key1_crash {l : List Val} {b : Nat} {df : List Deferred} (h : FG [v, o] ⟨keyMem0 v0 us p v o, us.length + 2, [], w⟩ = .crash ⟨l, b, df, w1⟩) :
    ∃ t, keyRun S v0 FG FP FQ FW us p v o w = .crash t ∧ t.world = w1 := by
  cases ha <;> exact ⟨_, by seval [h], rfl⟩

variable {j : Nat} (hj : j = 4 ∨ j = 8) {priv : Private} {pub : Public} {pre mid post : List Val}
  (hG : FG [v, o] ⟨keyMem0 v0 us p v o, us.length + 2, [], w⟩ =
    .ok [.ptr ⟨us.length + 2 + 10, []⟩, .ptr ⟨us.length + 2 + (11 + j), []⟩, .nil] ⟨keyMem0 v0 us p v o ++ pairMem j priv pub pre mid post, us.length + 2, [], w1⟩)
  (hP : FP [.ptr ⟨us.length + 2 + 10, []⟩] ⟨keyMem1 v0 us p v o j priv pub pre mid post, us.length + 2, [], w1⟩ =
    .ok [.slice ⟨us.length + 2 + (19 + j), []⟩ 0 104 (byteVals priv.encode).length] ⟨keyMem2 v0 us p v o j priv pub pre mid post, us.length + 2, [], w1⟩)
include hj hG hP

theorem key2_err {x : EVal} (h : FW [.str (p ++ b!".sec"), .str b!"untrusted comment: signify private key", .slice ⟨us.length + 2 + (19 + j), []⟩ 0 104 (byteVals priv.encode).length]
      ⟨keyMem2 v0 us p v o j priv pub pre mid post, us.length + 2, [], w1⟩ =
      .ok [.err x] ⟨keyMem2 v0 us p v o j priv pub pre mid post, us.length + 2, [], w2⟩) :
    keyRun S v0 FG FP FQ FW us p v o w = .ok [.err x] ⟨callerMem v0 us, us.length + 2, [], w2⟩ := by
  rcases hj with rfl | rfl <;> cases ha <;> seval [hG, hP, h]

theorem key2_panic {l : List Val} {b : Nat} (h : FW [.str (p ++ b!".sec"), .str b!"untrusted comment: signify private key", .slice ⟨us.length + 2 + (19 + j), []⟩ 0 104 (byteVals priv.encode).length]
      ⟨keyMem2 v0 us p v o j priv pub pre mid post, us.length + 2, [], w1⟩ = .panic ⟨l, b, [], w2⟩) :
    ∃ t, keyRun S v0 FG FP FQ FW us p v o w = .panic t ∧ t.world = w2 ∧ t.defers = [] := by
  rcases hj with rfl | rfl <;> cases ha <;> exact ⟨_, by seval [hG, hP, h], rfl, rfl⟩

theorem key2_crash {l : List Val} {b : Nat} {df : List Deferred} (h : FW [.str (p ++ b!".sec"), .str b!"untrusted comment: signify private key", .slice ⟨us.length + 2 + (19 + j), []⟩ 0 104 (byteVals priv.encode).length]
      ⟨keyMem2 v0 us p v o j priv pub pre mid post, us.length + 2, [], w1⟩ = .crash ⟨l, b, df, w2⟩) :
    ∃ t, keyRun S v0 FG FP FQ FW us p v o w = .crash t ∧ t.world = w2 := by
  rcases hj with rfl | rfl <;> cases ha <;> exact ⟨_, by seval [hG, hP, h], rfl⟩

variable (hW : FW [.str (p ++ b!".sec"), .str b!"untrusted comment: signify private key", .slice ⟨us.length + 2 + (19 + j), []⟩ 0 104 (byteVals priv.encode).length]
      ⟨keyMem2 v0 us p v o j priv pub pre mid post, us.length + 2, [], w1⟩ = .ok [.nil] ⟨keyMem2 v0 us p v o j priv pub pre mid post, us.length + 2, [], w2⟩)
  (hQ : FQ [.ptr ⟨us.length + 2 + (11 + j), []⟩] ⟨keyMem2 v0 us p v o j priv pub pre mid post, us.length + 2, [], w2⟩ =
    .ok [.slice ⟨us.length + 2 + (23 + j), []⟩ 0 42 (byteVals pub.encode).length] ⟨keyMem3 v0 us p v o j priv pub pre mid post, us.length + 2, [], w2⟩)
include hW hQ

theorem key3_err {x : EVal} (h : FW [.str (p ++ b!".pub"), .str b!"untrusted comment: signify public key", .slice ⟨us.length + 2 + (23 + j), []⟩ 0 42 (byteVals pub.encode).length]
      ⟨keyMem3 v0 us p v o j priv pub pre mid post, us.length + 2, [], w2⟩ =
      .ok [.err x] ⟨keyMem3 v0 us p v o j priv pub pre mid post, us.length + 2, [], w3⟩) :
    keyRun S v0 FG FP FQ FW us p v o w = .ok [.err x] ⟨callerMem v0 us, us.length + 2, [], w3⟩ := by
  rcases hj with rfl | rfl <;> cases ha <;> seval [hG, hP, hW, hQ, h]

theorem key3_panic {l : List Val} {b : Nat} (h : FW [.str (p ++ b!".pub"), .str b!"untrusted comment: signify public key", .slice ⟨us.length + 2 + (23 + j), []⟩ 0 42 (byteVals pub.encode).length]
      ⟨keyMem3 v0 us p v o j priv pub pre mid post, us.length + 2, [], w2⟩ = .panic ⟨l, b, [], w3⟩) :
    ∃ t, keyRun S v0 FG FP FQ FW us p v o w = .panic t ∧ t.world = w3 ∧ t.defers = [] := by
  rcases hj with rfl | rfl <;> cases ha <;> exact ⟨_, by seval [hG, hP, hW, hQ, h], rfl, rfl⟩

theorem key3_crash {l : List Val} {b : Nat} {df : List Deferred} (h : FW [.str (p ++ b!".pub"), .str b!"untrusted comment: signify public key", .slice ⟨us.length + 2 + (23 + j), []⟩ 0 42 (byteVals pub.encode).length]
      ⟨keyMem3 v0 us p v o j priv pub pre mid post, us.length + 2, [], w2⟩ = .crash ⟨l, b, df, w3⟩) :
    ∃ t, keyRun S v0 FG FP FQ FW us p v o w = .crash t ∧ t.world = w3 := by
  rcases hj with rfl | rfl <;> cases ha <;> exact ⟨_, by seval [hG, hP, hW, hQ, h], rfl⟩

theorem key3_ok (h : FW [.str (p ++ b!".pub"), .str b!"untrusted comment: signify public key", .slice ⟨us.length + 2 + (23 + j), []⟩ 0 42 (byteVals pub.encode).length]
      ⟨keyMem3 v0 us p v o j priv pub pre mid post, us.length + 2, [], w2⟩ =
      .ok [.nil] ⟨keyMem3 v0 us p v o j priv pub pre mid post, us.length + 2, [], w3⟩) :
    keyRun S v0 FG FP FQ FW us p v o w = .ok [.nil] ⟨callerMem v0 us, us.length + 2, [], w3⟩ := by
  rcases hj with rfl | rfl <;> cases ha <;> seval [hG, hP, hW, hQ, h]

end

end Verif.Src
