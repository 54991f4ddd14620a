/-
The text of `Open` of crypto/crypto.go compared with the model.
-/
import Verif.Source.OpenRun
import Verif.Source.SealMain

namespace Verif.Src

variable {ω : Type} (S : Sys ω) (v0 v1 : Val)

/-- Memory when the encrypted file is open. -/
def openAt (p e m : Bytes) (priv : Private) (a b : List Val) (he : Nat) : List Val :=
  sealStart v0 v1 p e m ++ privMem priv a b ++ [.ptr ⟨25, []⟩, .nil, fileVal he]

/-- Memory when the file of the message is open. -/
def openBoth (p e m : Bytes) (priv : Private) (a b : List Val) (he hw : Nat) : List Val :=
  openAt v0 v1 p e m priv a b he ++ [fileVal he, decoderVal he, .ptr ⟨32, []⟩, fileVal hw]

/-- The file that is closed at the end. -/
def closing1 (he : Nat) : List Deferred := [.method (fileVal he) id!"Close" []]

/-- A run of `Open`. -/
noncomputable abbrev opening (C : Id → Func → List Val → M ω (List Val)) (p e m : Bytes) (w : ω) : R ω (List Val) :=
  callC (repo S) C id!"crypto" crypt.Open [.str p, .str e, .str m] ⟨[v0, v1], 2, [], w⟩

section
variable (C : Id → Func → List Val → M ω (List Val)) {p e m : Bytes} {w w1 w2 w3 w4 w5 : ω}
  {priv priv' : Private} {a b : List Val} {he hw : Nat}

theorem openAll1_err {x : EVal}
    (hL : C id!"signify" key.LoadPrivateKey [.str p] ⟨sealStart v0 v1 p e m, 2, [], w⟩ = .ok [.nil, .err x] ⟨sealStart v0 v1 p e m, 2, [], w1⟩) :
    opening S v0 v1 C p e m w = .ok [.err x] ⟨[v0, v1], 2, [], w1⟩ := by
  unfold sealStart at *
  seval [hL]

theorem openAll1_panic {l : List Val} {bs : Nat}
    (hL : C id!"signify" key.LoadPrivateKey [.str p] ⟨sealStart v0 v1 p e m, 2, [], w⟩ = .panic ⟨l, bs, [], w1⟩) :
    ∃ t, opening S v0 v1 C p e m w = .panic t ∧ t.world = w1 ∧ t.defers = [] := by
  unfold sealStart at *
  exact ⟨_, by seval [hL], rfl, rfl⟩

theorem openAll1_crash {l : List Val} {bs : Nat} {df : List Deferred}
    (hL : C id!"signify" key.LoadPrivateKey [.str p] ⟨sealStart v0 v1 p e m, 2, [], w⟩ = .crash ⟨l, bs, df, w1⟩) :
    ∃ t, opening S v0 v1 C p e m w = .crash t ∧ t.world = w1 := by
  unfold sealStart at *
  exact ⟨_, by seval [hL], rfl⟩

section
variable (hL : C id!"signify" key.LoadPrivateKey [.str p] ⟨sealStart v0 v1 p e m, 2, [], w⟩ =
      .ok [.ptr ⟨25, []⟩, .nil] ⟨sealStart v0 v1 p e m ++ privMem priv a b, 2, [], w1⟩)
include hL

theorem openAll2_err {er : GoErr} (h : S.openFile e w1 = (.err er, w2)) :
    opening S v0 v1 C p e m w = .ok [libErr er] ⟨[v0, v1], 2, [], w2⟩ := by
  unfold sealStart at *
  seval [hL, h]

theorem openAll2_crash (h : S.openFile e w1 = (.crash, w2)) :
    ∃ t, opening S v0 v1 C p e m w = .crash t ∧ t.world = w2 := by
  unfold sealStart at *
  exact ⟨_, by seval [hL, h], rfl⟩

variable (hO : S.openFile e w1 = (.ok he, w2))
include hO

theorem openAll3_err {x : EVal}
    (hK : C id!"crypto" crypt.skipComment [fileVal he] ⟨openAt v0 v1 p e m priv a b he, 2, closing1 he, w2⟩ =
      .ok [.err x] ⟨openAt v0 v1 p e m priv a b he, 2, closing1 he, w3⟩) :
    opening S v0 v1 C p e m w = .ok [.err x] ⟨[v0, v1], 2, [], w3⟩ := by
  unfold sealStart at *
  seval [hL, hO, hK]

theorem openAll3_panic {l : List Val} {bs : Nat}
    (hK : C id!"crypto" crypt.skipComment [fileVal he] ⟨openAt v0 v1 p e m priv a b he, 2, closing1 he, w2⟩ = .panic ⟨l, bs, closing1 he, w3⟩) :
    ∃ t, opening S v0 v1 C p e m w = .panic t ∧ t.world = w3 ∧ t.defers = [] := by
  unfold sealStart at *
  exact ⟨_, by seval [hL, hO, hK], rfl, rfl⟩

theorem openAll3_crash {l : List Val} {bs : Nat} {df : List Deferred}
    (hK : C id!"crypto" crypt.skipComment [fileVal he] ⟨openAt v0 v1 p e m priv a b he, 2, closing1 he, w2⟩ = .crash ⟨l, bs, df, w3⟩) :
    ∃ t, opening S v0 v1 C p e m w = .crash t ∧ t.world = w3 := by
  unfold sealStart at *
  exact ⟨_, by seval [hL, hO, hK], rfl⟩

variable (hK : C id!"crypto" crypt.skipComment [fileVal he] ⟨openAt v0 v1 p e m priv a b he, 2, closing1 he, w2⟩ =
      .ok [.nil] ⟨openAt v0 v1 p e m priv a b he, 2, closing1 he, w3⟩)
  (hN : C id!"base64" coding.NewDecoder [fileVal he] ⟨openAt v0 v1 p e m priv a b he, 2, closing1 he, w3⟩ =
      .ok [.ptr ⟨32, []⟩] ⟨openAt v0 v1 p e m priv a b he ++ [fileVal he, decoderVal he], 2, closing1 he, w3⟩)
include hK hN

theorem openAll4_err {er : GoErr} (h : S.create m w3 = (.err er, w4)) :
    opening S v0 v1 C p e m w = .ok [libErr er] ⟨[v0, v1], 2, [], w4⟩ := by
  unfold sealStart at *
  seval [hL, hO, hK, hN, h]

theorem openAll4_crash (h : S.create m w3 = (.crash, w4)) :
    ∃ t, opening S v0 v1 C p e m w = .crash t ∧ t.world = w4 := by
  unfold sealStart at *
  exact ⟨_, by seval [hL, hO, hK, hN, h], rfl⟩

variable (hC : S.create m w3 = (.ok hw, w4))
include hC

theorem openAll5_ok
    (hB : C id!"crypto" crypt.open [.ptr ⟨25, []⟩, .ptr ⟨32, []⟩, fileVal hw] ⟨openBoth v0 v1 p e m priv a b he hw, 2, closing he hw, w4⟩ =
      .ok [.nil] ⟨openBoth v0 v1 p e m priv' a b he hw, 2, closing he hw, w5⟩) :
    opening S v0 v1 C p e m w = .ok [.nil] ⟨[v0, v1], 2, [], w5⟩ := by
  unfold sealStart at *
  seval [hL, hO, hK, hN, hC, hB]

theorem openAll5_err {x : EVal}
    (hB : C id!"crypto" crypt.open [.ptr ⟨25, []⟩, .ptr ⟨32, []⟩, fileVal hw] ⟨openBoth v0 v1 p e m priv a b he hw, 2, closing he hw, w4⟩ =
      .ok [.err x] ⟨openBoth v0 v1 p e m priv' a b he hw, 2, closing he hw, w5⟩) :
    opening S v0 v1 C p e m w = .ok [.err x] ⟨[v0, v1], 2, [], w5⟩ := by
  unfold sealStart at *
  seval [hL, hO, hK, hN, hC, hB]

theorem openAll5_panic {l : List Val} {bs : Nat}
    (hB : C id!"crypto" crypt.open [.ptr ⟨25, []⟩, .ptr ⟨32, []⟩, fileVal hw] ⟨openBoth v0 v1 p e m priv a b he hw, 2, closing he hw, w4⟩ =
      .panic ⟨l, bs, closing he hw, w5⟩) :
    ∃ t, opening S v0 v1 C p e m w = .panic t ∧ t.world = w5 ∧ t.defers = [] := by
  unfold sealStart at *
  exact ⟨_, by seval [hL, hO, hK, hN, hC, hB], rfl, rfl⟩

theorem openAll5_crash {l : List Val} {bs : Nat} {df : List Deferred}
    (hB : C id!"crypto" crypt.open [.ptr ⟨25, []⟩, .ptr ⟨32, []⟩, fileVal hw] ⟨openBoth v0 v1 p e m priv a b he hw, 2, closing he hw, w4⟩ =
      .crash ⟨l, bs, df, w5⟩) :
    ∃ t, opening S v0 v1 C p e m w = .crash t ∧ t.world = w5 := by
  unfold sealStart at *
  exact ⟨_, by seval [hL, hO, hK, hN, hC, hB], rfl⟩

end
end

end Verif.Src
