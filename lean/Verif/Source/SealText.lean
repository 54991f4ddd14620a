/-
The text of `Seal` of crypto/crypto.go compared with the model.
-/
import Verif.Source.Calls
import Verif.Source.SealRun
import Verif.Source.SignMain

namespace Verif.Src

variable {ω : Type} (S : Sys ω) (v0 v1 : Val)

/-- The name of the file that `Seal` writes. -/
def EncPath (m s s' : Bytes) : Prop := (s = [] ∧ s' = m ++ b!".enc") ∨ (¬s = [] ∧ s' = s)

/-- The comment line that `Seal` writes. -/
abbrev sealLine : Bytes := b!"untrusted comment: psignify encrypted file\n"

/-- The parameters of `Seal`. -/
def sealStart (p m s : Bytes) : List Val := [v0, v1, .str p, .str m, .str s]

/-- Memory when the comment line has been written. -/
def sealOpen (p m s : Bytes) (pub : Public) (a b : List Val) (hm n hw : Nat) : List Val :=
  sealStart v0 v1 p m s ++ pubMem pub a b ++ [.ptr ⟨23, []⟩, .nil, fileVal hm, .obj id!"FileInfo" n, .int .int (ITy.int.wrap n), fileVal hw, .arr (byteVals sealLine)]

/-- What `NewEncoder` adds. -/
def sealEnc (hw : Nat) (e : EncState) (stale : Bytes) : List Val :=
  [fileVal hw, bufVal e.pending stale, encVal e.line (fileVal hw) ⟨34, []⟩ e.pending.length]

/-- The files that are closed at the end. -/
def closing (hm hw : Nat) : List Deferred := [.method (fileVal hw) id!"Close" [], .method (fileVal hm) id!"Close" []]

/-- The encoder is closed before them. -/
def closing3 (hm hw : Nat) : List Deferred := .method (.ptr ⟨35, []⟩) id!"Close" [] :: closing hm hw

/-- A run of `Seal`. -/
noncomputable abbrev sealing (C : Id → Func → List Val → M ω (List Val)) (p m s : Bytes) (w : ω) : R ω (List Val) :=
  callC (repo S) C id!"crypto" crypt.Seal [.str p, .str m, .str s] ⟨[v0, v1], 2, [], w⟩

section
variable (C : Id → Func → List Val → M ω (List Val)) {p m s s' : Bytes} {w w1 w2 w3 w4 w5 w6 w7 : ω}
  {pub : Public} {a b : List Val} {hm n hw k : Nat}

theorem seal1_err 
    {x : EVal}
    (hL : C id!"signify" key.LoadPublicKey [.str p] ⟨sealStart v0 v1 p m s, 2, [], w⟩ = .ok [.nil, .err x] ⟨sealStart v0 v1 p m s, 2, [], w1⟩) :
    sealing S v0 v1 C p m s w = .ok [.err x] ⟨[v0, v1], 2, [], w1⟩ := by
  unfold sealStart at *
  seval [hL]

theorem seal1_panic 
    {l : List Val} {bs : Nat}
    (hL : C id!"signify" key.LoadPublicKey [.str p] ⟨sealStart v0 v1 p m s, 2, [], w⟩ = .panic ⟨l, bs, [], w1⟩) :
    ∃ t, sealing S v0 v1 C p m s w = .panic t ∧ t.world = w1 ∧ t.defers = [] := by
  unfold sealStart at *
  exact ⟨_, by seval [hL], rfl, rfl⟩

theorem seal1_crash 
    {l : List Val} {bs : Nat} {df : List Deferred}
    (hL : C id!"signify" key.LoadPublicKey [.str p] ⟨sealStart v0 v1 p m s, 2, [], w⟩ = .crash ⟨l, bs, df, w1⟩) :
    ∃ t, sealing S v0 v1 C p m s w = .crash t ∧ t.world = w1 := by
  unfold sealStart at *
  exact ⟨_, by seval [hL], rfl⟩

theorem seal2_err 
    (hL : C id!"signify" key.LoadPublicKey [.str p] ⟨sealStart v0 v1 p m s, 2, [], w⟩ =
      .ok [.ptr ⟨23, []⟩, .nil] ⟨sealStart v0 v1 p m s ++ pubMem pub a b, 2, [], w1⟩)
    {er : GoErr} (h : S.openFile m w1 = (.err er, w2)) :
    sealing S v0 v1 C p m s w = .ok [libErr er] ⟨[v0, v1], 2, [], w2⟩ := by
  unfold sealStart at *
  seval [hL, h]

theorem seal2_crash 
    (hL : C id!"signify" key.LoadPublicKey [.str p] ⟨sealStart v0 v1 p m s, 2, [], w⟩ =
      .ok [.ptr ⟨23, []⟩, .nil] ⟨sealStart v0 v1 p m s ++ pubMem pub a b, 2, [], w1⟩)
    (h : S.openFile m w1 = (.crash, w2)) :
    ∃ t, sealing S v0 v1 C p m s w = .crash t ∧ t.world = w2 := by
  unfold sealStart at *
  exact ⟨_, by seval [hL, h], rfl⟩

theorem seal3_err 
    (hL : C id!"signify" key.LoadPublicKey [.str p] ⟨sealStart v0 v1 p m s, 2, [], w⟩ =
      .ok [.ptr ⟨23, []⟩, .nil] ⟨sealStart v0 v1 p m s ++ pubMem pub a b, 2, [], w1⟩)
    (hO : S.openFile m w1 = (.ok hm, w2))
    {er : GoErr} (h : S.size hm w2 = (.err er, w3)) :
    sealing S v0 v1 C p m s w = .ok [libErr er] ⟨[v0, v1], 2, [], w3⟩ := by
  unfold sealStart at *
  seval [hL, hO, h]

theorem seal3_crash 
    (hL : C id!"signify" key.LoadPublicKey [.str p] ⟨sealStart v0 v1 p m s, 2, [], w⟩ =
      .ok [.ptr ⟨23, []⟩, .nil] ⟨sealStart v0 v1 p m s ++ pubMem pub a b, 2, [], w1⟩)
    (hO : S.openFile m w1 = (.ok hm, w2))
    (h : S.size hm w2 = (.crash, w3)) :
    ∃ t, sealing S v0 v1 C p m s w = .crash t ∧ t.world = w3 := by
  unfold sealStart at *
  exact ⟨_, by seval [hL, hO, h], rfl⟩

theorem seal4_err (hs : EncPath m s s')
    (hL : C id!"signify" key.LoadPublicKey [.str p] ⟨sealStart v0 v1 p m s, 2, [], w⟩ =
      .ok [.ptr ⟨23, []⟩, .nil] ⟨sealStart v0 v1 p m s ++ pubMem pub a b, 2, [], w1⟩)
    (hO : S.openFile m w1 = (.ok hm, w2))
    (hZ : S.size hm w2 = (.ok n, w3))
    {er : GoErr} (h : S.create s' w3 = (.err er, w4)) :
    sealing S v0 v1 C p m s w = .ok [libErr er] ⟨[v0, v1], 2, [], w4⟩ := by
  unfold sealStart at *
  rcases hs with ⟨hs, rfl⟩ | ⟨hs, rfl⟩
  · seval [hs, hL, hO, hZ, h]
  · seval [hs, hL, hO, hZ, h]

theorem seal4_crash (hs : EncPath m s s')
    (hL : C id!"signify" key.LoadPublicKey [.str p] ⟨sealStart v0 v1 p m s, 2, [], w⟩ =
      .ok [.ptr ⟨23, []⟩, .nil] ⟨sealStart v0 v1 p m s ++ pubMem pub a b, 2, [], w1⟩)
    (hO : S.openFile m w1 = (.ok hm, w2))
    (hZ : S.size hm w2 = (.ok n, w3))
    (h : S.create s' w3 = (.crash, w4)) :
    ∃ t, sealing S v0 v1 C p m s w = .crash t ∧ t.world = w4 := by
  unfold sealStart at *
  rcases hs with ⟨hs, rfl⟩ | ⟨hs, rfl⟩
  · exact ⟨_, by seval [hs, hL, hO, hZ, h], rfl⟩
  · exact ⟨_, by seval [hs, hL, hO, hZ, h], rfl⟩

theorem seal5_err (hs : EncPath m s s')
    (hL : C id!"signify" key.LoadPublicKey [.str p] ⟨sealStart v0 v1 p m s, 2, [], w⟩ =
      .ok [.ptr ⟨23, []⟩, .nil] ⟨sealStart v0 v1 p m s ++ pubMem pub a b, 2, [], w1⟩)
    (hO : S.openFile m w1 = (.ok hm, w2))
    (hZ : S.size hm w2 = (.ok n, w3))
    (hC : S.create s' w3 = (.ok hw, w4))
    {er : GoErr} (h : S.write hw sealLine w4 = (.err er, w5)) :
    sealing S v0 v1 C p m s w = .ok [libErr er] ⟨[v0, v1], 2, [], w5⟩ := by
  unfold sealStart at *
  rcases hs with ⟨hs, rfl⟩ | ⟨hs, rfl⟩
  · seval [hs, hL, hO, hZ, hC, h]
  · seval [hs, hL, hO, hZ, hC, h]

theorem seal5_crash (hs : EncPath m s s')
    (hL : C id!"signify" key.LoadPublicKey [.str p] ⟨sealStart v0 v1 p m s, 2, [], w⟩ =
      .ok [.ptr ⟨23, []⟩, .nil] ⟨sealStart v0 v1 p m s ++ pubMem pub a b, 2, [], w1⟩)
    (hO : S.openFile m w1 = (.ok hm, w2))
    (hZ : S.size hm w2 = (.ok n, w3))
    (hC : S.create s' w3 = (.ok hw, w4))
    (h : S.write hw sealLine w4 = (.crash, w5)) :
    ∃ t, sealing S v0 v1 C p m s w = .crash t ∧ t.world = w5 := by
  unfold sealStart at *
  rcases hs with ⟨hs, rfl⟩ | ⟨hs, rfl⟩
  · exact ⟨_, by seval [hs, hL, hO, hZ, hC, h], rfl⟩
  · exact ⟨_, by seval [hs, hL, hO, hZ, hC, h], rfl⟩

theorem seal6_crash (hs : EncPath m s s')
    (hL : C id!"signify" key.LoadPublicKey [.str p] ⟨sealStart v0 v1 p m s, 2, [], w⟩ =
      .ok [.ptr ⟨23, []⟩, .nil] ⟨sealStart v0 v1 p m s ++ pubMem pub a b, 2, [], w1⟩)
    (hO : S.openFile m w1 = (.ok hm, w2))
    (hZ : S.size hm w2 = (.ok n, w3))
    (hC : S.create s' w3 = (.ok hw, w4))
    (hW : S.write hw sealLine w4 = (.ok k, w5))
    (hN : C id!"base64" coding.NewEncoder [fileVal hw] ⟨sealOpen v0 v1 p m s' pub a b hm n hw, 2, closing hm hw, w5⟩ =
      .ok [.ptr ⟨35, []⟩] ⟨sealOpen v0 v1 p m s' pub a b hm n hw ++ sealEnc hw .new [0, 0, 0], 2, closing hm hw, w5⟩)
    {l : List Val} {bs : Nat} {df : List Deferred}
    (hB : C id!"crypto" crypt.seal [.ptr ⟨23, []⟩, fileVal hm, .int .int (ITy.int.wrap n), .ptr ⟨35, []⟩]
      ⟨sealOpen v0 v1 p m s' pub a b hm n hw ++ sealEnc hw .new [0, 0, 0] ++ [.ptr ⟨35, []⟩], 2, closing3 hm hw, w5⟩ = .crash ⟨l, bs, df, w6⟩) :
    ∃ t, sealing S v0 v1 C p m s w = .crash t ∧ t.world = w6 := by
  unfold sealStart at *
  rcases hs with ⟨hs, rfl⟩ | ⟨hs, rfl⟩
  · exact ⟨_, by seval [hs, hL, hO, hZ, hC, hW, hN, hB], rfl⟩
  · exact ⟨_, by seval [hs, hL, hO, hZ, hC, hW, hN, hB], rfl⟩

theorem seal7_ok (hs : EncPath m s s')
    (hL : C id!"signify" key.LoadPublicKey [.str p] ⟨sealStart v0 v1 p m s, 2, [], w⟩ =
      .ok [.ptr ⟨23, []⟩, .nil] ⟨sealStart v0 v1 p m s ++ pubMem pub a b, 2, [], w1⟩)
    (hO : S.openFile m w1 = (.ok hm, w2))
    (hZ : S.size hm w2 = (.ok n, w3))
    (hC : S.create s' w3 = (.ok hw, w4))
    (hW : S.write hw sealLine w4 = (.ok k, w5))
    (hN : C id!"base64" coding.NewEncoder [fileVal hw] ⟨sealOpen v0 v1 p m s' pub a b hm n hw, 2, closing hm hw, w5⟩ =
      .ok [.ptr ⟨35, []⟩] ⟨sealOpen v0 v1 p m s' pub a b hm n hw ++ sealEnc hw .new [0, 0, 0], 2, closing hm hw, w5⟩)
    {e : EncState} {st : Bytes}
    (hB : C id!"crypto" crypt.seal [.ptr ⟨23, []⟩, fileVal hm, .int .int (ITy.int.wrap n), .ptr ⟨35, []⟩]
      ⟨sealOpen v0 v1 p m s' pub a b hm n hw ++ sealEnc hw .new [0, 0, 0] ++ [.ptr ⟨35, []⟩], 2, closing3 hm hw, w5⟩ = .ok [.nil] ⟨sealOpen v0 v1 p m s' pub a b hm n hw ++ sealEnc hw e st ++ [.ptr ⟨35, []⟩], 2, closing3 hm hw, w6⟩)
    {y : Val} {e' : EncState} {st' : Bytes}
    (hD : C id!"base64" coding.Encoder.Close [.ptr ⟨35, []⟩] ⟨sealOpen v0 v1 p m s' pub a b hm n hw ++ sealEnc hw e st ++ [.ptr ⟨35, []⟩], 2, closing3 hm hw, w6⟩ = .ok [y] ⟨sealOpen v0 v1 p m s' pub a b hm n hw ++ sealEnc hw e' st' ++ [.ptr ⟨35, []⟩], 2, closing3 hm hw, w7⟩) :
    sealing S v0 v1 C p m s w = .ok [.nil] ⟨[v0, v1], 2, [], w7⟩ := by
  unfold sealStart at *
  rcases hs with ⟨hs, rfl⟩ | ⟨hs, rfl⟩
  · seval [hs, hL, hO, hZ, hC, hW, hN, hB, hD]
  · seval [hs, hL, hO, hZ, hC, hW, hN, hB, hD]

theorem seal7_ok_crash (hs : EncPath m s s')
    (hL : C id!"signify" key.LoadPublicKey [.str p] ⟨sealStart v0 v1 p m s, 2, [], w⟩ =
      .ok [.ptr ⟨23, []⟩, .nil] ⟨sealStart v0 v1 p m s ++ pubMem pub a b, 2, [], w1⟩)
    (hO : S.openFile m w1 = (.ok hm, w2))
    (hZ : S.size hm w2 = (.ok n, w3))
    (hC : S.create s' w3 = (.ok hw, w4))
    (hW : S.write hw sealLine w4 = (.ok k, w5))
    (hN : C id!"base64" coding.NewEncoder [fileVal hw] ⟨sealOpen v0 v1 p m s' pub a b hm n hw, 2, closing hm hw, w5⟩ =
      .ok [.ptr ⟨35, []⟩] ⟨sealOpen v0 v1 p m s' pub a b hm n hw ++ sealEnc hw .new [0, 0, 0], 2, closing hm hw, w5⟩)
    {e : EncState} {st : Bytes}
    (hB : C id!"crypto" crypt.seal [.ptr ⟨23, []⟩, fileVal hm, .int .int (ITy.int.wrap n), .ptr ⟨35, []⟩]
      ⟨sealOpen v0 v1 p m s' pub a b hm n hw ++ sealEnc hw .new [0, 0, 0] ++ [.ptr ⟨35, []⟩], 2, closing3 hm hw, w5⟩ = .ok [.nil] ⟨sealOpen v0 v1 p m s' pub a b hm n hw ++ sealEnc hw e st ++ [.ptr ⟨35, []⟩], 2, closing3 hm hw, w6⟩)
    {l : List Val} {bs : Nat} {df : List Deferred}
    (hD : C id!"base64" coding.Encoder.Close [.ptr ⟨35, []⟩] ⟨sealOpen v0 v1 p m s' pub a b hm n hw ++ sealEnc hw e st ++ [.ptr ⟨35, []⟩], 2, closing3 hm hw, w6⟩ = .crash ⟨l, bs, df, w7⟩) :
    ∃ t, sealing S v0 v1 C p m s w = .crash t ∧ t.world = w7 := by
  unfold sealStart at *
  rcases hs with ⟨hs, rfl⟩ | ⟨hs, rfl⟩
  · exact ⟨_, by seval [hs, hL, hO, hZ, hC, hW, hN, hB, hD], rfl⟩
  · exact ⟨_, by seval [hs, hL, hO, hZ, hC, hW, hN, hB, hD], rfl⟩

theorem seal7_err (hs : EncPath m s s')
    (hL : C id!"signify" key.LoadPublicKey [.str p] ⟨sealStart v0 v1 p m s, 2, [], w⟩ =
      .ok [.ptr ⟨23, []⟩, .nil] ⟨sealStart v0 v1 p m s ++ pubMem pub a b, 2, [], w1⟩)
    (hO : S.openFile m w1 = (.ok hm, w2))
    (hZ : S.size hm w2 = (.ok n, w3))
    (hC : S.create s' w3 = (.ok hw, w4))
    (hW : S.write hw sealLine w4 = (.ok k, w5))
    (hN : C id!"base64" coding.NewEncoder [fileVal hw] ⟨sealOpen v0 v1 p m s' pub a b hm n hw, 2, closing hm hw, w5⟩ =
      .ok [.ptr ⟨35, []⟩] ⟨sealOpen v0 v1 p m s' pub a b hm n hw ++ sealEnc hw .new [0, 0, 0], 2, closing hm hw, w5⟩)
    {e : EncState} {st : Bytes} {x : EVal}
    (hB : C id!"crypto" crypt.seal [.ptr ⟨23, []⟩, fileVal hm, .int .int (ITy.int.wrap n), .ptr ⟨35, []⟩]
      ⟨sealOpen v0 v1 p m s' pub a b hm n hw ++ sealEnc hw .new [0, 0, 0] ++ [.ptr ⟨35, []⟩], 2, closing3 hm hw, w5⟩ = .ok [.err x] ⟨sealOpen v0 v1 p m s' pub a b hm n hw ++ sealEnc hw e st ++ [.ptr ⟨35, []⟩], 2, closing3 hm hw, w6⟩)
    {y : Val} {e' : EncState} {st' : Bytes}
    (hD : C id!"base64" coding.Encoder.Close [.ptr ⟨35, []⟩] ⟨sealOpen v0 v1 p m s' pub a b hm n hw ++ sealEnc hw e st ++ [.ptr ⟨35, []⟩], 2, closing3 hm hw, w6⟩ = .ok [y] ⟨sealOpen v0 v1 p m s' pub a b hm n hw ++ sealEnc hw e' st' ++ [.ptr ⟨35, []⟩], 2, closing3 hm hw, w7⟩) :
    sealing S v0 v1 C p m s w = .ok [.err x] ⟨[v0, v1], 2, [], w7⟩ := by
  unfold sealStart at *
  rcases hs with ⟨hs, rfl⟩ | ⟨hs, rfl⟩
  · seval [hs, hL, hO, hZ, hC, hW, hN, hB, hD]
  · seval [hs, hL, hO, hZ, hC, hW, hN, hB, hD]

theorem seal7_err_crash (hs : EncPath m s s')
    (hL : C id!"signify" key.LoadPublicKey [.str p] ⟨sealStart v0 v1 p m s, 2, [], w⟩ =
      .ok [.ptr ⟨23, []⟩, .nil] ⟨sealStart v0 v1 p m s ++ pubMem pub a b, 2, [], w1⟩)
    (hO : S.openFile m w1 = (.ok hm, w2))
    (hZ : S.size hm w2 = (.ok n, w3))
    (hC : S.create s' w3 = (.ok hw, w4))
    (hW : S.write hw sealLine w4 = (.ok k, w5))
    (hN : C id!"base64" coding.NewEncoder [fileVal hw] ⟨sealOpen v0 v1 p m s' pub a b hm n hw, 2, closing hm hw, w5⟩ =
      .ok [.ptr ⟨35, []⟩] ⟨sealOpen v0 v1 p m s' pub a b hm n hw ++ sealEnc hw .new [0, 0, 0], 2, closing hm hw, w5⟩)
    {e : EncState} {st : Bytes} {x : EVal}
    (hB : C id!"crypto" crypt.seal [.ptr ⟨23, []⟩, fileVal hm, .int .int (ITy.int.wrap n), .ptr ⟨35, []⟩]
      ⟨sealOpen v0 v1 p m s' pub a b hm n hw ++ sealEnc hw .new [0, 0, 0] ++ [.ptr ⟨35, []⟩], 2, closing3 hm hw, w5⟩ = .ok [.err x] ⟨sealOpen v0 v1 p m s' pub a b hm n hw ++ sealEnc hw e st ++ [.ptr ⟨35, []⟩], 2, closing3 hm hw, w6⟩)
    {l : List Val} {bs : Nat} {df : List Deferred}
    (hD : C id!"base64" coding.Encoder.Close [.ptr ⟨35, []⟩] ⟨sealOpen v0 v1 p m s' pub a b hm n hw ++ sealEnc hw e st ++ [.ptr ⟨35, []⟩], 2, closing3 hm hw, w6⟩ = .crash ⟨l, bs, df, w7⟩) :
    ∃ t, sealing S v0 v1 C p m s w = .crash t ∧ t.world = w7 := by
  unfold sealStart at *
  rcases hs with ⟨hs, rfl⟩ | ⟨hs, rfl⟩
  · exact ⟨_, by seval [hs, hL, hO, hZ, hC, hW, hN, hB, hD], rfl⟩
  · exact ⟨_, by seval [hs, hL, hO, hZ, hC, hW, hN, hB, hD], rfl⟩

end

end Verif.Src