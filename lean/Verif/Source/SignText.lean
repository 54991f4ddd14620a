/-
The text of `Sign` of signify/key.go compared with the model.
-/
import Verif.Source.ZeroRun
import Verif.Source.VerifyText

namespace Verif.Src

variable {ω : Type} (S : Sys ω) (v1 : Val)

/-- Summaries of what `Sign` calls. -/
def signK (FL FD FG FE FW : List Val → M ω (List Val)) : Known ω :=
  knownK [(id!"signify", id!"LoadPrivateKey", FL), (id!"signify", id!"writeDataFile", FW)]
    [(id!"Private", id!"decrypt", FD), (id!"Private", id!"sign", FG), (id!"Signature", id!"encode", FE)]

theorem signK_sound (k : Nat) :
    (signK (callOf S k key.LoadPrivateKey) (callOf S k key.Private.decrypt) (callOf S k key.Private.sign) (callOf S k signature.Signature.encode)
      (callOf S k common.writeDataFile)).Sound (repo S) k := by
  refine knownK_sound ?_ ?_
  · intro t ht
    rcases List.mem_cons.1 ht with rfl | h
    · exact func_sound S (by krfl)
    rcases List.mem_cons.1 h with rfl | h
    · exact func_sound S (by krfl)
    · cases h
  · intro t ht
    rcases List.mem_cons.1 ht with rfl | h
    · exact ⟨id!"signify", key.Private.decrypt, by krfl, fun _ => .refl _⟩
    rcases List.mem_cons.1 h with rfl | h
    · exact ⟨id!"signify", key.Private.sign, by krfl, fun _ => .refl _⟩
    rcases List.mem_cons.1 h with rfl | h
    · exact ⟨id!"signify", signature.Signature.encode, by krfl, fun _ => .refl _⟩
    · cases h

/-- What `LoadPrivateKey` adds. -/
def privMem (priv : Private) (pre post : List Val) : List Val := spread 20 pre ++ privateVal priv :: spread 2 post

/-- A run of `Sign`. -/
noncomputable abbrev signing (FL FD FG FE FW : List Val → M ω (List Val)) (p m s : Bytes) (w : ω) : R ω (List Val) :=
  (interpK (repo S) (signK FL FD FG FE FW) 20).call id!"signify" key.Sign [.str p, .str m, .str s] ⟨[promptFunc, v1], 2, [], w⟩

/-- What a prompt adds. -/
def askMem (e1 e2 : Val) (pw : Bytes) : List Val :=
  [.ptr ⟨25, []⟩, e1, .slice ⟨32, []⟩ 0 pw.length (byteVals pw).length, .bool false, .arr (byteVals pw),
    .slice ⟨32, []⟩ 0 pw.length (byteVals pw).length, .nil, e2]

/-- What reading the message adds to `k` blocks. -/
def msgOn (k : Nat) (msg : Bytes) : List Val := [.arr (byteVals msg), .slice ⟨k, []⟩ 0 msg.length (byteVals msg).length]

/-- What `sign` adds to `k + 2` blocks. -/
def sigOn (k : Nat) (msg : Bytes) (key : Arr 64) (sig : Signature) : List Val :=
  [.ptr ⟨25, []⟩, .slice ⟨k, []⟩ 0 msg.length (byteVals msg).length, signatureVal sig, .ptr ⟨k + 4, []⟩, encArr key, .slice ⟨k + 6, []⟩ 0 64 64,
    encArr sig.sig, .slice ⟨k + 8, []⟩ 0 64 64]

/-- The variables for the names. -/
def nameOn (k : Nat) (p : Bytes) : List Val :=
  [.ptr ⟨k + 4, []⟩, .str (trimSuffix p b!".sec" ++ b!".pub"), .str (signComment p)]

/-- What `encode` adds to `k + 13` blocks. -/
def bytesOn (k : Nat) (sig : Signature) : List Val :=
  [.ptr ⟨k + 4, []⟩, .str sig.encode, .ptr ⟨k + 14, []⟩, .arr (byteVals sig.encode)]

/-- A call without its deferred calls. -/
def inner (I : Interp ω) (p : Id) (f : Func) (vs : List Val) : M ω (List Val) := do
  let env ← params [] (f.recv.toList ++ f.params) vs
  let env ← namedResults I ⟨p, env⟩ env f.results
  let r ← execs I ⟨p, env⟩ f.body
  results f env r

theorem inner_mono {I J : Interp ω} (h : I.Le J) (p : Id) (f : Func) (vs : List Val) : Le (inner I p f vs) (inner J p f vs) := by
  unfold inner
  exact Le.bind (.refl _) fun _ => Le.bind (namedResults_mono h _ _ _) fun _ => Le.bind (execs_mono h _ _) fun _ => .refl _

/-- The same run of `Sign`, without the deferred call. -/
noncomputable abbrev signed (FL FD FG FE FW : List Val → M ω (List Val)) (p m s : Bytes) (w : ω) : R ω (List Val) :=
  inner (interpK (repo S) (signK FL FD FG FE FW) 19) id!"signify" key.Sign [.str p, .str m, .str s] ⟨[promptFunc, v1], 2, [], w⟩

/-- The deferred call. -/
noncomputable def wipe : List Deferred := [.func id!"signify" common.zero [.ptr ⟨30, []⟩]]

section
variable (FL FD FG FE FW : List Val → M ω (List Val)) {p m s s' : Bytes} {w w1 w2 w3 w4 w5 w6 : ω} (hs : SigPath m s s')
include hs

theorem sign1_err {x : EVal} (h : FL [.str p] ⟨startMem promptFunc v1 p m s', 2, [], w⟩ = .ok [.nil, .err x] ⟨startMem promptFunc v1 p m s', 2, [], w1⟩) :
    signing S v1 FL FD FG FE FW p m s w = .ok [.err x] ⟨[promptFunc, v1], 2, [], w1⟩ := by
  unfold startMem at *
  rcases hs with ⟨hs, rfl⟩ | ⟨hs, rfl⟩
  · have hq : ¬m ++ [46, 115, 105, 103] = [] := by simp
    seval [hs, hq, h]
  · seval [hs, h]

theorem sign1_panic {l : List Val} {b : Nat} (h : FL [.str p] ⟨startMem promptFunc v1 p m s', 2, [], w⟩ = .panic ⟨l, b, [], w1⟩) :
    ∃ t, signing S v1 FL FD FG FE FW p m s w = .panic t ∧ t.world = w1 ∧ t.defers = [] := by
  unfold startMem at *
  rcases hs with ⟨hs, rfl⟩ | ⟨hs, rfl⟩
  · have hq : ¬m ++ [46, 115, 105, 103] = [] := by simp
    exact ⟨_, by seval [hs, hq, h], rfl, rfl⟩
  · exact ⟨_, by seval [hs, h], rfl, rfl⟩

theorem sign1_crash {l : List Val} {b : Nat} {df : List Deferred} (h : FL [.str p] ⟨startMem promptFunc v1 p m s', 2, [], w⟩ = .crash ⟨l, b, df, w1⟩) :
    ∃ t, signing S v1 FL FD FG FE FW p m s w = .crash t ∧ t.world = w1 := by
  unfold startMem at *
  rcases hs with ⟨hs, rfl⟩ | ⟨hs, rfl⟩
  · have hq : ¬m ++ [46, 115, 105, 103] = [] := by simp
    exact ⟨_, by seval [hs, hq, h], rfl⟩
  · exact ⟨_, by seval [hs, h], rfl⟩

theorem plain2_err {e : GoErr} {priv : Private} {a b' : List Val} (hL : FL [.str p] ⟨startMem promptFunc v1 p m s', 2, [], w⟩ =
      .ok [.ptr ⟨25, []⟩, .nil] ⟨startMem promptFunc v1 p m s' ++ privMem priv a b', 2, [], w1⟩) (he : ¬(priv.kdfRounds.toNat : Int) > 0) (h : S.readFile m w1 = (.err e, w2)) :
    signing S v1 FL FD FG FE FW p m s w = .ok [libErr e] ⟨[promptFunc, v1], 2, [], w2⟩ := by
  unfold startMem at *
  rcases hs with ⟨hs, rfl⟩ | ⟨hs, rfl⟩
  · have hq : ¬m ++ [46, 115, 105, 103] = [] := by simp
    seval [hs, hq, hL, he, h]
  · seval [hs, hL, he, h]

theorem plain2_crash {priv : Private} {a b' : List Val} (hL : FL [.str p] ⟨startMem promptFunc v1 p m s', 2, [], w⟩ =
      .ok [.ptr ⟨25, []⟩, .nil] ⟨startMem promptFunc v1 p m s' ++ privMem priv a b', 2, [], w1⟩) (he : ¬(priv.kdfRounds.toNat : Int) > 0) (h : S.readFile m w1 = (.crash, w2)) :
    ∃ t, signing S v1 FL FD FG FE FW p m s w = .crash t ∧ t.world = w2 := by
  unfold startMem at *
  rcases hs with ⟨hs, rfl⟩ | ⟨hs, rfl⟩
  · have hq : ¬m ++ [46, 115, 105, 103] = [] := by simp
    exact ⟨_, by seval [hs, hq, hL, he, h], rfl⟩
  · exact ⟨_, by seval [hs, hL, he, h], rfl⟩

theorem plain3_err {x : EVal} {priv : Private} {a b' : List Val} (hL : FL [.str p] ⟨startMem promptFunc v1 p m s', 2, [], w⟩ =
      .ok [.ptr ⟨25, []⟩, .nil] ⟨startMem promptFunc v1 p m s' ++ privMem priv a b', 2, [], w1⟩) (he : ¬(priv.kdfRounds.toNat : Int) > 0) {msg : Bytes} (hR : S.readFile m w1 = (.ok msg, w2)) {ke : Arr 64} {sig : Signature} (hG : FG [.ptr ⟨25, []⟩, .slice ⟨30, []⟩ 0 msg.length (byteVals msg).length] ⟨startMem promptFunc v1 p m s' ++ privMem priv a b' ++ [.ptr ⟨25, []⟩, .nil] ++ msgOn 30 msg, 2, [], w2⟩ = .ok [.ptr ⟨34, []⟩, .nil] ⟨startMem promptFunc v1 p m s' ++ privMem priv a b' ++ [.ptr ⟨25, []⟩, .nil] ++ msgOn 30 msg ++ sigOn 30 msg ke sig, 2, [], w2⟩) (hE : FE [.ptr ⟨34, []⟩] ⟨startMem promptFunc v1 p m s' ++ privMem priv a b' ++ [.ptr ⟨25, []⟩, .nil] ++ msgOn 30 msg ++ sigOn 30 msg ke sig ++ nameOn 30 p, 2, [], w2⟩ = .ok [.slice ⟨46, []⟩ 0 74 (byteVals sig.encode).length] ⟨startMem promptFunc v1 p m s' ++ privMem priv a b' ++ [.ptr ⟨25, []⟩, .nil] ++ msgOn 30 msg ++ sigOn 30 msg ke sig ++ nameOn 30 p ++ bytesOn 30 sig, 2, [], w2⟩) (h : FW [.str s', .str (signComment p), .slice ⟨46, []⟩ 0 74 (byteVals sig.encode).length] ⟨startMem promptFunc v1 p m s' ++ privMem priv a b' ++ [.ptr ⟨25, []⟩, .nil] ++ msgOn 30 msg ++ sigOn 30 msg ke sig ++ nameOn 30 p ++ bytesOn 30 sig, 2, [], w2⟩ = .ok [.err x] ⟨startMem promptFunc v1 p m s' ++ privMem priv a b' ++ [.ptr ⟨25, []⟩, .nil] ++ msgOn 30 msg ++ sigOn 30 msg ke sig ++ nameOn 30 p ++ bytesOn 30 sig, 2, [], w6⟩) :
    signing S v1 FL FD FG FE FW p m s w = .ok [.err x] ⟨[promptFunc, v1], 2, [], w6⟩ := by
  unfold startMem at *
  rcases hs with ⟨hs, rfl⟩ | ⟨hs, rfl⟩
  · have hq : ¬m ++ [46, 115, 105, 103] = [] := by simp
    seval [hs, hq, hL, he, hR, hG, hE, h]
  · seval [hs, hL, he, hR, hG, hE, h]

theorem plain3_ok {priv : Private} {a b' : List Val} (hL : FL [.str p] ⟨startMem promptFunc v1 p m s', 2, [], w⟩ =
      .ok [.ptr ⟨25, []⟩, .nil] ⟨startMem promptFunc v1 p m s' ++ privMem priv a b', 2, [], w1⟩) (he : ¬(priv.kdfRounds.toNat : Int) > 0) {msg : Bytes} (hR : S.readFile m w1 = (.ok msg, w2)) {ke : Arr 64} {sig : Signature} (hG : FG [.ptr ⟨25, []⟩, .slice ⟨30, []⟩ 0 msg.length (byteVals msg).length] ⟨startMem promptFunc v1 p m s' ++ privMem priv a b' ++ [.ptr ⟨25, []⟩, .nil] ++ msgOn 30 msg, 2, [], w2⟩ = .ok [.ptr ⟨34, []⟩, .nil] ⟨startMem promptFunc v1 p m s' ++ privMem priv a b' ++ [.ptr ⟨25, []⟩, .nil] ++ msgOn 30 msg ++ sigOn 30 msg ke sig, 2, [], w2⟩) (hE : FE [.ptr ⟨34, []⟩] ⟨startMem promptFunc v1 p m s' ++ privMem priv a b' ++ [.ptr ⟨25, []⟩, .nil] ++ msgOn 30 msg ++ sigOn 30 msg ke sig ++ nameOn 30 p, 2, [], w2⟩ = .ok [.slice ⟨46, []⟩ 0 74 (byteVals sig.encode).length] ⟨startMem promptFunc v1 p m s' ++ privMem priv a b' ++ [.ptr ⟨25, []⟩, .nil] ++ msgOn 30 msg ++ sigOn 30 msg ke sig ++ nameOn 30 p ++ bytesOn 30 sig, 2, [], w2⟩) (h : FW [.str s', .str (signComment p), .slice ⟨46, []⟩ 0 74 (byteVals sig.encode).length] ⟨startMem promptFunc v1 p m s' ++ privMem priv a b' ++ [.ptr ⟨25, []⟩, .nil] ++ msgOn 30 msg ++ sigOn 30 msg ke sig ++ nameOn 30 p ++ bytesOn 30 sig, 2, [], w2⟩ = .ok [.nil] ⟨startMem promptFunc v1 p m s' ++ privMem priv a b' ++ [.ptr ⟨25, []⟩, .nil] ++ msgOn 30 msg ++ sigOn 30 msg ke sig ++ nameOn 30 p ++ bytesOn 30 sig, 2, [], w6⟩) :
    signing S v1 FL FD FG FE FW p m s w = .ok [.nil] ⟨[promptFunc, v1], 2, [], w6⟩ := by
  unfold startMem at *
  rcases hs with ⟨hs, rfl⟩ | ⟨hs, rfl⟩
  · have hq : ¬m ++ [46, 115, 105, 103] = [] := by simp
    seval [hs, hq, hL, he, hR, hG, hE, h]
  · seval [hs, hL, he, hR, hG, hE, h]

theorem plain3_crash {l : List Val} {b : Nat} {df : List Deferred} {priv : Private} {a b' : List Val} (hL : FL [.str p] ⟨startMem promptFunc v1 p m s', 2, [], w⟩ =
      .ok [.ptr ⟨25, []⟩, .nil] ⟨startMem promptFunc v1 p m s' ++ privMem priv a b', 2, [], w1⟩) (he : ¬(priv.kdfRounds.toNat : Int) > 0) {msg : Bytes} (hR : S.readFile m w1 = (.ok msg, w2)) {ke : Arr 64} {sig : Signature} (hG : FG [.ptr ⟨25, []⟩, .slice ⟨30, []⟩ 0 msg.length (byteVals msg).length] ⟨startMem promptFunc v1 p m s' ++ privMem priv a b' ++ [.ptr ⟨25, []⟩, .nil] ++ msgOn 30 msg, 2, [], w2⟩ = .ok [.ptr ⟨34, []⟩, .nil] ⟨startMem promptFunc v1 p m s' ++ privMem priv a b' ++ [.ptr ⟨25, []⟩, .nil] ++ msgOn 30 msg ++ sigOn 30 msg ke sig, 2, [], w2⟩) (hE : FE [.ptr ⟨34, []⟩] ⟨startMem promptFunc v1 p m s' ++ privMem priv a b' ++ [.ptr ⟨25, []⟩, .nil] ++ msgOn 30 msg ++ sigOn 30 msg ke sig ++ nameOn 30 p, 2, [], w2⟩ = .ok [.slice ⟨46, []⟩ 0 74 (byteVals sig.encode).length] ⟨startMem promptFunc v1 p m s' ++ privMem priv a b' ++ [.ptr ⟨25, []⟩, .nil] ++ msgOn 30 msg ++ sigOn 30 msg ke sig ++ nameOn 30 p ++ bytesOn 30 sig, 2, [], w2⟩) (h : FW [.str s', .str (signComment p), .slice ⟨46, []⟩ 0 74 (byteVals sig.encode).length] ⟨startMem promptFunc v1 p m s' ++ privMem priv a b' ++ [.ptr ⟨25, []⟩, .nil] ++ msgOn 30 msg ++ sigOn 30 msg ke sig ++ nameOn 30 p ++ bytesOn 30 sig, 2, [], w2⟩ = .crash ⟨l, b, df, w6⟩) :
    ∃ t, signing S v1 FL FD FG FE FW p m s w = .crash t ∧ t.world = w6 := by
  unfold startMem at *
  rcases hs with ⟨hs, rfl⟩ | ⟨hs, rfl⟩
  · have hq : ¬m ++ [46, 115, 105, 103] = [] := by simp
    exact ⟨_, by seval [hs, hq, hL, he, hR, hG, hE, h], rfl⟩
  · exact ⟨_, by seval [hs, hL, he, hR, hG, hE, h], rfl⟩

theorem ask_err {e : GoErr} {priv : Private} {a b' : List Val} (hL : FL [.str p] ⟨startMem promptFunc v1 p m s', 2, [], w⟩ =
      .ok [.ptr ⟨25, []⟩, .nil] ⟨startMem promptFunc v1 p m s' ++ privMem priv a b', 2, [], w1⟩) (he : (priv.kdfRounds.toNat : Int) > 0) (h1 : S.print b!"Password: " w1 = (.ok (), w2)) (h : S.readPassword w2 = (.err e, w3)) :
    signing S v1 FL FD FG FE FW p m s w = .ok [libErr e] ⟨[promptFunc, v1], 2, [], w3⟩ := by
  unfold startMem at *
  rcases hs with ⟨hs, rfl⟩ | ⟨hs, rfl⟩
  · have hq : ¬m ++ [46, 115, 105, 103] = [] := by simp
    seval [hs, hq, hL, he, h1, h]
  · seval [hs, hL, he, h1, h]

theorem ask_crash {priv : Private} {a b' : List Val} (hL : FL [.str p] ⟨startMem promptFunc v1 p m s', 2, [], w⟩ =
      .ok [.ptr ⟨25, []⟩, .nil] ⟨startMem promptFunc v1 p m s' ++ privMem priv a b', 2, [], w1⟩) (he : (priv.kdfRounds.toNat : Int) > 0) (h1 : S.print b!"Password: " w1 = (.ok (), w2)) (h : S.readPassword w2 = (.crash, w3)) :
    ∃ t, signing S v1 FL FD FG FE FW p m s w = .crash t ∧ t.world = w3 := by
  unfold startMem at *
  rcases hs with ⟨hs, rfl⟩ | ⟨hs, rfl⟩
  · have hq : ¬m ++ [46, 115, 105, 103] = [] := by simp
    exact ⟨_, by seval [hs, hq, hL, he, h1, h], rfl⟩
  · exact ⟨_, by seval [hs, hL, he, h1, h], rfl⟩

theorem dec_err {priv' : Private} {x : EVal} {priv : Private} {a b' : List Val} (hL : FL [.str p] ⟨startMem promptFunc v1 p m s', 2, [], w⟩ =
      .ok [.ptr ⟨25, []⟩, .nil] ⟨startMem promptFunc v1 p m s' ++ privMem priv a b', 2, [], w1⟩) (he : (priv.kdfRounds.toNat : Int) > 0) (h1 : S.print b!"Password: " w1 = (.ok (), w2)) {pw : Bytes} (h2 : S.readPassword w2 = (.ok pw, w3)) (h3 : S.print [10] w3 = (.ok (), w4)) (h : FD [.ptr ⟨25, []⟩, .slice ⟨32, []⟩ 0 pw.length (byteVals pw).length] ⟨startMem promptFunc v1 p m s' ++ privMem priv a b' ++ askMem .nil .nil pw, 2, wipe, w4⟩ = .ok [.err x] ⟨startMem promptFunc v1 p m s' ++ privMem priv' a b' ++ askMem .nil .nil pw, 2, wipe, w4⟩) :
    signed S v1 FL FD FG FE FW p m s w = .ok [.err x] ⟨startMem promptFunc v1 p m s' ++ privMem priv' a b' ++ askMem .nil (.err x) pw, 2, wipe, w4⟩ := by
  unfold startMem at *
  rcases hs with ⟨hs, rfl⟩ | ⟨hs, rfl⟩
  · have hq : ¬m ++ [46, 115, 105, 103] = [] := by simp
    seval [hs, hq, hL, he, h1, h2, h3, h]
  · seval [hs, hL, he, h1, h2, h3, h]

theorem enc2_err {e : GoErr} {priv : Private} {a b' : List Val} (hL : FL [.str p] ⟨startMem promptFunc v1 p m s', 2, [], w⟩ =
      .ok [.ptr ⟨25, []⟩, .nil] ⟨startMem promptFunc v1 p m s' ++ privMem priv a b', 2, [], w1⟩) (he : (priv.kdfRounds.toNat : Int) > 0) (h1 : S.print b!"Password: " w1 = (.ok (), w2)) {pw : Bytes} (h2 : S.readPassword w2 = (.ok pw, w3)) (h3 : S.print [10] w3 = (.ok (), w4)) {priv' : Private} (hD : FD [.ptr ⟨25, []⟩, .slice ⟨32, []⟩ 0 pw.length (byteVals pw).length] ⟨startMem promptFunc v1 p m s' ++ privMem priv a b' ++ askMem .nil .nil pw, 2, wipe, w4⟩ = .ok [.nil] ⟨startMem promptFunc v1 p m s' ++ privMem priv' a b' ++ askMem .nil .nil pw, 2, wipe, w4⟩) (h : S.readFile m w4 = (.err e, w5)) :
    signed S v1 FL FD FG FE FW p m s w = .ok [libErr e] ⟨startMem promptFunc v1 p m s' ++ privMem priv' a b' ++ askMem (libErr e) .nil pw ++ [.nil], 2, wipe, w5⟩ := by
  unfold startMem at *
  rcases hs with ⟨hs, rfl⟩ | ⟨hs, rfl⟩
  · have hq : ¬m ++ [46, 115, 105, 103] = [] := by simp
    seval [hs, hq, hL, he, h1, h2, h3, hD, h]
  · seval [hs, hL, he, h1, h2, h3, hD, h]

theorem enc2_crash {priv : Private} {a b' : List Val} (hL : FL [.str p] ⟨startMem promptFunc v1 p m s', 2, [], w⟩ =
      .ok [.ptr ⟨25, []⟩, .nil] ⟨startMem promptFunc v1 p m s' ++ privMem priv a b', 2, [], w1⟩) (he : (priv.kdfRounds.toNat : Int) > 0) (h1 : S.print b!"Password: " w1 = (.ok (), w2)) {pw : Bytes} (h2 : S.readPassword w2 = (.ok pw, w3)) (h3 : S.print [10] w3 = (.ok (), w4)) {priv' : Private} (hD : FD [.ptr ⟨25, []⟩, .slice ⟨32, []⟩ 0 pw.length (byteVals pw).length] ⟨startMem promptFunc v1 p m s' ++ privMem priv a b' ++ askMem .nil .nil pw, 2, wipe, w4⟩ = .ok [.nil] ⟨startMem promptFunc v1 p m s' ++ privMem priv' a b' ++ askMem .nil .nil pw, 2, wipe, w4⟩) (h : S.readFile m w4 = (.crash, w5)) :
    ∃ t, signed S v1 FL FD FG FE FW p m s w = .crash t ∧ t.world = w5 := by
  unfold startMem at *
  rcases hs with ⟨hs, rfl⟩ | ⟨hs, rfl⟩
  · have hq : ¬m ++ [46, 115, 105, 103] = [] := by simp
    exact ⟨_, by seval [hs, hq, hL, he, h1, h2, h3, hD, h], rfl⟩
  · exact ⟨_, by seval [hs, hL, he, h1, h2, h3, hD, h], rfl⟩

theorem enc3_err {x : EVal} {priv : Private} {a b' : List Val} (hL : FL [.str p] ⟨startMem promptFunc v1 p m s', 2, [], w⟩ =
      .ok [.ptr ⟨25, []⟩, .nil] ⟨startMem promptFunc v1 p m s' ++ privMem priv a b', 2, [], w1⟩) (he : (priv.kdfRounds.toNat : Int) > 0) (h1 : S.print b!"Password: " w1 = (.ok (), w2)) {pw : Bytes} (h2 : S.readPassword w2 = (.ok pw, w3)) (h3 : S.print [10] w3 = (.ok (), w4)) {priv' : Private} (hD : FD [.ptr ⟨25, []⟩, .slice ⟨32, []⟩ 0 pw.length (byteVals pw).length] ⟨startMem promptFunc v1 p m s' ++ privMem priv a b' ++ askMem .nil .nil pw, 2, wipe, w4⟩ = .ok [.nil] ⟨startMem promptFunc v1 p m s' ++ privMem priv' a b' ++ askMem .nil .nil pw, 2, wipe, w4⟩) {msg : Bytes} (hR : S.readFile m w4 = (.ok msg, w5)) {ke : Arr 64} {sig : Signature} (hG : FG [.ptr ⟨25, []⟩, .slice ⟨36, []⟩ 0 msg.length (byteVals msg).length] ⟨startMem promptFunc v1 p m s' ++ privMem priv' a b' ++ askMem .nil .nil pw ++ msgOn 36 msg, 2, wipe, w5⟩ = .ok [.ptr ⟨40, []⟩, .nil] ⟨startMem promptFunc v1 p m s' ++ privMem priv' a b' ++ askMem .nil .nil pw ++ msgOn 36 msg ++ sigOn 36 msg ke sig, 2, wipe, w5⟩) (hE : FE [.ptr ⟨40, []⟩] ⟨startMem promptFunc v1 p m s' ++ privMem priv' a b' ++ askMem .nil .nil pw ++ msgOn 36 msg ++ sigOn 36 msg ke sig ++ nameOn 36 p, 2, wipe, w5⟩ = .ok [.slice ⟨52, []⟩ 0 74 (byteVals sig.encode).length] ⟨startMem promptFunc v1 p m s' ++ privMem priv' a b' ++ askMem .nil .nil pw ++ msgOn 36 msg ++ sigOn 36 msg ke sig ++ nameOn 36 p ++ bytesOn 36 sig, 2, wipe, w5⟩) (h : FW [.str s', .str (signComment p), .slice ⟨52, []⟩ 0 74 (byteVals sig.encode).length] ⟨startMem promptFunc v1 p m s' ++ privMem priv' a b' ++ askMem .nil .nil pw ++ msgOn 36 msg ++ sigOn 36 msg ke sig ++ nameOn 36 p ++ bytesOn 36 sig, 2, wipe, w5⟩ = .ok [.err x] ⟨startMem promptFunc v1 p m s' ++ privMem priv' a b' ++ askMem .nil .nil pw ++ msgOn 36 msg ++ sigOn 36 msg ke sig ++ nameOn 36 p ++ bytesOn 36 sig, 2, wipe, w6⟩) :
    signed S v1 FL FD FG FE FW p m s w = .ok [.err x] ⟨startMem promptFunc v1 p m s' ++ privMem priv' a b' ++ askMem (.err x) .nil pw ++ msgOn 36 msg ++ sigOn 36 msg ke sig ++ nameOn 36 p ++ bytesOn 36 sig, 2, wipe, w6⟩ := by
  unfold startMem at *
  rcases hs with ⟨hs, rfl⟩ | ⟨hs, rfl⟩
  · have hq : ¬m ++ [46, 115, 105, 103] = [] := by simp
    seval [hs, hq, hL, he, h1, h2, h3, hD, hR, hG, hE, h]
  · seval [hs, hL, he, h1, h2, h3, hD, hR, hG, hE, h]

theorem enc3_ok {priv : Private} {a b' : List Val} (hL : FL [.str p] ⟨startMem promptFunc v1 p m s', 2, [], w⟩ =
      .ok [.ptr ⟨25, []⟩, .nil] ⟨startMem promptFunc v1 p m s' ++ privMem priv a b', 2, [], w1⟩) (he : (priv.kdfRounds.toNat : Int) > 0) (h1 : S.print b!"Password: " w1 = (.ok (), w2)) {pw : Bytes} (h2 : S.readPassword w2 = (.ok pw, w3)) (h3 : S.print [10] w3 = (.ok (), w4)) {priv' : Private} (hD : FD [.ptr ⟨25, []⟩, .slice ⟨32, []⟩ 0 pw.length (byteVals pw).length] ⟨startMem promptFunc v1 p m s' ++ privMem priv a b' ++ askMem .nil .nil pw, 2, wipe, w4⟩ = .ok [.nil] ⟨startMem promptFunc v1 p m s' ++ privMem priv' a b' ++ askMem .nil .nil pw, 2, wipe, w4⟩) {msg : Bytes} (hR : S.readFile m w4 = (.ok msg, w5)) {ke : Arr 64} {sig : Signature} (hG : FG [.ptr ⟨25, []⟩, .slice ⟨36, []⟩ 0 msg.length (byteVals msg).length] ⟨startMem promptFunc v1 p m s' ++ privMem priv' a b' ++ askMem .nil .nil pw ++ msgOn 36 msg, 2, wipe, w5⟩ = .ok [.ptr ⟨40, []⟩, .nil] ⟨startMem promptFunc v1 p m s' ++ privMem priv' a b' ++ askMem .nil .nil pw ++ msgOn 36 msg ++ sigOn 36 msg ke sig, 2, wipe, w5⟩) (hE : FE [.ptr ⟨40, []⟩] ⟨startMem promptFunc v1 p m s' ++ privMem priv' a b' ++ askMem .nil .nil pw ++ msgOn 36 msg ++ sigOn 36 msg ke sig ++ nameOn 36 p, 2, wipe, w5⟩ = .ok [.slice ⟨52, []⟩ 0 74 (byteVals sig.encode).length] ⟨startMem promptFunc v1 p m s' ++ privMem priv' a b' ++ askMem .nil .nil pw ++ msgOn 36 msg ++ sigOn 36 msg ke sig ++ nameOn 36 p ++ bytesOn 36 sig, 2, wipe, w5⟩) (h : FW [.str s', .str (signComment p), .slice ⟨52, []⟩ 0 74 (byteVals sig.encode).length] ⟨startMem promptFunc v1 p m s' ++ privMem priv' a b' ++ askMem .nil .nil pw ++ msgOn 36 msg ++ sigOn 36 msg ke sig ++ nameOn 36 p ++ bytesOn 36 sig, 2, wipe, w5⟩ = .ok [.nil] ⟨startMem promptFunc v1 p m s' ++ privMem priv' a b' ++ askMem .nil .nil pw ++ msgOn 36 msg ++ sigOn 36 msg ke sig ++ nameOn 36 p ++ bytesOn 36 sig, 2, wipe, w6⟩) :
    signed S v1 FL FD FG FE FW p m s w = .ok [.nil] ⟨startMem promptFunc v1 p m s' ++ privMem priv' a b' ++ askMem .nil .nil pw ++ msgOn 36 msg ++ sigOn 36 msg ke sig ++ nameOn 36 p ++ bytesOn 36 sig, 2, wipe, w6⟩ := by
  unfold startMem at *
  rcases hs with ⟨hs, rfl⟩ | ⟨hs, rfl⟩
  · have hq : ¬m ++ [46, 115, 105, 103] = [] := by simp
    seval [hs, hq, hL, he, h1, h2, h3, hD, hR, hG, hE, h]
  · seval [hs, hL, he, h1, h2, h3, hD, hR, hG, hE, h]

theorem enc3_crash {l : List Val} {b : Nat} {df : List Deferred} {priv : Private} {a b' : List Val} (hL : FL [.str p] ⟨startMem promptFunc v1 p m s', 2, [], w⟩ =
      .ok [.ptr ⟨25, []⟩, .nil] ⟨startMem promptFunc v1 p m s' ++ privMem priv a b', 2, [], w1⟩) (he : (priv.kdfRounds.toNat : Int) > 0) (h1 : S.print b!"Password: " w1 = (.ok (), w2)) {pw : Bytes} (h2 : S.readPassword w2 = (.ok pw, w3)) (h3 : S.print [10] w3 = (.ok (), w4)) {priv' : Private} (hD : FD [.ptr ⟨25, []⟩, .slice ⟨32, []⟩ 0 pw.length (byteVals pw).length] ⟨startMem promptFunc v1 p m s' ++ privMem priv a b' ++ askMem .nil .nil pw, 2, wipe, w4⟩ = .ok [.nil] ⟨startMem promptFunc v1 p m s' ++ privMem priv' a b' ++ askMem .nil .nil pw, 2, wipe, w4⟩) {msg : Bytes} (hR : S.readFile m w4 = (.ok msg, w5)) {ke : Arr 64} {sig : Signature} (hG : FG [.ptr ⟨25, []⟩, .slice ⟨36, []⟩ 0 msg.length (byteVals msg).length] ⟨startMem promptFunc v1 p m s' ++ privMem priv' a b' ++ askMem .nil .nil pw ++ msgOn 36 msg, 2, wipe, w5⟩ = .ok [.ptr ⟨40, []⟩, .nil] ⟨startMem promptFunc v1 p m s' ++ privMem priv' a b' ++ askMem .nil .nil pw ++ msgOn 36 msg ++ sigOn 36 msg ke sig, 2, wipe, w5⟩) (hE : FE [.ptr ⟨40, []⟩] ⟨startMem promptFunc v1 p m s' ++ privMem priv' a b' ++ askMem .nil .nil pw ++ msgOn 36 msg ++ sigOn 36 msg ke sig ++ nameOn 36 p, 2, wipe, w5⟩ = .ok [.slice ⟨52, []⟩ 0 74 (byteVals sig.encode).length] ⟨startMem promptFunc v1 p m s' ++ privMem priv' a b' ++ askMem .nil .nil pw ++ msgOn 36 msg ++ sigOn 36 msg ke sig ++ nameOn 36 p ++ bytesOn 36 sig, 2, wipe, w5⟩) (h : FW [.str s', .str (signComment p), .slice ⟨52, []⟩ 0 74 (byteVals sig.encode).length] ⟨startMem promptFunc v1 p m s' ++ privMem priv' a b' ++ askMem .nil .nil pw ++ msgOn 36 msg ++ sigOn 36 msg ke sig ++ nameOn 36 p ++ bytesOn 36 sig, 2, wipe, w5⟩ = .crash ⟨l, b, df, w6⟩) :
    ∃ t, signed S v1 FL FD FG FE FW p m s w = .crash t ∧ t.world = w6 := by
  unfold startMem at *
  rcases hs with ⟨hs, rfl⟩ | ⟨hs, rfl⟩
  · have hq : ¬m ++ [46, 115, 105, 103] = [] := by simp
    exact ⟨_, by seval [hs, hq, hL, he, h1, h2, h3, hD, hR, hG, hE, h], rfl⟩
  · exact ⟨_, by seval [hs, hL, he, h1, h2, h3, hD, hR, hG, hE, h], rfl⟩

end

end Verif.Src
