/-
The text of `open` of crypto/crypto.go, in parts.
-/
import Verif.Source.ToBoxText
import Verif.Source.SealMain

namespace Verif.Src

variable {ω : Type} (S : Sys ω) (v0 v1 : Val)

/-- Memory at the start. -/
def openMem0 (priv : Private) (hm hw : Nat) : List Val := [v0, v1, privateVal priv, decoderVal hm, .ptr ⟨2, []⟩, .ptr ⟨3, []⟩, fileVal hw]

/-- The arguments. -/
def openArgs (hw : Nat) : List Val := [.ptr ⟨2, []⟩, .ptr ⟨3, []⟩, fileVal hw]

/-- Memory after `ToBox`. -/
def openMem1 (priv : Private) (hm hw j : Nat) (pre : List Val) (sc : Arr 32) (z : Val) : List Val :=
  openMem0 v0 v1 priv hm hw ++ spread j pre ++ [encArr sc, z]

/-- Memory with the header. -/
def openMem2 (priv : Private) (hm hw j : Nat) (pre : List Val) (sc : Arr 32) (z : Val) (hv : List Val) : List Val :=
  openMem1 v0 v1 priv hm hw j pre sc z ++ [.ptr ⟨j + 7, []⟩, .nil, .arr hv]

/-- `n` bytes of the header, one by one. -/
def headL (hd : Arr 72) (a n : Nat) : Bytes := (List.range n).map fun i => hd.toList.getD (a + i) 0

theorem headL_eq (hd : Arr 72) {a n : Nat} (h : a + n ≤ 72) : headL hd a n = (hd.toList.drop a).take n := by
  refine List.ext_getElem (by simp [headL]; omega) fun i h1 h2 => ?_
  simp only [headL, List.length_map, List.length_range] at h1
  simp [headL, show a + i < 72 by omega]

/-- The header, one by one. -/
def headV (hd : Arr 72) : List Val := (headL hd 0 72).map byteVal

theorem headV_eq (hd : Arr 72) : headV hd = byteVals hd.toList := by
  rw [headV, headL_eq hd (by omega), List.drop_zero, List.take_of_length_le (by simp)]
  rfl

/-- The header before it is read. -/
def zeroV : List Val := (List.range 72).map fun _ => .int .uint8 0

theorem zeroV_eq : zeroV = byteVals (List.replicate 72 0) := rfl

/-- Memory with what is in the header. -/
def openMem3 (priv : Private) (hm hw j : Nat) (pre : List Val) (sc : Arr 32) (z : Val) (hv : List Val) (c : Nat) (ep shared : Arr 32) : List Val :=
  openMem2 v0 v1 priv hm hw j pre sc z hv ++ [.int .int 72, .int .uint64 c, encArr ep, encArr shared]

/-- Memory before the loop. -/
def openMem4 (priv : Private) (hm hw j : Nat) (pre : List Val) (sc : Arr 32) (z : Val) (hv : List Val) (c : Nat) (ep shared : Arr 32) (cv : List Val)
    (nonce : Arr 24) : List Val :=
  openMem3 v0 v1 priv hm hw j pre sc z hv c ep shared ++ [.arr cv, .slice ⟨j + 16, []⟩ 0 16401 16401, encArr nonce]

def openEnv : Env := [(id!"w", .var ⟨6, []⟩), (id!"message", .var ⟨5, []⟩), (id!"priv", .var ⟨4, []⟩)]
def openEnv1 (j : Nat) : Env := [(id!"shared", .var ⟨j + 15, []⟩), (id!"epub", .var ⟨j + 14, []⟩), (id!"chunks", .var ⟨j + 13, []⟩), (id!"n", .var ⟨j + 12, []⟩),
  (id!"header", .var ⟨j + 11, []⟩), (id!"err", .var ⟨j + 10, []⟩), (id!"edpriv", .var ⟨j + 9, []⟩)] ++ openEnv
def openEnv2 (j : Nat) : Env := [(id!"nonce", .var ⟨j + 18, []⟩), (id!"chunk", .var ⟨j + 17, []⟩)] ++ openEnv1 j

/-- The names in the scope of the loop of `open`. -/
def openCtx (j : Nat) : Ctx := ⟨id!"crypto", [(id!"i", .var ⟨j + 19, []⟩), (0, .val .nil)] ++ openEnv2 j⟩

/-- The loop of `open`, crypto.go:185-205. -/
noncomputable def openFor := Stmt.loopParts (crypt.open.body[13]?)

/-- An array as it is read from memory. -/
def remadeK {n : Nat} (x : Arr n) : Arr n := ⟨(((List.range n).map fun i => Val.int .uint8 (EdSrc.intsOf x i)).map valByte).toArray, by simp⟩

theorem remadeK_eq {n : Nat} (x : Arr n) : remadeK x = x := by
  apply Vector.toList_inj.mp
  refine List.ext_getElem (by simp [remadeK]) fun i h1 h2 => ?_
  have h : i < n := by simpa using h2
  simp [remadeK, EdSrc.intsOf, valByte, h]

/-- The key of the sender. -/
def epubOf (hd : Arr 72) : Arr 32 := copyZ 32 (hd.toList.drop 8)

theorem epub_eq (hd : Arr 72) : encArr (epubOf hd) = .arr ((headL hd 8 32).map byteVal) := by
  rw [encArr_bytes, epubOf, copyZ_toList_of_le (by simp), headL_eq hd (by omega)]
  rfl

section
variable (C : Id → Func → List Val → M ω (List Val)) {priv priv' : Private} {hm hw : Nat} {pre : List Val} {sc : Arr 32} {z : Val} {j : Nat}
  (hj : j = 2 ∨ j = 7) {w w1 w2 : ω}

theorem open1_err {x : EVal} (hT : C id!"signify" key.Private.ToBox [.ptr ⟨2, []⟩] ⟨openMem0 v0 v1 priv hm hw, 4, [], w⟩ =
      .ok [.nil, .err x] ⟨openMem0 v0 v1 priv' hm hw, 4, [], w1⟩) :
    callC (repo S) C id!"crypto" crypt.open (openArgs hw) ⟨[v0, v1, privateVal priv, decoderVal hm], 4, [], w⟩ =
      .ok [.err x] ⟨[v0, v1, privateVal priv', decoderVal hm], 4, [], w1⟩ := by
  seval [hT]

theorem open1_panic {l : List Val} {b : Nat} (hT : C id!"signify" key.Private.ToBox [.ptr ⟨2, []⟩] ⟨openMem0 v0 v1 priv hm hw, 4, [], w⟩ =
      .panic ⟨l, b, [], w1⟩) :
    ∃ t, callC (repo S) C id!"crypto" crypt.open (openArgs hw) ⟨[v0, v1, privateVal priv, decoderVal hm], 4, [], w⟩ = .panic t ∧ t.world = w1 ∧ t.defers = [] :=
  ⟨_, by seval [hT], rfl, rfl⟩

theorem open1_crash {l : List Val} {b : Nat} {df : List Deferred} (hT : C id!"signify" key.Private.ToBox [.ptr ⟨2, []⟩] ⟨openMem0 v0 v1 priv hm hw, 4, [], w⟩ =
      .crash ⟨l, b, df, w1⟩) :
    ∃ t, callC (repo S) C id!"crypto" crypt.open (openArgs hw) ⟨[v0, v1, privateVal priv, decoderVal hm], 4, [], w⟩ = .crash t ∧ t.world = w1 :=
  ⟨_, by seval [hT], rfl⟩

variable (hT : C id!"signify" key.Private.ToBox [.ptr ⟨2, []⟩] ⟨openMem0 v0 v1 priv hm hw, 4, [], w⟩ =
      .ok [.ptr ⟨j + 7, []⟩, .nil] ⟨openMem1 v0 v1 priv' hm hw j pre sc z, 4, [], w1⟩)
include hj hT

theorem open2_err {x : EVal} (hR : C id!"base64" coding.Decoder.Read [.ptr ⟨3, []⟩, .slice ⟨j + 11, []⟩ 0 72 72]
        ⟨openMem2 v0 v1 priv' hm hw j pre sc z zeroV, 4, [], w1⟩ =
      .ok [.int .int 0, .err x] ⟨openMem2 v0 v1 priv' hm hw j pre sc z zeroV, 4, [], w2⟩) :
    callC (repo S) C id!"crypto" crypt.open (openArgs hw) ⟨[v0, v1, privateVal priv, decoderVal hm], 4, [], w⟩ =
      .ok [.err x] ⟨[v0, v1, privateVal priv', decoderVal hm], 4, [], w2⟩ := by
  rcases hj with rfl | rfl
  · seval [hT, hR]
  · seval [hT, hR]

theorem open2_panic {l : List Val} {b : Nat} (hR : C id!"base64" coding.Decoder.Read [.ptr ⟨3, []⟩, .slice ⟨j + 11, []⟩ 0 72 72]
        ⟨openMem2 v0 v1 priv' hm hw j pre sc z zeroV, 4, [], w1⟩ = .panic ⟨l, b, [], w2⟩) :
    ∃ t, callC (repo S) C id!"crypto" crypt.open (openArgs hw) ⟨[v0, v1, privateVal priv, decoderVal hm], 4, [], w⟩ = .panic t ∧ t.world = w2 ∧ t.defers = [] := by
  rcases hj with rfl | rfl
  · exact ⟨_, by seval [hT, hR], rfl, rfl⟩
  · exact ⟨_, by seval [hT, hR], rfl, rfl⟩

theorem open2_crash {l : List Val} {b : Nat} {df : List Deferred} (hR : C id!"base64" coding.Decoder.Read [.ptr ⟨3, []⟩, .slice ⟨j + 11, []⟩ 0 72 72]
        ⟨openMem2 v0 v1 priv' hm hw j pre sc z zeroV, 4, [], w1⟩ = .crash ⟨l, b, df, w2⟩) :
    ∃ t, callC (repo S) C id!"crypto" crypt.open (openArgs hw) ⟨[v0, v1, privateVal priv, decoderVal hm], 4, [], w⟩ = .crash t ∧ t.world = w2 := by
  rcases hj with rfl | rfl
  · exact ⟨_, by seval [hT, hR], rfl⟩
  · exact ⟨_, by seval [hT, hR], rfl⟩

theorem open3_short {k : Nat} (hk : ¬(k : Int) = 72) {hv : List Val} (hR : C id!"base64" coding.Decoder.Read [.ptr ⟨3, []⟩, .slice ⟨j + 11, []⟩ 0 72 72]
        ⟨openMem2 v0 v1 priv' hm hw j pre sc z zeroV, 4, [], w1⟩ =
      .ok [.int .int k, .nil] ⟨openMem2 v0 v1 priv' hm hw j pre sc z hv, 4, [], w2⟩) :
    callC (repo S) C id!"crypto" crypt.open (openArgs hw) ⟨[v0, v1, privateVal priv, decoderVal hm], 4, [], w⟩ =
      .ok [.err (.text b!"signify/crypto: couldn't read the full header (read %d)" (some k))] ⟨[v0, v1, privateVal priv', decoderVal hm], 4, [], w2⟩ := by
  rcases hj with rfl | rfl
  · seval [hT, hR, hk]
  · seval [hT, hR, hk]

variable {hd : Arr 72} (hR : C id!"base64" coding.Decoder.Read [.ptr ⟨3, []⟩, .slice ⟨j + 11, []⟩ 0 72 72]
        ⟨openMem2 v0 v1 priv' hm hw j pre sc z zeroV, 4, [], w1⟩ =
      .ok [.int .int 72, .nil] ⟨openMem2 v0 v1 priv' hm hw j pre sc z (headV hd), 4, [], w2⟩)
include hR

theorem open_first :
    execsEnv (interpC (repo S) C 19) ⟨id!"crypto", openEnv⟩ (crypt.open.body.take 9) ⟨openMem0 v0 v1 priv hm hw, 4, [], w⟩ =
      .ok (openEnv1 j, .next) ⟨openMem3 v0 v1 priv' hm hw j pre sc z (headV hd) (beVal (headL hd 0 8)) (epubOf hd) (Vector.replicate 32 0), 4, [], w2⟩ := by
  unfold openMem3
  rw [epub_eq]
  rcases hj with rfl | rfl
  · sevalt [hT, hR]
  · sevalt [hT, hR]
end

section
variable (C : Id → Func → List Val → M ω (List Val)) {priv : Private} {hm hw : Nat} {pre : List Val} {sc ep : Arr 32} {z : Val} {j c : Nat} {hd : Arr 72}
  (hj : j = 2 ∨ j = 7) {w : ω}
include hj

/-- Part of the header as it is read from memory. -/
def rawH (hd : Arr 72) (a n : Nat) : Bytes := (headL hd a n).map fun b => valByte (byteVal b)

omit hj in
theorem rawH_eq (a n : Nat) : rawH hd a n = headL hd a n := by
  simp only [rawH, byteVal, valByte_byte, List.map_id']

theorem open_auth (ha : ¬(!S.prims.authVerify (rawH hd 40 32) (rawH hd 0 40) (remadeK (S.prims.precompute (remadeK ep) (remadeK sc)))) = true) :
    execsEnv (interpC (repo S) C 19) ⟨id!"crypto", openEnv1 j⟩ ((crypt.open.body.drop 9).take 4)
        ⟨openMem3 v0 v1 priv hm hw j pre sc z (headV hd) c ep (Vector.replicate 32 0), 4, [], w⟩ =
      .ok (openEnv2 j, .next) ⟨openMem4 v0 v1 priv hm hw j pre sc z (headV hd) c ep (S.prims.precompute ep sc) (List.replicate 16401 (.int .uint8 0)) (Vector.replicate 24 0), 4, [], w⟩ := by
  rcases hj with rfl | rfl
  · sevalt [ha]
  · sevalt [ha]

theorem open_noauth (ha : (!S.prims.authVerify (rawH hd 40 32) (rawH hd 0 40) (remadeK (S.prims.precompute (remadeK ep) (remadeK sc)))) = true) :
    execs (interpC (repo S) C 19) ⟨id!"crypto", openEnv1 j⟩ (crypt.open.body.drop 9)
        ⟨openMem3 v0 v1 priv hm hw j pre sc z (headV hd) c ep (Vector.replicate 32 0), 4, [], w⟩ =
      .ok (.ret [.err (.text b!"signify/crypto: failed to authenticate the message header" none)])
        ⟨openMem3 v0 v1 priv hm hw j pre sc z (headV hd) c ep (S.prims.precompute ep sc), 4, [], w⟩ := by
  rcases hj with rfl | rfl
  · sevalt [ha]
  · sevalt [ha]

theorem open_init {nonce : Arr 24} {cv hv : List Val} {shared : Arr 32} :
    initial (interpC (repo S) C 19) ⟨id!"crypto", openEnv2 j⟩ openFor.1 ⟨openMem4 v0 v1 priv hm hw j pre sc z hv c ep shared cv nonce, 4, [], w⟩ =
      .ok (openCtx j) ⟨openMem4 v0 v1 priv hm hw j pre sc z hv c ep shared cv nonce ++ [.int .uint64 0], 4, [], w⟩ := by
  rcases hj with rfl | rfl
  · sevalt []
  · sevalt []
end

end Verif.Src
