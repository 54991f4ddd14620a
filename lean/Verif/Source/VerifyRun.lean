/-
The text of `Public.verify` of signify/key.go, with `Public.verifyEd25519`, run on a few blocks of memory, then in any
memory; and the text of `Verify`.
-/
import Verif.Source.LoadAny

namespace Verif.Src

variable {ω : Type} (S : Sys ω) (v0 v1 : Val)

/-- The bytes of an array, element by element, as the program reads them from memory. -/
def rawL {n : Nat} (a : Arr n) : Bytes := ((listed a).map byteVal).map valByte

theorem rawL_eq {n : Nat} (a : Arr n) : rawL a = a.toList := by rw [rawL, listed_eq]; exact map_valByte_byteVals _

/-- An array, made again of its elements. -/
def remade {n : Nat} (a : Arr n) : Arr n := ⟨(rawL a).toArray, by rw [rawL_eq]; simp⟩

theorem remade_eq {n : Nat} (a : Arr n) : remade a = a := by
  have : (rawL a).toArray = a.toArray := by rw [rawL_eq]; exact Array.toArray_toList
  obtain ⟨x, h⟩ := a
  simp only [remade, Vector.mk.injEq]
  exact this

def publicL (pub : Public) : Val :=
  .struct id!"Public" [(id!"keyAlgo", encL pub.keyAlgo), (id!"keyNum", encL pub.keyNum), (id!"key", encL pub.key)]

theorem publicL_eq (pub : Public) : publicL pub = publicVal pub := by simp only [publicL, publicVal, encL_eq]

def signatureL (sig : Signature) : Val :=
  .struct id!"Signature" [(id!"pkAlgo", encL sig.pkAlgo), (id!"keyNum", encL sig.keyNum), (id!"sig", encL sig.sig)]

theorem signatureL_eq (sig : Signature) : signatureL sig = signatureVal sig := by simp only [signatureL, signatureVal, encL_eq]

section
variable (pub : Public) (sig : Signature) (ms : List Val) (n cap : Nat) (w : ω)

/-- Memory during the call. -/
def verifyMem : List Val := [v0, v1, publicL pub, signatureL sig, .arr ms]

/-- The call. -/
noncomputable def verifyCall : R ω (List Val) :=
  (interp (repo S) 20).call id!"signify" key.Public.verify [.ptr ⟨2, []⟩, .slice ⟨4, []⟩ 0 n cap, .ptr ⟨3, []⟩]
    ⟨verifyMem v0 v1 pub sig ms, 5, [], w⟩

theorem verify_algo (h1 : ¬rawL pub.keyAlgo = b!"Ed") :
    verifyCall S v0 v1 pub sig ms n cap w =
      .ok [.err (.text (b!"signify: unknown key algo " ++ rawL pub.keyAlgo) none)] ⟨verifyMem v0 v1 pub sig ms, 5, [], w⟩ := by
  seval [h1]

variable (h1 : rawL pub.keyAlgo = b!"Ed")
include h1

theorem verify_sig (h2 : ¬rawL sig.pkAlgo = b!"Ed") :
    verifyCall S v0 v1 pub sig ms n cap w =
      .ok [.err (.text (b!"signify: not an Ed25519 signature (" ++ rawL sig.pkAlgo ++ b!")") none)] ⟨verifyMem v0 v1 pub sig ms, 5, [], w⟩ := by
  seval [h1, h2]

variable (h2 : rawL sig.pkAlgo = b!"Ed")
include h2

theorem verify_num (h3 : ¬rawL pub.keyNum = rawL sig.keyNum) :
    verifyCall S v0 v1 pub sig ms n cap w =
      .ok [.err (.text b!"signify: key number mismatch" none)] ⟨verifyMem v0 v1 pub sig ms, 5, [], w⟩ := by
  seval [h1, h2, h3]

variable (h3 : rawL pub.keyNum = rawL sig.keyNum)
include h3

theorem verify_bad (h4 : (!S.prims.edVerify (remade pub.key) (((ms.drop 0).take n).map valByte) (remade sig.sig)) = true) :
    verifyCall S v0 v1 pub sig ms n cap w =
      .ok [.err (.text b!"signify: invalid signature" none)] ⟨verifyMem v0 v1 pub sig ms, 5, [], w⟩ := by
  seval [h1, h2, h3, h4]

theorem verify_good (h4 : ¬(!S.prims.edVerify (remade pub.key) (((ms.drop 0).take n).map valByte) (remade sig.sig)) = true) :
    verifyCall S v0 v1 pub sig ms n cap w = .ok [.nil] ⟨verifyMem v0 v1 pub sig ms, 5, [], w⟩ := by
  seval [h1, h2, h3, h4]

end

/-- `(pub *Public) verify(message []byte, sig *Signature) error`, key.go:307-314. -/
theorem verify_run (pub : Public) (sig : Signature) (msg : Bytes) (cap : Nat) (w : ω) :
    Agrees (pub.verify S.prims msg sig, w) id
      (fun _ w' r => ∃ rs new, (new = [] ∧ rs = [.nil]) ∧ r = .ok rs ⟨v0 :: v1 :: [publicVal pub, signatureVal sig, .arr (byteVals msg)] ++ new, 5, [], w'⟩)
      (fun e w' r => ∃ rs new, (new = [] ∧ ∃ v, Means e v ∧ rs = [v]) ∧
        r = .ok rs ⟨v0 :: v1 :: [publicVal pub, signatureVal sig, .arr (byteVals msg)] ++ new, 5, [], w'⟩)
      ((interp (repo S) 20).call id!"signify" key.Public.verify [.ptr ⟨2, []⟩, .slice ⟨4, []⟩ 0 msg.length cap, .ptr ⟨3, []⟩]
        ⟨v0 :: v1 :: [publicVal pub, signatureVal sig, .arr (byteVals msg)], 5, [], w⟩) := by
  have ht : List.map valByte (List.take msg.length (List.drop 0 (byteVals msg))) = msg := by
    rw [List.drop_zero, List.take_of_length_le (by rw [byteVals_length]), map_valByte_byteVals]
  rw [← publicL_eq, ← signatureL_eq]
  change Agrees _ _ _ _ (verifyCall S v0 v1 pub sig (byteVals msg) msg.length cap w)
  by_cases h1 : rawL pub.keyAlgo = b!"Ed"
  · have e1 : pub.keyAlgo.toList = b!"Ed" := by rw [← rawL_eq]; exact h1
    by_cases h2 : rawL sig.pkAlgo = b!"Ed"
    · have e2 : sig.pkAlgo.toList = b!"Ed" := by rw [← rawL_eq]; exact h2
      by_cases h3 : rawL pub.keyNum = rawL sig.keyNum
      · have e3 : pub.keyNum.toList = sig.keyNum.toList := by rw [← rawL_eq, ← rawL_eq]; exact h3
        by_cases h4 : (!S.prims.edVerify (remade pub.key) (((byteVals msg).drop 0 |>.take msg.length).map valByte) (remade sig.sig)) = true
        · have e4 : (!S.prims.edVerify pub.key msg sig.sig) = true := by rw [remade_eq, remade_eq, ht] at h4; exact h4
          refine Agrees.of (o' := (.err .invalidSignature, w)) ?_ (verify_bad S v0 v1 pub sig _ _ cap w h1 h2 h3 h4) ⟨_, [], ⟨rfl, _, rfl, rfl⟩, rfl⟩
          rw [Public.verify, if_pos e1, Public.verifyEd25519, if_neg (not_not.2 e1), if_neg (not_not.2 e2), if_neg (not_not.2 e3), if_pos e4]
        · have e4 : ¬(!S.prims.edVerify pub.key msg sig.sig) = true := by rw [remade_eq, remade_eq, ht] at h4; exact h4
          refine Agrees.of (o' := (.ok (), w)) ?_ (verify_good S v0 v1 pub sig _ _ cap w h1 h2 h3 h4) ⟨_, [], ⟨rfl, rfl⟩, rfl⟩
          rw [Public.verify, if_pos e1, Public.verifyEd25519, if_neg (not_not.2 e1), if_neg (not_not.2 e2), if_neg (not_not.2 e3), if_neg e4]
      · have e3 : pub.keyNum.toList ≠ sig.keyNum.toList := by rw [← rawL_eq, ← rawL_eq]; exact h3
        refine Agrees.of (o' := (.err .keyNumMismatch, w)) ?_ (verify_num S v0 v1 pub sig _ _ cap w h1 h2 h3) ⟨_, [], ⟨rfl, _, rfl, rfl⟩, rfl⟩
        rw [Public.verify, if_pos e1, Public.verifyEd25519, if_neg (not_not.2 e1), if_neg (not_not.2 e2), if_pos e3]
    · have e2 : sig.pkAlgo.toList ≠ b!"Ed" := by rw [← rawL_eq]; exact h2
      refine Agrees.of (o' := (.err .notEdSignature, w)) ?_ (verify_sig S v0 v1 pub sig _ _ cap w h1 h2) ⟨_, [], ⟨rfl, _, ⟨_, rfl⟩, rfl⟩, rfl⟩
      rw [Public.verify, if_pos e1, Public.verifyEd25519, if_neg (not_not.2 e1), if_pos e2]
  · have e1 : pub.keyAlgo.toList ≠ b!"Ed" := by rw [← rawL_eq]; exact h1
    refine Agrees.of (o' := (.err .unknownKeyAlgo, w)) ?_ (verify_algo S v0 v1 pub sig _ _ cap w h1) ⟨_, [], ⟨rfl, _, ⟨_, rfl⟩, rfl⟩, rfl⟩
    rw [Public.verify, if_neg e1]

/-- The same in any memory. -/
theorem verify_in {s : St ω} {v0 v1 : Val} (G : Globals s v0 v1) {lp lm ls : Loc} (hp : 2 ≤ lp.blk) (hs : 2 ≤ ls.blk) (hm : 2 ≤ lm.blk)
    (d1 : lp.disjoint ls = true) (d2 : lp.disjoint lm = true) (d3 : ls.disjoint lm = true) {pub : Public} {sig : Signature} {msg : Bytes}
    (ep : lp.get s.mem = some (publicVal pub)) (es : ls.get s.mem = some (signatureVal sig)) (em : lm.get s.mem = some (.arr (byteVals msg)))
    (cap : Nat) {n : Nat} (hn : 20 ≤ n) :
    Ends s.defers (pub.verify S.prims msg sig, s.world) id
      (fun _ w' r => r = .ok [.nil] ⟨s.mem, s.base, s.defers, w'⟩)
      (fun e w' r => ∃ v, Means e v ∧ r = .ok [v] ⟨s.mem, s.base, s.defers, w'⟩)
      ((interp (repo S) n).call id!"signify" key.Public.verify [.ptr lp, .slice lm 0 msg.length cap, .ptr ls] s) := by
  have c := carry_keep S hn (ρ := [lp, ls, lm]) (us := [publicVal pub, signatureVal sig, .arr (byteVals msg)]) G (by simp [hp, hs, hm]) (by simp [d1, d2, d3])
    (by simp only [getAll, ep, es, em, Emb.renVs, Emb.renV_plain _ _ (publicVal_plain pub 0), Emb.renV_plain _ _ (signatureVal_plain sig 0), Emb.renV,
          Emb.renVs_plain _ _ (byteVals_plain 0 _)])
    (verify_run S v0 v1 pub sig msg cap s.world)
  have ea : (beside s [lp, ls, lm]).renVs [.ptr ⟨2, []⟩, .slice ⟨4, []⟩ 0 msg.length cap, .ptr ⟨3, []⟩] = [.ptr lp, .slice lm 0 msg.length cap, .ptr ls] := by
    simp only [Emb.renVs, Emb.renV]
    rw [ren_two 0 lp rfl, ren_two 1 ls rfl, ren_two 2 lm rfl]
  rw [ea] at c
  refine c.mono ?_ ?_
  · rintro a t ⟨rs, new, ⟨rfl, rfl⟩, k⟩
    refine k.trans ?_
    simp only [Emb.renVs, Emb.renV, List.append_nil]
    rfl
  · rintro e t ⟨rs, new, ⟨rfl, v, hv, rfl⟩, k⟩
    refine ⟨v, hv, k.trans ?_⟩
    simp only [Emb.renVs, hv.ren, List.append_nil]
    rfl

end Verif.Src
