/-
C109: the Go text of GenerateKey, and of the functions that it calls, does what the model does.
-/
import Verif.Source.GenMain
import Verif.Props.SourceSign
import Verif.Props.Workflow
import Verif.Lemmas.Total

namespace Verif.Src

open Verif.Props

variable {ω : Type} (S : Sys ω)

/-- What a caller passes, in a memory: a passphrase, which is nil or a slice of an array with these bytes, and options, which are nil or a pointer
to a `GenerateOptions` with this number of rounds. -/
inductive Given (mem : List Val) : Val → Bytes → Val → Option Int → Prop
  | none : Given mem .nil [] .nil none
  | pass {l : Loc} {pw : Bytes} (cap : Nat) (hl : 2 ≤ l.blk) (e : l.get mem = some (.arr (byteVals pw))) :
    Given mem (.slice l 0 pw.length cap) pw .nil none
  | opts {l : Loc} {r : Int} (hl : 2 ≤ l.blk) (e : l.get mem = some (optsVal r)) : Given mem .nil [] (.ptr l) (some r)
  | both {l l' : Loc} {pw : Bytes} {r : Int} (cap : Nat) (hl : 2 ≤ l.blk) (hl' : 2 ≤ l'.blk) (d : l.disjoint l' = true)
    (e : l.get mem = some (.arr (byteVals pw))) (e' : l'.get mem = some (optsVal r)) : Given mem (.slice l 0 pw.length cap) pw (.ptr l') (some r)

theorem Given.args {s : St ω} {v o : Val} {pw : Bytes} {opts : Option Int} (h : Given s.mem v pw o opts) :
    ∃ us v' o' q ρ, GenArgs us v' pw o' q (opts.getD defaultRounds) ∧ (∀ l ∈ ρ, 2 ≤ l.blk) ∧
      ρ.Pairwise (fun l m => l.disjoint m = true) ∧ getAll s.mem ρ = some us ∧ ∀ a : List Bytes,
        (beside s ρ).renVs (a.map Val.str ++ [v', o']) = a.map Val.str ++ [v, o] := by
  have go : ∀ {ρ : List Loc} {v' o' : Val}, (beside s ρ).renV v' = v → (beside s ρ).renV o' = o → ∀ a : List Bytes,
      (beside s ρ).renVs (a.map Val.str ++ [v', o']) = a.map Val.str ++ [v, o] := by
    intro ρ v' o' e e' a
    rw [Emb.renVs_eq]
    simp [e, e', Emb.renV]
  cases h with
  | none => exact ⟨_, _, _, _, [], .none, by simp, by simp, rfl, go (by simp only [Emb.renV]) (by simp only [Emb.renV])⟩
  | @pass l _ cap hl e =>
    exact ⟨_, _, _, _, [l], .pass pw cap, by simpa using hl, by simp, by simp only [getAll, e],
      go (by simp only [Emb.renV]; rw [ren_two 0 l rfl]) (by simp only [Emb.renV])⟩
  | @opts l r hl e =>
    exact ⟨_, _, _, _, [l], .opts r, by simpa using hl, by simp, by simp only [getAll, e],
      go (by simp only [Emb.renV]) (by simp only [Emb.renV]; rw [ren_two 0 l rfl])⟩
  | @both l l' _ r cap hl hl' d e e' =>
    exact ⟨_, _, _, _, [l, l'], .both pw cap r, by simpa using ⟨hl, hl'⟩, by simpa using d, by simp only [getAll, e, e'],
      go (by simp only [Emb.renV]; rw [ren_two 0 l rfl]) (by simp only [Emb.renV]; rw [ren_two 1 l' rfl])⟩

/-- `Private.encode` run as text: it returns a new slice with the bytes of the key. -/
theorem C109_encode {s : St ω} {v0 v1 : Val} (G : Globals s v0 v1) {l : Loc} (hl : 2 ≤ l.blk) {priv : Private} (E : l.get s.mem = some (privateVal priv))
    {n : Nat} (hn : 20 ≤ n) :
    ∃ new : List Val, new[3]? = some (.arr (byteVals priv.encode)) ∧
      (interp (repo S) n).call id!"signify" key.Private.encode [.ptr l] s =
        .ok [.slice ⟨s.mem.length + 3, []⟩ 0 104 (byteVals priv.encode).length] ⟨s.mem ++ new, s.base, s.defers, s.world⟩ :=
  ⟨_, rfl, encPriv_in S G hl E hn⟩

/-- `Public.encode` run as text. -/
theorem C109_public_encode {s : St ω} {v0 v1 : Val} (G : Globals s v0 v1) {l : Loc} (hl : 2 ≤ l.blk) {pub : Public}
    (E : l.get s.mem = some (publicVal pub)) {n : Nat} (hn : 20 ≤ n) :
    ∃ new : List Val, new[3]? = some (.arr (byteVals pub.encode)) ∧
      (interp (repo S) n).call id!"signify" key.Public.encode [.ptr l] s =
        .ok [.slice ⟨s.mem.length + 3, []⟩ 0 42 (byteVals pub.encode).length] ⟨s.mem ++ new, s.base, s.defers, s.world⟩ :=
  ⟨_, rfl, encPub_in S G hl E hn⟩

/-- C109: the text of `GenerateKeypair`, run in any memory on the system of the model under any schedule of faults, ends as the model says and in the
world that the model says. The two keys that it returns are those of the model, in new blocks; what was in memory before is unchanged. -/
theorem C109_GenerateKeypair (P : Prims) {s : St World} {v0 : Val} (G : Globals s v0 defaultOpts) {v o : Val} {pw : Bytes} {opts : Option Int}
    (h : Given s.mem v pw o opts) {n : Nat} (hn : 20 ≤ n) :
    Ends s.defers (GenerateKeypair P pw opts s.world) id
      (fun a w r => ∃ (lk lp : Loc) (new : List Val), lk.get (s.mem ++ new) = some (privateVal a.1) ∧ lp.get (s.mem ++ new) = some (publicVal a.2) ∧
        r = .ok [.ptr lk, .ptr lp, .nil] ⟨s.mem ++ new, s.base, s.defers, w⟩)
      (fun e w r => r = .ok [.nil, .nil, libErr e] ⟨s.mem, s.base, s.defers, w⟩)
      ((interp (repo (worldSys P)) n).call id!"signify" key.GenerateKeypair [v, o] s) := by
  obtain ⟨us, v', o', q, ρ, ha, own, apart, get, ren⟩ := h.args
  have c := gen_in (worldSys P) G ha own apart get hn
  rw [show (beside s ρ).renVs [v', o'] = [v, o] from ren []] at c
  refine c.mono ?_ (fun _ _ h => h)
  rintro ⟨priv, pub⟩ w ⟨rs, new, ⟨j, hj, rfl, h1, h2, h3⟩, k⟩
  refine ⟨_, _, new, ?_, ?_, k⟩
  · unfold Loc.get
    rw [List.getElem?_append_right (by simp only; omega), show s.mem.length + 7 - s.mem.length = 7 by omega, h2]
    rfl
  · unfold Loc.get
    rw [List.getElem?_append_right (by simp only; omega), show s.mem.length + (8 + j) - s.mem.length = j + 8 by omega, h3]
    rfl

/-- C109: the text of `GenerateKey`, run in any memory on the system of the model under any schedule of faults, ends as the model says and in the world
that the model says, and leaves memory as it was. -/
theorem C109_GenerateKey (P : Prims) {s : St World} {v0 : Val} (G : Globals s v0 defaultOpts) {v o : Val} {pw : Bytes} {opts : Option Int}
    (h : Given s.mem v pw o opts) (base : Path) {n : Nat} (hn : 40 ≤ n) :
    Ends s.defers (GenerateKey P base pw opts s.world) id
      (fun _ w r => r = .ok [.nil] ⟨s.mem, s.base, s.defers, w⟩)
      (fun e w r => r = .ok [libErr e] ⟨s.mem, s.base, s.defers, w⟩)
      ((interp (repo (worldSys P)) n).call id!"signify" key.GenerateKey [.str base, v, o] s) := by
  obtain ⟨us, v', o', q, ρ, ha, own, apart, get, ren⟩ := h.args
  have c := key_in (worldSys P) G ha own apart get base hn
  rw [show (beside s ρ).renVs [.str base, v', o'] = [.str base, v, o] from ren [base]] at c
  exact c

section
variable (P : Prims) {st : St World} {v0 : Val} (G : Globals st v0 defaultOpts) {v o : Val} {pw : Bytes} {opts : Option Int}
  (h : Given st.mem v pw o opts) (base : Path)
include G h

/-- Every run that comes to an end is the one of the model. -/
theorem GenerateKey_ends {n : Nat} {w : World} (hr : EndsIn ((interp (repo (worldSys P)) n).call id!"signify" key.GenerateKey [.str base, v, o] st) w) :
    w = (GenerateKey P base pw opts st.world).2 := by
  have c := C109_GenerateKey P G h base (n := max n 40) (Nat.le_max_right _ _)
  have ne : (interp (repo (worldSys P)) n).call id!"signify" key.GenerateKey [.str base, v, o] st ≠ .stuck := by
    obtain ⟨t, -, ⟨a, k⟩ | k | k⟩ := hr <;> simp [k]
  rw [((interp_mono (Prog.Le.refl _) (Nat.le_max_left n 40)).call _ _ _).eq rfl ne] at c
  obtain ⟨t, rfl, h⟩ := hr
  have hq := GenerateKey_returns P base pw opts st.world
  rcases ho : GenerateKey P base pw opts st.world with ⟨a | er | _ | _ | _, w'⟩ <;> rw [ho] at c hq
  · obtain ⟨a, k⟩ | k | k := h <;> cases (k.symm.trans c)
    rfl
  · obtain ⟨a, k⟩ | k | k := h <;> cases (k.symm.trans c)
    rfl
  · obtain ⟨t', c, e, -⟩ := c
    obtain ⟨a, k⟩ | k | k := h <;> cases (k.symm.trans c)
    exact e
  · obtain ⟨t', c, e⟩ := c
    obtain ⟨a, k⟩ | k | k := h <;> cases (k.symm.trans c)
    exact e
  · rcases hq with hq | hq
    · exact absurd hq (by simp [Res.Clean])
    · cases hq

/-- The text returns nil, given enough steps, exactly if the model does. -/
theorem GenerateKey_nil_iff :
    (∃ n st', (interp (repo (worldSys P)) n).call id!"signify" key.GenerateKey [.str base, v, o] st = .ok [.nil] st') ↔
      (GenerateKey P base pw opts st.world).1 = .ok () := by
  constructor
  · rintro ⟨n, st', e⟩
    have c := C109_GenerateKey P G h base (n := max n 40) (Nat.le_max_right _ _)
    rw [((interp_mono (Prog.Le.refl _) (Nat.le_max_left n 40)).call _ _ _).eq e (by simp)] at c
    have hq := GenerateKey_returns P base pw opts st.world
    rcases ho : GenerateKey P base pw opts st.world with ⟨a | er | _ | _ | _, w'⟩ <;> rw [ho] at c hq
    · cases c
    · obtain ⟨t, k, -⟩ := c
      cases k
    · obtain ⟨t, k, -⟩ := c
      cases k
    · rcases hq with hq | hq
      · exact absurd hq (by simp [Res.Clean])
      · cases hq
  · intro hk
    have c := C109_GenerateKey P G h base (n := 40) (Nat.le_refl _)
    rcases ho : GenerateKey P base pw opts st.world with ⟨r, w'⟩
    rw [ho] at hk c
    cases hk
    exact ⟨40, _, c⟩

/-- C109: however a run of the text of `GenerateKey` ends, no file but the two key files has changed. -/
theorem C109_frame {n : Nat} {w : World} (hr : EndsIn ((interp (repo (worldSys P)) n).call id!"signify" key.GenerateKey [.str base, v, o] st) w)
    (q : Path) (h1 : q ≠ base ++ b!".sec") (h2 : q ≠ base ++ b!".pub") : w.fs q = st.world.fs q := by
  rw [GenerateKey_ends P G h base hr]
  exact C32_frame P base pw opts st.world q h1 h2

/-- C109: if the public key file differs from before at the end of a run, however it ends, the secret key file is complete and belongs to it. -/
theorem C109_secret_first {n : Nat} {w : World} (hr : EndsIn ((interp (repo (worldSys P)) n).call id!"signify" key.GenerateKey [.str base, v, o] st) w)
    (hd : w.fs (base ++ b!".pub") ≠ st.world.fs (base ++ b!".pub")) :
    ∃ priv pub f g, Generated P pw opts (draw st.world st.world.rngPos 32) (draw st.world (st.world.rngPos + 32) 16)
        (draw st.world (st.world.rngPos + 48) 8) priv pub ∧
      w.fs (base ++ b!".sec") = some f ∧ f.data = secretFile priv ∧ w.fs (base ++ b!".pub") = some g ∧ g.data <+: publicFile pub := by
  rw [GenerateKey_ends P G h base hr] at hd ⊢
  obtain ⟨priv, pub, gen, ⟨m, h1⟩, f, h2, h3⟩ := C32_secret_first P base pw opts st.world hd
  exact ⟨priv, pub, _, f, gen, h1, rfl, h2, h3⟩

/-- C109: when the text returns nil, both files are complete, they are those of one pair and parse back to it, and the secret key is encrypted exactly
if there is a passphrase. -/
theorem C109_complete {n : Nat} {st' : St World}
    (hr : (interp (repo (worldSys P)) n).call id!"signify" key.GenerateKey [.str base, v, o] st = .ok [.nil] st') :
    ∃ priv pub f g, Generated P pw opts (draw st.world st.world.rngPos 32) (draw st.world (st.world.rngPos + 32) 16)
        (draw st.world (st.world.rngPos + 48) 8) priv pub ∧
      st'.world.fs (base ++ b!".sec") = some f ∧ readPrivateKeyFile f.data = .ok priv ∧
      st'.world.fs (base ++ b!".pub") = some g ∧ readPublicKeyFile g.data = .ok pub := by
  have e := GenerateKey_ends P G h base ⟨st', rfl, .inl ⟨_, hr⟩⟩
  obtain ⟨priv, pub, f, g, gen, h1, -, h2, h3, -, h4⟩ := C32_complete P base pw opts st.world ((GenerateKey_nil_iff P G h base).1 ⟨n, st', hr⟩)
  rw [e]
  exact ⟨priv, pub, f, g, gen, h1, h2, h3, h4⟩

end

/-- C109: the three texts together. A key pair that the text of `GenerateKey` has written serves the text of `Sign`, and the text of `Verify` accepts
the signature, whatever memories they run in and whatever else has changed in between. -/
theorem C109_generate_sign_verify (P : Prims) (hed : EdCorrect P) (base dir name : Path) (hsplit : Splits base dir name) (hnl : 10 ∉ name)
    (hlen : name.length < 64000) {st0 : St World} {v0 v o : Val} {pw : Bytes} {opts : Option Int} (G0 : Globals st0 v0 defaultOpts)
    (hg : Given st0.mem v pw o opts) (hr : GoodRounds pw opts) (hq0 : st0.world.Quiet) :
    ∃ n st0', (interp (repo (worldSys P)) n).call id!"signify" key.GenerateKey [.str base, v, o] st0 = .ok [.nil] st0' ∧
      ∀ (m s : Path) (fm : Verif.File) (st1 : St World) (v1 : Val), Globals st1 promptFunc v1 → st1.world.Quiet →
        st1.world.fs (base ++ b!".sec") = st0'.world.fs (base ++ b!".sec") → st1.world.fs m = some fm →
        (pw ≠ [] → ∃ rest, st1.world.tty = some pw :: rest) →
        ∃ n st1', (interp (repo (worldSys P)) n).call id!"signify" key.Sign [.str (base ++ b!".sec"), .str m, .str s] st1 = .ok [.nil] st1' ∧
          ∀ (st2 : St World) (v0' v1' : Val), Globals st2 v0' v1' → st2.world.Quiet →
            st2.world.fs (base ++ b!".pub") = st0'.world.fs (base ++ b!".pub") → st2.world.fs m = some fm →
            st2.world.fs (sigPath m s) = st1'.world.fs (sigPath m s) →
            ∃ n st2', (interp (repo (worldSys P)) n).call id!"signify" key.Verify [.str (base ++ b!".pub"), .str m, .str s] st2 = .ok [.nil] st2' := by
  have ok := GenerateKey_ok P base hr hq0
  obtain ⟨n, st0', hn⟩ := (GenerateKey_nil_iff P G0 hg base).2 ok
  refine ⟨n, st0', hn, fun m s fm st1 v1 G1 hq1 hsec hmsg htty => ?_⟩
  have e := GenerateKey_ends P G0 hg base ⟨st0', rfl, .inl ⟨_, hn⟩⟩
  rw [e] at hsec ⊢
  obtain ⟨n1, st1', h1⟩ := (Sign_nil_iff P G1 _ m s).2 (Sign_generated P base pw opts st0.world ok m s fm st1.world hq1 hsec hmsg htty)
  refine ⟨n1, st1', h1, fun st2 v0' v1' G2 hq2 hpub hmsg2 hsig => ?_⟩
  refine (Verify_nil_iff P G2 _ m s).2 (C18_sign_verify P hed base dir name pw opts st0.world ok hsplit hnl hlen m s fm st1.world hq1 hsec hmsg htty
    st2.world hq2 hpub hmsg2 (hsig.trans ?_)).2
  rw [Sign_ends P G1 _ m s ⟨st1', rfl, .inl ⟨_, h1⟩⟩]
  rfl

/-! ### The assumptions can be met -/

/-- A memory with a passphrase and options, and a machine with nothing on it. -/
noncomputable def newState (pw : Bytes) (r : Int) : St World := ⟨[promptFunc, defaultOpts, .arr (byteVals pw), optsVal r], 0, [], calm⟩

theorem newGlobals (pw : Bytes) (r : Int) : Globals (newState pw r) promptFunc defaultOpts := ⟨rfl, rfl, rfl, rfl⟩

theorem newGiven (pw : Bytes) (r : Int) : Given (newState pw r).mem (.slice ⟨2, []⟩ 0 pw.length pw.length) pw (.ptr ⟨3, []⟩) (some r) :=
  .both _ (by simp) (by simp) rfl rfl rfl

/-- The text makes a key that is locked with "A", with 3 rounds. -/
example : ∃ n st', (interp (repo (worldSys toy)) n).call id!"signify" key.GenerateKey
    [.str b!"k", .slice ⟨2, []⟩ 0 1 1, .ptr ⟨3, []⟩] (newState b!"A" 3) = .ok [.nil] st' := by
  refine (GenerateKey_nil_iff toy (newGlobals b!"A" 3) (newGiven b!"A" 3) b!"k").2 (GenerateKey_ok toy _ (.inr (by decide)) (fun _ _ => rfl))

/-- With 2^32 rounds it refuses. -/
example {n : Nat} {st' : St World} : (interp (repo (worldSys toy)) n).call id!"signify" key.GenerateKey
    [.str b!"k", .slice ⟨2, []⟩ 0 1 1, .ptr ⟨3, []⟩] (newState b!"A" (2 ^ 32)) ≠ .ok [.nil] st' := by
  intro h
  obtain ⟨priv, pub, -, -, gen, -⟩ := C109_complete toy (newGlobals b!"A" (2 ^ 32)) (newGiven b!"A" (2 ^ 32)) b!"k" h
  have h1 := gen.roundsPos (by decide)
  rw [gen.rounds] at h1
  exact h1 (by decide)

end Verif.Src
