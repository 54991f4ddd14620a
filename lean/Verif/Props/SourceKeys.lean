/-
C107: the Go text of Verify, and of the functions that it calls, does what the model does.
-/
import Verif.Source.VerifyText
import Verif.Source.WorldSys
import Verif.Props.Sign

namespace Verif.Src

open Verif.Props

variable {ω : Type} (S : Sys ω)

/-- `readDataFileBytes` run as text, for every content of the slice and every memory: the file is parsed as the model says, into
ten new blocks of memory, the third of which is the struct that the result points to and the last of which holds the data. -/
theorem C107_readDataFileBytes {s : St ω} {v0 v1 : Val} (G : Globals s v0 v1) {l : Loc} (hl : 2 ≤ l.blk) {bs : Bytes}
    (E : l.get s.mem = some (.arr (byteVals bs))) (cap : Nat) {n : Nat} (hn : bs.length + 23 ≤ n) :
    Ends s.defers (readDataFileBytes bs, s.world) id
      (fun d w' r => ∃ new : List Val, new.length = 10 ∧
        new[2]? = some (dataVal d.comment (.slice ⟨s.mem.length + 9, []⟩ 0 d.data.length d.data.length)) ∧
        new[9]? = some (.arr (byteVals d.data)) ∧ Val.anyRefers (s.mem.length + 10) new = false ∧
        r = .ok [.ptr ⟨s.mem.length + 2, []⟩, .nil] ⟨s.mem ++ new, s.base, s.defers, w'⟩)
      (fun e w' r => r = .ok [.nil, libErr e] ⟨s.mem, s.base, s.defers, w'⟩)
      ((interp (repo S) n).call id!"signify" common.readDataFileBytes [.slice l 0 bs.length cap] s) :=
  data_in S G hl E cap hn

/-- `Public.verify` run as text. -/
theorem C107_verify {s : St ω} {v0 v1 : Val} (G : Globals s v0 v1) {lp lm ls : Loc} (hp : 2 ≤ lp.blk) (hs : 2 ≤ ls.blk) (hm : 2 ≤ lm.blk)
    (d1 : lp.disjoint ls = true) (d2 : lp.disjoint lm = true) (d3 : ls.disjoint lm = true) {pub : Public} {sig : Signature} {msg : Bytes}
    (ep : lp.get s.mem = some (publicVal pub)) (es : ls.get s.mem = some (signatureVal sig)) (em : lm.get s.mem = some (.arr (byteVals msg)))
    (cap : Nat) {n : Nat} (hn : 20 ≤ n) :
    Ends s.defers (pub.verify S.prims msg sig, s.world) id
      (fun _ w' r => r = .ok [.nil] ⟨s.mem, s.base, s.defers, w'⟩)
      (fun e w' r => ∃ v, Means e v ∧ r = .ok [v] ⟨s.mem, s.base, s.defers, w'⟩)
      ((interp (repo S) n).call id!"signify" key.Public.verify [.ptr lp, .slice lm 0 msg.length cap, .ptr ls] s) :=
  verify_in S G hp hs hm d1 d2 d3 ep es em cap hn

/-- `LoadPublicKey` run as text on the system of the model. -/
theorem C107_LoadPublicKey (P : Prims) {s : St World} {v0 v1 : Val} (G : Globals s v0 v1) (path : Path) :
    ∃ N, ∀ n, N ≤ n → Ends s.defers (loadPublicKey path s.world) id
      (fun pub w r => ∃ new : List Val, new[18]? = some (publicVal pub) ∧ Val.anyRefers (s.mem.length + new.length) new = false ∧
        r = .ok [.ptr ⟨s.mem.length + 18, []⟩, .nil] ⟨s.mem ++ new, s.base, s.defers, w⟩)
      (fun e w r => ∃ v, Says e v ∧ r = .ok [.nil, v] ⟨s.mem, s.base, s.defers, w⟩)
      ((interp (repo (worldSys P)) n).call id!"signify" key.LoadPublicKey [.str path] s) := by
  refine ⟨fuelFor (World.readFile path s.world), fun n hn => ?_⟩
  have := fuelFor_ge (World.readFile path s.world)
  refine (load_in (worldSys P) (fun a => publicVal_plain a 0) G
    (loadPublic_run (worldSys P) v0 v1 G.plain0 G.plain1 path s.world (by omega) (fuelFor_ok hn))).mono ?_ (fun _ _ h => h)
  rintro a t ⟨new, h1, h2, h3, h4⟩
  exact ⟨new, h2, h1 ▸ h3, h4⟩

/-- `readSignaturePath` run as text on the system of the model. -/
theorem C107_readSignaturePath (P : Prims) {s : St World} {v0 v1 : Val} (G : Globals s v0 v1) (path : Path) :
    ∃ N, ∀ n, N ≤ n → Ends s.defers (readSignaturePath path s.world) id
      (fun sig w r => ∃ new : List Val, new[18]? = some (signatureVal sig) ∧ Val.anyRefers (s.mem.length + new.length) new = false ∧
        r = .ok [.ptr ⟨s.mem.length + 18, []⟩, .nil] ⟨s.mem ++ new, s.base, s.defers, w⟩)
      (fun e w r => ∃ v, Says e v ∧ r = .ok [.nil, v] ⟨s.mem, s.base, s.defers, w⟩)
      ((interp (repo (worldSys P)) n).call id!"signify" signature.readSignaturePath [.str path] s) := by
  refine ⟨fuelFor (World.readFile path s.world), fun n hn => ?_⟩
  have := fuelFor_ge (World.readFile path s.world)
  refine (load_in (worldSys P) (fun a => signatureVal_plain a 0) G
    (loadSig_run (worldSys P) v0 v1 G.plain0 G.plain1 path s.world (by omega) (fuelFor_ok hn))).mono ?_ (fun _ _ h => h)
  rintro a t ⟨new, h1, h2, h3, h4⟩
  exact ⟨new, h2, h1 ▸ h3, h4⟩

/-- `Verify` run as text from the start of a program. -/
theorem Verify_start (P : Prims) {v0 v1 : Val} (p0 : v0.refers 2 = false) (p1 : v1.refers 2 = false) (p m s : Path) (w : World) {n : Nat}
    (hn : verifyFuel (worldSys P) p m s w ≤ n) :
    Agrees (Verify P p m s w) id
      (fun _ w' r => r = .ok [.nil] ⟨[v0, v1], 2, [], w'⟩)
      (fun e w' r => ∃ v, Says e v ∧ r = .ok [v] ⟨[v0, v1], 2, [], w'⟩)
      ((interp (repo (worldSys P)) n).call id!"signify" key.Verify [.str p, .str m, .str s] ⟨[v0, v1], 2, [], w⟩) :=
  verify_text (worldSys P) v0 v1 p0 p1 p m s w hn

/-- C107: the text of `Verify`, run in any memory on the system of the model under any schedule of faults, ends as the model says and with
the world that the model says, and leaves memory as it was. -/
theorem C107_Verify (P : Prims) {st : St World} {v0 v1 : Val} (G : Globals st v0 v1) (p m s : Path) :
    ∃ N, ∀ n, N ≤ n → Ends st.defers (Verify P p m s st.world) id
      (fun _ w' r => r = .ok [.nil] ⟨st.mem, st.base, st.defers, w'⟩)
      (fun e w' r => ∃ v, Says e v ∧ r = .ok [v] ⟨st.mem, st.base, st.defers, w'⟩)
      ((interp (repo (worldSys P)) n).call id!"signify" key.Verify [.str p, .str m, .str s] st) := by
  refine ⟨verifyFuel (worldSys P) p m s st.world, fun n hn => ?_⟩
  have c := carry_keep (worldSys P) (Nat.le_refl n) (ρ := []) (us := []) (args := [.str p, .str m, .str s]) (f := key.Verify) (p := id!"signify")
    (o := Verify P p m s st.world) (world := id) (Q := fun _ rs new => rs = [.nil] ∧ new = [])
    (Q' := fun e rs new => new = [] ∧ ∃ v, Says e v ∧ rs = [v]) G (by simp) (by simp) rfl
    ((Verify_start P G.plain0 G.plain1 p m s st.world hn).mono (fun _ w' h => ⟨_, [], ⟨rfl, rfl⟩, h⟩)
      (fun e w' ⟨v, hv, h⟩ => ⟨_, [], ⟨rfl, v, hv, rfl⟩, h⟩))
  refine c.mono ?_ ?_
  · rintro a t ⟨rs, new, ⟨rfl, rfl⟩, k⟩
    refine k.trans ?_
    simp only [Emb.renVs, Emb.renV, List.append_nil]
    rfl
  · rintro e t ⟨rs, new, ⟨rfl, v, hv, rfl⟩, k⟩
    refine ⟨v, hv, k.trans ?_⟩
    simp only [Emb.renVs, hv.ren, List.append_nil]
    rfl

theorem Act.bind_ne_hang {σ α β : Type} {x : Act σ α} {f : α → Act σ β} (h : ∀ s, (x s).1 ≠ .hang) (k : ∀ a s, (f a s).1 ≠ .hang) (s : σ) :
    ((x >>= f) s).1 ≠ .hang := by
  rw [Act.bind_eq]
  have hs := h s
  rcases hx : x s with ⟨a | e | _ | _ | _, t⟩
  · exact k a t
  · simp
  · simp
  · simp
  · rw [hx] at hs
    exact absurd rfl hs

theorem readFile_ne_hang (p : Path) (w : World) : (World.readFile p w).1 ≠ .hang := by
  unfold World.readFile
  (repeat' split) <;> simp

theorem parse_ne_hang {α : Type} {f : Bytes → Res α} (h : ∀ d, f d ≠ .hang) (bs : Bytes) (w : World) :
    (Act.ofRes (readDataFileBytes bs >>= fun d => f d.data) w).1 ≠ .hang := by
  have : (readDataFileBytes bs >>= fun d => f d.data) ≠ .hang := by
    unfold readDataFileBytes
    rcases scanLoop [] [] bs with ⟨line, c⟩
    rcases hd : B64.decodeString line with out | _ | _ <;> simp only [hd]
    · exact h out
    · simp [Bind.bind, Res.bind]
    · simp [Bind.bind, Res.bind]
  exact this

/-- The model of `Verify` always says how the call ends. -/
theorem Verify_ne_hang (P : Prims) (p m s : Path) (w : World) : (Verify P p m s w).1 ≠ .hang := by
  unfold Verify
  refine Act.bind_ne_hang (Act.bind_ne_hang (readFile_ne_hang p) (parse_ne_hang fun d => ?_)) (fun pub => ?_) w
  · unfold readPublicKeyData
    split <;> simp
  refine Act.bind_ne_hang (readFile_ne_hang m) fun msg => ?_
  refine Act.bind_ne_hang (Act.bind_ne_hang (readFile_ne_hang _) (parse_ne_hang fun d => ?_)) (fun sig t => ?_)
  · unfold readSignatureData
    split <;> simp
  show pub.verify P msg sig ≠ .hang
  unfold Public.verify Public.verifyEd25519
  (repeat' split) <;> simp

/-- The text returns nil, given enough steps, exactly if the model does. -/
theorem Verify_nil_iff (P : Prims) {st : St World} {v0 v1 : Val} (G : Globals st v0 v1) (p m s : Path) :
    (∃ n st', (interp (repo (worldSys P)) n).call id!"signify" key.Verify [.str p, .str m, .str s] st = .ok [.nil] st') ↔
      (Verify P p m s st.world).1 = .ok () := by
  obtain ⟨N, hN⟩ := C107_Verify P G p m s
  constructor
  · rintro ⟨n, st', e⟩
    have c := hN (max n N) (Nat.le_max_right _ _)
    rw [((interp_mono (Prog.Le.refl _) (Nat.le_max_left n N)).call _ _ _).eq e (by simp)] at c
    have hq := Verify_ne_hang P p m s st.world
    rcases ho : Verify P p m s st.world with ⟨a | er | _ | _ | _, w'⟩ <;> rw [ho] at c hq
    · obtain ⟨v, hv, k⟩ := c
      obtain ⟨x, rfl⟩ := hv.err
      cases k
    · obtain ⟨t, k, -⟩ := c
      cases k
    · obtain ⟨t, k, -⟩ := c
      cases k
    · exact absurd rfl hq
  · intro h
    have c := hN N (Nat.le_refl N)
    rcases ho : Verify P p m s st.world with ⟨r, w'⟩
    rw [ho] at h c
    cases h
    exact ⟨N, _, c⟩

/-- C107: if the text of `Verify` returns nil, whatever faults there were, the three files exist and the signature is to be accepted. -/
theorem C107_sound (P : Prims) {st st' : St World} {v0 v1 : Val} (G : Globals st v0 v1) (p m s : Path) (n : Nat)
    (h : (interp (repo (worldSys P)) n).call id!"signify" key.Verify [.str p, .str m, .str s] st = .ok [.nil] st') :
    ∃ fp fm fs, st.world.fs p = some fp ∧ st.world.fs m = some fm ∧ st.world.fs (sigPath m s) = some fs ∧
      Accepts P fp.data fm.data fs.data :=
  C19_sound P p m s st.world ((Verify_nil_iff P G p m s).1 ⟨n, st', h⟩)

/-- C107: with no faults, the text of `Verify` returns nil exactly then. -/
theorem C107_exact (P : Prims) {st : St World} {v0 v1 : Val} (G : Globals st v0 v1) (p m s : Path) (hq : st.world.Quiet) :
    (∃ n st', (interp (repo (worldSys P)) n).call id!"signify" key.Verify [.str p, .str m, .str s] st = .ok [.nil] st') ↔
      ∃ fp fm fs, st.world.fs p = some fp ∧ st.world.fs m = some fm ∧ st.world.fs (sigPath m s) = some fs ∧
        Accepts P fp.data fm.data fs.data :=
  (Verify_nil_iff P G p m s).trans (C19_exact P p m s st.world hq)

/-! ### The assumptions can be met -/

/-- A machine with a public key, a message and a signature, and a memory with a slice in it. -/
def signedWorld (pub sig : Bytes) : World :=
  { calm with fs := fun q => if q = b!"k.pub" then some ⟨pub, 0o644⟩ else if q = b!"m" then some ⟨b!"hello", 0o644⟩
      else if q = b!"m.sig" then some ⟨sig, 0o644⟩ else none }

noncomputable def signedState (pub sig : Bytes) : St World := ⟨[promptFunc, defaultOpts, .arr (byteVals b!"zz")], 0, [], signedWorld pub sig⟩

/-- The text accepts a good signature. -/
example : ∃ pub sig, Globals (signedState pub sig) promptFunc defaultOpts ∧ (signedState pub sig).world.Quiet ∧
    (⟨2, []⟩ : Loc).get (signedState pub sig).mem = some (.arr (byteVals b!"zz")) ∧
    ∃ n st', (interp (repo (worldSys toy)) n).call id!"signify" key.Verify [.str b!"k.pub", .str b!"m", .str []] (signedState pub sig) = .ok [.nil] st' := by
  obtain ⟨pub, sig, h⟩ := accepted
  refine ⟨pub, sig, ⟨rfl, rfl, rfl, rfl⟩, fun _ _ => rfl, rfl, ?_⟩
  exact (C107_exact toy ⟨rfl, rfl, rfl, rfl⟩ _ _ _ (fun _ _ => rfl)).2 ⟨_, _, _, rfl, rfl, rfl, h⟩

/-- And returns something else without the signature file. -/
example (pub sig : Bytes) (n : Nat) (st' : St World) :
    (interp (repo (worldSys toy)) n).call id!"signify" key.Verify [.str b!"k.pub", .str b!"m", .str b!"other"] (signedState pub sig) ≠ .ok [.nil] st' := by
  intro h
  obtain ⟨_, _, fs, -, -, k, -⟩ := C107_sound toy ⟨rfl, rfl, rfl, rfl⟩ _ _ _ _ h
  cases k

end Verif.Src
