/-
C111: the Go text of Open, and of the functions that it calls, does what the model does.
-/
import Verif.Source.OpenSeen
import Verif.Props.SourceSeal
import Verif.Props.SourceGenerate
import Verif.Props.Matching

namespace Verif.Src

open Verif.Props Spec World

/-- `Private.ToBox` run as text: it returns, with the error or the scalar of the model in a new block, and leaves the key that the model says.
The block after it, which held the SHA-512 digest of the seed, is zero. -/
theorem C111_ToBox (P : Prims) {s : St World} {v1 : Val} (G : Globals s promptFunc v1) {lk : Loc} (hk : 2 ≤ lk.blk) {priv : Private}
    (ek : lk.get s.mem = some (privateVal priv)) {n : Nat} (hn : 60 ≤ n) :
    Ends s.defers (Private.toBox P (priv, s.world)) (fun t => recordOf s.world t.2)
      (fun sc t r => ∃ m new l, lk.set s.mem (privateVal t.1) = some m ∧ l.get (m ++ new) = some (.arr (byteVals sc.toList)) ∧ s.mem.length ≤ l.blk ∧
        Loc.get (m ++ new) ⟨l.blk + 1, []⟩ = some (.arr (byteVals (List.replicate 64 0))) ∧
        r = .ok [.ptr l, .nil] ⟨m ++ new, s.base, s.defers, recordOf s.world t.2⟩)
      (fun e t r => ∃ v m, Says e v ∧ lk.set s.mem (privateVal t.1) = some m ∧ r = .ok [.nil, v] ⟨m, s.base, s.defers, recordOf s.world t.2⟩)
      ((interp (repo (worldSys P)) n).call id!"signify" key.Private.ToBox [.ptr lk] s) := by
  have c := privBox_in (worldSys P) (worldSys_tame P) G hk ek hn
  have e := SeesK.toBox P s.world priv s.world
  rw [recordOf_self] at e
  rw [e] at c
  rcases ho : Private.toBox P (priv, s.world) with ⟨sc | er | _ | _ | _, priv', w'⟩ <;> rw [ho] at c
  · obtain ⟨o, m, h1, h2⟩ := c
    obtain ⟨b, b', -, -, rfl⟩ := Loc.set_some h1
    have at' : ∀ i, (s.mem.set lk.blk b' ++ boxLeft (boxPre s.mem.length lk o) sc)[s.mem.length + preLen o + i]? =
        [encArr sc, .arr (byteVals (List.replicate 64 0))][i]? := by
      intro i
      rw [List.getElem?_append_right (by simp; omega), boxLeft, List.getElem?_append_right (by simp [boxPre_length]; omega), boxPre_length, List.length_set]
      congr 1
      omega
    refine ⟨_, _, _, h1, ?_, by simp, ?_, h2⟩
    · unfold Loc.get
      rw [show s.mem.length + preLen o = s.mem.length + preLen o + 0 from rfl, at' 0]
      exact congrArg some (encArr_bytes sc)
    · unfold Loc.get
      rw [at' 1]
      rfl
  all_goals exact c

/-- `open` run as text, on a decoder over an open file. -/
theorem C111_open (P : Prims) {s : St World} {v1 : Val} (G : Globals s promptFunc v1) {lk ld : Loc} {he hw f : Nat} {priv : Private}
    (hk : 2 ≤ lk.blk) (hl : 2 ≤ ld.blk) (d : lk.disjoint ld = true) (Ek : lk.get s.mem = some (privateVal priv)) (Ed : ld.get s.mem = some (decoderVal he))
    {n : Nat} (hn : 2 ^ 64 + f + 100 ≤ n) :
    Ends s.defers (openBox P (Private.toBox P) (fun n => Act.onSnd (decRead f (World.readHandle he) n)) (fun bs => Act.onSnd (World.writeHandle hw bs)) (priv, s.world))
      (fun t => recordOf s.world t.2)
      (fun _ t r => ∃ m, lk.set s.mem (privateVal t.1) = some m ∧ r = .ok [.nil] ⟨m, s.base, s.defers, recordOf s.world t.2⟩)
      (fun er t r => ∃ v m, Heard er v ∧ lk.set s.mem (privateVal t.1) = some m ∧ r = .ok [v] ⟨m, s.base, s.defers, recordOf s.world t.2⟩)
      ((interp (repo (worldSys P)) n).call id!"crypto" crypt.open [.ptr lk, .ptr ld, fileVal hw] s) := by
  have c := open_in (worldSys P) (worldSys_tame P) (f := f) (hw := hw) G hk hl d Ek Ed ((worldSys_fair P).read he) hn
  have e : openS (worldSys P) f he hw (priv, recordOf s.world s.world) = _ := SeesK.openBox P (.toBox P) (fun n => .snd (.decRead (.readHandle he) f n)) (fun bs => .snd (.writeHandle hw bs)) s.world priv s.world
  rw [recordOf_self] at e
  rw [e] at c
  rcases ho : openBox P (Private.toBox P) (fun n => Act.onSnd (decRead f (World.readHandle he) n)) (fun bs => Act.onSnd (World.writeHandle hw bs)) (priv, s.world) with
    ⟨sc | er | _ | _ | _, priv', w'⟩ <;> rw [ho] at c <;> exact c

/-- The steps that a run of `Open` can take. -/
def openFuel (w : World) (p e : Path) : Nat := fuelFor (World.readFile p w) + (2 ^ 64 + (sizeOf w e + 1) + 120)

/-- How often the model of `Open` may read from the encrypted file. -/
def readsFor (w : World) (e : Path) : Nat := sizeOf w e + 1

theorem readsFor_ok {w : World} {e : Path} (fe : Verif.File) (h : w.fs e = some fe) : fe.data.length < readsFor w e := by
  unfold readsFor sizeOf
  rw [h]
  simp

/-- C111: the text of `Open`, run in any memory on the system of the model under any schedule of faults, ends as the model says and in the world that
the model says, and leaves memory as it was. (What a world records of passphrases is kept by the model of the program, so the text does not change
it.) -/
theorem C111_Open (P : Prims) {st : St World} {v1 : Val} (G : Globals st promptFunc v1) (p e m : Path) {n : Nat} (hn : openFuel st.world p e ≤ n) :
    Ends st.defers (Open P (readsFor st.world e) p e m st.world) (recordOf st.world)
      (fun _ w' r => r = .ok [.nil] ⟨st.mem, st.base, st.defers, recordOf st.world w'⟩)
      (fun er w' r => ∃ v, Heard er v ∧ r = .ok [v] ⟨st.mem, st.base, st.defers, recordOf st.world w'⟩)
      ((interp (repo (worldSys P)) n).call id!"crypto" crypt.Open [.str p, .str e, .str m] st) := by
  have c := openAll_in (worldSys P) (worldSys_tame P) (worldSys_fair P) G p e m (readsFor st.world e) (k := n) hn
  have k : openAllS (worldSys P) (readsFor st.world e) p e m st.world = _ := Sees.Open P (readsFor st.world e) p e m st.world st.world
  rw [k] at c
  rcases ho : Open P (readsFor st.world e) p e m st.world with ⟨a | er | _ | _ | _, w'⟩ <;> rw [ho] at c <;> exact c

/-- Every run that comes to an end is the one of the model. -/
theorem Open_ends (P : Prims) {st : St World} {v1 : Val} (G : Globals st promptFunc v1) (p e m : Path) {n : Nat} {w : World}
    (h : EndsIn ((interp (repo (worldSys P)) n).call id!"crypto" crypt.Open [.str p, .str e, .str m] st) w) :
    w = recordOf st.world (Open P (readsFor st.world e) p e m st.world).2 := by
  have c := C111_Open P G p e m (Nat.le_max_right n (openFuel st.world p e))
  have ne : (interp (repo (worldSys P)) n).call id!"crypto" crypt.Open [.str p, .str e, .str m] st ≠ .stuck := by
    obtain ⟨t, -, ⟨a, k⟩ | k | k⟩ := h <;> simp [k]
  rw [((interp_mono (Prog.Le.refl _) (Nat.le_max_left n _)).call _ _ _).eq rfl ne] at c
  obtain ⟨t, rfl, h⟩ := h
  have hq := Open_returns P (readsFor st.world e) p e m st.world readsFor_ok
  rcases ho : Open P (readsFor st.world e) p e m st.world with ⟨a | er | _ | _ | _, w'⟩ <;> rw [ho] at c hq
  · obtain ⟨a, k⟩ | k | k := h <;> cases (k.symm.trans c)
    rfl
  · obtain ⟨v, hv, c⟩ := c
    obtain ⟨a, k⟩ | k | k := h <;> cases (k.symm.trans c)
    rfl
  · obtain ⟨t', c, e, -⟩ := c
    obtain ⟨a, k⟩ | k | k := h <;> cases (k.symm.trans c)
    exact e
  · obtain ⟨t', c, e⟩ := c
    obtain ⟨a, k⟩ | k | k := h <;> cases (k.symm.trans c)
    exact e
  · rcases hq with hq | hq
    · exact absurd hq (by simp [Res.Clean])
    · cases hq

/-- C111: the text of `Open` comes to an end, whatever the files hold, and not in a panic. -/
theorem C111_returns (P : Prims) {st : St World} {v1 : Val} (G : Globals st promptFunc v1) (p e m : Path) {n : Nat} (hn : openFuel st.world p e ≤ n) :
    ∃ st', (∃ v, (interp (repo (worldSys P)) n).call id!"crypto" crypt.Open [.str p, .str e, .str m] st = .ok [v] st') ∨
      (interp (repo (worldSys P)) n).call id!"crypto" crypt.Open [.str p, .str e, .str m] st = .crash st' := by
  have c := C111_Open P G p e m hn
  have hq := Open_returns P (readsFor st.world e) p e m st.world readsFor_ok
  rcases ho : Open P (readsFor st.world e) p e m st.world with ⟨a | er | _ | _ | _, w'⟩ <;> rw [ho] at c hq
  · exact ⟨_, .inl ⟨_, c⟩⟩
  · obtain ⟨v, hv, c⟩ := c
    exact ⟨_, .inl ⟨_, c⟩⟩
  · rcases hq with hq | hq
    · exact absurd hq (by simp [Res.Clean])
    · cases hq
  · obtain ⟨t', c, e⟩ := c
    exact ⟨_, .inr c⟩
  · rcases hq with hq | hq
    · exact absurd hq (by simp [Res.Clean])
    · cases hq

/-- The text returns nil, given enough steps, exactly if the model does. -/
theorem Open_nil_iff (P : Prims) {st : St World} {v1 : Val} (G : Globals st promptFunc v1) (p e m : Path) :
    (∃ n st', (interp (repo (worldSys P)) n).call id!"crypto" crypt.Open [.str p, .str e, .str m] st = .ok [.nil] st') ↔
      (Open P (readsFor st.world e) p e m st.world).1 = .ok () := by
  constructor
  · rintro ⟨n, st', k⟩
    have c := C111_Open P G p e m (Nat.le_max_right n (openFuel st.world p e))
    rw [((interp_mono (Prog.Le.refl _) (Nat.le_max_left n _)).call _ _ _).eq k (by simp)] at c
    have hq := Open_returns P (readsFor st.world e) p e m st.world readsFor_ok
    rcases ho : Open P (readsFor st.world e) p e m st.world with ⟨a | er | _ | _ | _, w'⟩ <;> rw [ho] at c hq
    · obtain ⟨v, hv, k⟩ := c
      obtain ⟨x, rfl⟩ := hv.err
      cases k
    · obtain ⟨t, k, -⟩ := c
      cases k
    · obtain ⟨t, k, -⟩ := c
      cases k
    · rcases hq with hq | hq
      · exact absurd hq (by simp [Res.Clean])
      · cases hq
  · intro h
    have c := C111_Open P G p e m (Nat.le_refl _)
    rcases ho : Open P (readsFor st.world e) p e m st.world with ⟨r, w'⟩
    rw [ho] at h c
    cases h
    exact ⟨_, _, c⟩

/-- C111: however a run of the text of `Open` ends, no file but the destination has changed, and no entropy has been drawn. -/
theorem C111_frame (P : Prims) {st : St World} {v1 : Val} (G : Globals st promptFunc v1) (p e m : Path) {n : Nat} {w : World}
    (h : EndsIn ((interp (repo (worldSys P)) n).call id!"crypto" crypt.Open [.str p, .str e, .str m] st) w) :
    (∀ q, q ≠ m → w.fs q = st.world.fs q) ∧ w.rngPos = st.world.rngPos := by
  rw [Open_ends P G p e m h]
  exact ⟨(C48_frame_partial P (readsFor st.world e) p e m st.world).1, (C77_none P (readsFor st.world e) st.world).2.2 p e m⟩

/-- C111: however a run of the text of `Open` ends, either no file has changed, or only the destination has, and it holds nothing, or the beginning of
the plaintexts of authentic chunks in the encrypted file. -/
theorem C111_authentic (P : Prims) {st : St World} {v1 : Val} (G : Globals st promptFunc v1) (p e m : Path) {n : Nat} {w : World}
    (h : EndsIn ((interp (repo (worldSys P)) n).call id!"crypto" crypt.Open [.str p, .str e, .str m] st) w) :
    w.fs = st.world.fs ∨
    ∃ d, w.fs = (st.world.setFile m ⟨d, (st.world.truncated m 0o666).mode⟩).fs ∧
      (d = [] ∨ ∃ fk priv fe first text edpriv epub n, ∃ ps : List Bytes, ∃ c j rest,
        st.world.fs p = some fk ∧ readPrivateKeyFile fk.data = .ok priv ∧ BoxUsable P st.world.tty priv edpriv ∧
        st.world.fs e = some fe ∧ fe.data = first ++ 10 :: text ∧ 10 ∉ first ∧ n < 2 ^ 64 ∧ ps.length ≤ n ∧
        DecodedFrom (stripNL text) (headerOf P (P.precompute epub edpriv) epub n ++
          (sealedFrom P (P.precompute epub edpriv) 0 ps).flatten ++ c) rest ∧
        d = ps.flatten.take j ∧ ps.dropLast.flatten.length ≤ j) := by
  rw [Open_ends P G p e m h]
  exact C40_file P (readsFor st.world e) p e m st.world

/-- C111: when the text of `Open` returns nil, the encrypted file holds a comment line and the encoding of an authentic stream for the key in the
private key file, which was usable with what the user typed, and the destination holds the plaintexts of that stream. -/
theorem C111_content (P : Prims) {st st' : St World} {v1 : Val} (G : Globals st promptFunc v1) (p e m : Path) {n : Nat}
    (h : (interp (repo (worldSys P)) n).call id!"crypto" crypt.Open [.str p, .str e, .str m] st = .ok [.nil] st') :
    ∃ fk priv fe first text edpriv epub, ∃ ps : List Bytes, ∃ rest mode,
      st.world.fs p = some fk ∧ readPrivateKeyFile fk.data = .ok priv ∧ BoxUsable P st.world.tty priv edpriv ∧
      st.world.fs e = some fe ∧ fe.data = first ++ 10 :: text ∧ 10 ∉ first ∧ ps.length < 2 ^ 64 ∧
      DecodedFrom (stripNL text) (sealedStream P (P.precompute epub edpriv) epub ps) rest ∧
      st'.world.fs m = some ⟨ps.flatten, mode⟩ := by
  rw [Open_ends P G p e m ⟨st', rfl, .inl ⟨_, h⟩⟩]
  exact C38_file P (readsFor st.world e) p e m st.world ((Open_nil_iff P G p e m).1 ⟨n, st', h⟩)

/-- C111: after a run of the text of `GenerateKey` that returned nil, and a run of the text of
`Seal` with no faults that returned nil, a run of the text of `Open` with no faults returns nil and gives back the message. Between the runs the rest of the
machine may change in any way. -/
theorem C111_roundtrip (P : Prims) (hdh : DHAgrees P) (hmatch : BoxMatches P) (base : Path) (pw : Bytes) (opts : Option Int)
    {s0 t0 : St World} {a0 : Val} (G0 : Globals s0 a0 defaultOpts) {v o : Val} (hv : Given s0.mem v pw o opts) {n0 : Nat}
    (h0 : (interp (repo (worldSys P)) n0).call id!"signify" key.GenerateKey [.str base, v, o] s0 = .ok [.nil] t0)
    {s1 t1 : St World} {a1 b1 : Val} (G1 : Globals s1 a1 b1) (q1 : s1.world.Quiet) (mp ep out : Path) (fm : Verif.File) (hne : fm.data ≠ [])
    (hpub : s1.world.fs (base ++ b!".pub") = t0.world.fs (base ++ b!".pub")) (hmsg : s1.world.fs mp = some fm) (hsize : sizeOf s1.world mp < 2 ^ 62)
    (hpath1 : mp ≠ encPath mp ep) {n1 : Nat}
    (h1 : (interp (repo (worldSys P)) n1).call id!"crypto" crypt.Seal [.str (base ++ b!".pub"), .str mp, .str ep] s1 = .ok [.nil] t1)
    {s2 : St World} {b2 : Val} (G2 : Globals s2 promptFunc b2) (q2 : s2.world.Quiet)
    (hsec : s2.world.fs (base ++ b!".sec") = t0.world.fs (base ++ b!".sec"))
    (henc : s2.world.fs (encPath mp ep) = t1.world.fs (encPath mp ep))
    (hpath2 : encPath mp ep ≠ out) (htty : pw ≠ [] → ∃ rest, s2.world.tty = some pw :: rest)
    (hluck : pw ≠ [] → ∀ fk priv, s2.world.fs (base ++ b!".sec") = some fk → readPrivateKeyFile fk.data = .ok priv →
      (P.sha512 priv.key.toList).toList.take 8 ≠ priv.checksum.toList) :
    ∃ n2 t2 mode, (interp (repo (worldSys P)) n2).call id!"crypto" crypt.Open [.str (base ++ b!".sec"), .str (encPath mp ep), .str out] s2 = .ok [.nil] t2 ∧
      t2.world.fs out = some ⟨fm.data, mode⟩ := by
  have e0 := GenerateKey_ends P G0 hv base ⟨t0, rfl, .inl ⟨_, h0⟩⟩
  have e1 := Seal_ends P G1 (base ++ b!".pub") mp ep hsize ⟨t1, rfl, .inl ⟨_, h1⟩⟩
  have hl : fm.data.length < 2 ^ 63 := by
    unfold sizeOf at hsize
    rw [hmsg] at hsize
    simp only [Option.map_some, Option.getD_some] at hsize
    omega
  obtain ⟨-, k1, mode, k2⟩ := C36_roundtrip P hdh hmatch base pw opts s0.world ((GenerateKey_nil_iff P G0 hv base).1 ⟨n0, t0, h0⟩) mp ep out fm hne hl s1.world q1
    (e0 ▸ hpub) hmsg hpath1 s2.world q2 (e0 ▸ hsec) (e1 ▸ henc) hpath2 htty hluck (readsFor s2.world (encPath mp ep)) readsFor_ok
  obtain ⟨n2, t2, h2⟩ := (Open_nil_iff P G2 (base ++ b!".sec") (encPath mp ep) out).2 k1
  refine ⟨n2, t2, mode, h2, ?_⟩
  rw [Open_ends P G2 _ _ _ ⟨t2, rfl, .inl ⟨_, h2⟩⟩]
  exact k2

/-- C111: the assumptions about the libraries hold if they implement the RFCs. -/
theorem C111_conforms (P : Prims) (hP : Ed.Conforms P) : DHAgrees P ∧ BoxMatches P := ⟨C52_exchange P hP, C52_matching P hP⟩

/-- C111: with the encrypted file as its own destination, the text of `Open` never returns nil. -/
theorem C111_same_path (P : Prims) {st st' : St World} {v1 : Val} (G : Globals st promptFunc v1) (p m : Path) {n : Nat} :
    (interp (repo (worldSys P)) n).call id!"crypto" crypt.Open [.str p, .str m, .str m] st ≠ .ok [.nil] st' := fun h =>
  (C48_same_path P (readsFor st.world m) p m st.world).1 ((Open_nil_iff P G p m m).1 ⟨n, st', h⟩)

/-! ### The assumptions can be met -/

/-- A machine with given files. -/
def withFiles (f : Path → Option Verif.File) : World := { calm with fs := f }

theorem withFiles_fs (f : Path → Option Verif.File) : (withFiles f).fs = f := rfl

/-- The files after the text of `GenerateKey`, and a message. -/
def madeWorld : World := withFiles ((GenerateKey flat b!"k" [] (some 3) calm).2.setFile b!"m" ⟨b!"hi", 0⟩).fs

/-- The files after the text of `Seal`. -/
def sealedWorld : World := withFiles (Seal flat (b!"k" ++ b!".pub") b!"m" [] madeWorld).2.fs

noncomputable def madeState : St World := ⟨[promptFunc, defaultOpts, .nil], 0, [], madeWorld⟩
noncomputable def sealedState : St World := ⟨[promptFunc, defaultOpts, .bool true], 1, [], sealedWorld⟩

/-- The three texts, on files that each of them leaves to the next. -/
example : ∃ n0 t0 n1 t1 n2 t2 mode,
    (interp (repo (worldSys flat)) n0).call id!"signify" key.GenerateKey [.str b!"k", .slice ⟨2, []⟩ 0 0 0, .ptr ⟨3, []⟩] (newState [] 3) = .ok [.nil] t0 ∧
    (interp (repo (worldSys flat)) n1).call id!"crypto" crypt.Seal [.str (b!"k" ++ b!".pub"), .str b!"m", .str []] madeState = .ok [.nil] t1 ∧
    (interp (repo (worldSys flat)) n2).call id!"crypto" crypt.Open [.str (b!"k" ++ b!".sec"), .str (encPath b!"m" []), .str b!"out"] sealedState = .ok [.nil] t2 ∧
    t2.world.fs b!"out" = some ⟨b!"hi", mode⟩ := by
  have g : (GenerateKey flat b!"k" [] (some 3) calm).1 = .ok () := by rfl
  obtain ⟨n0, t0, h0⟩ := (GenerateKey_nil_iff flat (newGlobals [] 3) (newGiven [] 3) b!"k").2 g
  have e0 : t0.world = (GenerateKey flat b!"k" [] (some 3) calm).2 := GenerateKey_ends flat (newGlobals [] 3) (newGiven [] 3) b!"k" ⟨t0, rfl, .inl ⟨_, h0⟩⟩
  have G1 : Globals madeState promptFunc defaultOpts := ⟨rfl, rfl, rfl, rfl⟩
  have G2 : Globals sealedState promptFunc defaultOpts := ⟨rfl, rfl, rfl, rfl⟩
  have hz : sizeOf madeState.world b!"m" < 2 ^ 62 := by
    show sizeOf madeWorld b!"m" < 2 ^ 62
    decide +kernel
  have hfs : madeWorld.fs = ((GenerateKey flat b!"k" [] (some 3) calm).2.setFile b!"m" ⟨b!"hi", 0⟩).fs := withFiles_fs _
  have hpub : madeWorld.fs (b!"k" ++ b!".pub") = (GenerateKey flat b!"k" [] (some 3) calm).2.fs (b!"k" ++ b!".pub") := by
    rw [hfs]
    exact setFile_other _ _ (by decide)
  have henc : sealedWorld.fs = (Seal flat (b!"k" ++ b!".pub") b!"m" [] madeWorld).2.fs := withFiles_fs _
  have hsec : sealedWorld.fs (b!"k" ++ b!".sec") = (GenerateKey flat b!"k" [] (some 3) calm).2.fs (b!"k" ++ b!".sec") := by
    rw [henc, C43_frame flat (b!"k" ++ b!".pub") b!"m" [] madeWorld _ (by decide)]
    rw [hfs]
    exact setFile_other _ _ (by decide)
  have hmsg : madeWorld.fs b!"m" = some ⟨b!"hi", 0⟩ := by
    rw [hfs]
    exact setFile_self _ _ _
  have q1 : madeWorld.Quiet := fun _ _ => rfl
  have q2 : sealedWorld.Quiet := fun _ _ => rfl
  have w1 : madeState.world = madeWorld := rfl
  have w2 : sealedState.world = sealedWorld := rfl
  obtain ⟨k1, -⟩ := C36_roundtrip flat flat_matches.2 flat_matches.1 b!"k" [] (some 3) calm g b!"m" [] b!"out" ⟨b!"hi", 0⟩ (by decide) (by decide) madeWorld q1 hpub hmsg
    (by decide) sealedWorld q2 hsec (congrFun henc _) (by decide) (fun h => absurd rfl h) (fun h => absurd rfl h) (readsFor sealedWorld (encPath b!"m" [])) readsFor_ok
  obtain ⟨n1, t1, h1⟩ := (Seal_nil_iff flat G1 (b!"k" ++ b!".pub") b!"m" [] hz).2 (by rw [w1]; exact k1)
  have e1 := Seal_ends flat G1 _ b!"m" [] hz ⟨t1, rfl, .inl ⟨_, h1⟩⟩
  rw [w1] at e1
  obtain ⟨n2, t2, mode, h2, h3⟩ := C111_roundtrip flat flat_matches.2 flat_matches.1 b!"k" [] (some 3) (newGlobals [] 3) (newGiven [] 3) h0 G1 (by rw [w1]; exact q1) b!"m" [] b!"out" ⟨b!"hi", 0⟩
    (by decide) (by rw [w1, e0]; exact hpub) (by rw [w1]; exact hmsg) hz (by decide) h1 G2 (by rw [w2]; exact q2) (by rw [w2, e0]; exact hsec)
    (by rw [w2, e1]; exact congrFun henc _) (by decide) (fun h => absurd rfl h) (fun h => absurd rfl h)
  exact ⟨n0, t0, n1, t1, n2, t2, mode, h0, h1, h2, h3⟩

/-- A key in memory that `Private.ToBox` can be called on. -/
example : Globals (⟨[promptFunc, defaultOpts, privateVal lockedKey], 0, [], calm⟩ : St World) promptFunc defaultOpts ∧
    Loc.get [promptFunc, defaultOpts, privateVal lockedKey] ⟨2, []⟩ = some (privateVal lockedKey) :=
  ⟨⟨rfl, rfl, rfl, rfl⟩, rfl⟩

end Verif.Src
