/-
C112: the Go text of PassphrasePrompt, with and without confirmation, does what the model does.
-/
import Verif.Source.PromptText
import Verif.Source.Seen
import Verif.Props.SourceGenerate
import Verif.Props.Cli

namespace Verif.Src

open Verif.Props Spec World

/-- `PassphrasePrompt(confirm)` as the model says, on any system. -/
def promptS {ω : Type} (S : Sys ω) (confirm : Bool) : Act ω Bytes := if confirm then confirmS S else askS S

/-- The model of `PassphrasePrompt` and `PassphrasePrompt` on the system made of the same calls: the first returns the number of a buffer, the second what
the buffer holds. -/
theorem promptS_seen (P : Prims) (confirm : Bool) (w : World) : promptS (worldSys P) confirm w =
    match passphrasePrompt confirm w with
    | (.ok i, w') => (.ok (w'.bufs.getD i []), recordOf w w')
    | (.err e, w') => (.err e, recordOf w w')
    | (.panic, w') => (.panic, recordOf w w')
    | (.crash, w') => (.crash, recordOf w w')
    | (.hang, w') => (.hang, recordOf w w') := by
  obtain ⟨fs, um, hd, sc, tk, tty, bufs, prm, rng, rp, so, se⟩ := w
  cases confirm
  · rcases tty with _ | ⟨_ | pw, rest⟩
    · rfl
    · rfl
    · have e : (bufs ++ [pw]).getD bufs.length [] = pw := by simp [List.getD]
      show _ = (Res.ok ((bufs ++ [pw]).getD bufs.length []), _)
      rw [e]
      rfl
  · rcases tty with _ | ⟨_ | pw, _ | ⟨_ | pw', rest⟩⟩
    case cons.some.cons.some =>
      rw [passphrasePrompt_twice (a := pw) (b := pw') (rest := rest) rfl]
      have l : confirmS (worldSys P) ⟨fs, um, hd, sc, tk, some pw :: some pw' :: rest, bufs, prm, rng, rp, so, se⟩ =
          (if pw = pw' then (pure pw : Act World Bytes) else Act.fail .passphraseMismatch)
            ⟨fs, um, hd, sc, tk, rest, bufs, prm, rng, rp, so ++ b!"Password: " ++ [10] ++ b!"Confirm password: " ++ [10], se⟩ := rfl
      show confirmS _ _ = _
      rw [l]
      by_cases h : pw = pw'
      · subst h
        rw [if_pos rfl, if_pos rfl]
        simp [typedTwice, recordOf, List.getD, Pure.pure]
      · rw [if_neg h, if_neg h]
        rfl
    all_goals rfl

/-- The blocks from the `k`-th on, but for the `i`-th, hold no byte other than zero. -/
def BlankFrom (k i : Nat) (mem : List Val) : Prop := ∀ j vs, k ≤ j → j ≠ i → mem[j]? = some (.arr vs) → ∀ v ∈ vs, v = .int .uint8 0

theorem blank_asked (mem : List Val) (pw : Bytes) : BlankFrom mem.length (mem.length + 1) (mem ++ askedMem mem.length pw) := by
  intro j vs h1 h2 h3
  obtain ⟨i, rfl⟩ : ∃ i, j = mem.length + i := ⟨j - mem.length, by omega⟩
  rw [List.getElem?_append_right h1, Nat.add_sub_cancel_left] at h3
  rcases i with _ | _ | _ | _ | i
  · cases h3
  · exact absurd rfl h2
  · cases h3
  · cases h3
  · simp [askedMem] at h3

theorem blank_confirm (mem : List Val) (pw : Bytes) :
    BlankFrom mem.length (mem.length + 1) (mem ++ confirmMem mem.length pw pw (byteVals (List.replicate pw.length 0))) := by
  intro j vs h1 h2 h3
  obtain ⟨i, rfl⟩ : ∃ i, j = mem.length + i := ⟨j - mem.length, by omega⟩
  rw [List.getElem?_append_right h1, Nat.add_sub_cancel_left] at h3
  rcases i with _ | _ | _ | _ | _ | _ | i
  · cases h3
  · exact absurd rfl h2
  · cases h3
  · cases h3
  · cases h3
    intro v hv
    obtain ⟨b, hb, rfl⟩ := List.mem_map.1 hv
    rw [(List.mem_replicate.1 hb).2]
    rfl
  · cases h3
  · simp [confirmMem] at h3

theorem at_append (mem new : List Val) (i : Nat) {v : Val} (h : new[i]? = some v) : Loc.get (mem ++ new) ⟨mem.length + i, []⟩ = some v := by
  unfold Loc.get
  rw [List.getElem?_append_right (by simp), Nat.add_sub_cancel_left, h]
  cases v <;> rfl

theorem globals_len {s : St ω} {v0 v1 : Val} (G : Globals s v0 v1) : 2 ≤ s.mem.length := by
  have h := G.second
  by_contra hc
  rw [List.getElem?_eq_none (by omega)] at h
  cases h

/-- C112: the text of `PassphrasePrompt`, run in any memory on the system of the model, ends as the model says and in the world that the model says. With
a passphrase, it returns a slice of a new block that holds exactly the passphrase that the model returns, no other block that it has made
holds a byte other than zero, and what was in memory before is unchanged. With an error, it leaves memory as it was. -/
theorem C112_prompt (P : Prims) {s : St World} {v0 v1 : Val} (G : Globals s v0 v1) (confirm : Bool) {n : Nat} (hn : 40 ≤ n) :
    Ends s.defers (passphrasePrompt confirm s.world) (recordOf s.world)
      (fun i w r => ∃ (l : Loc) (new : List Val), l.blk = s.mem.length + 1 ∧ l.get (s.mem ++ new) = some (.arr (byteVals (w.bufs.getD i []))) ∧
        BlankFrom s.mem.length l.blk (s.mem ++ new) ∧
        r = .ok [.slice l 0 (w.bufs.getD i []).length (w.bufs.getD i []).length, .nil] ⟨s.mem ++ new, s.base, s.defers, recordOf s.world w⟩)
      (fun e w r => r = .ok [.nil, promptErrVal e] ⟨s.mem, s.base, s.defers, recordOf s.world w⟩)
      ((interp (repo (worldSys P)) n).call id!"signify" promptF [.bool confirm] s) := by
  have H : ∀ w, ((worldSys P).readPassword w).1 ≠ .err .passphraseMismatch := by
    intro w
    show (typedPassword w).1 ≠ _
    unfold typedPassword
    split <;> simp
  have e := promptS_seen P confirm s.world
  unfold promptS at e
  cases confirm
  · have c := prompt_in (worldSys P) (worldSys_tame P) G (n := n) (by omega)
    have ne : (passphrasePrompt false s.world).1 ≠ .err .passphraseMismatch := by
      have k := C58_single s.world
      by_cases h : ∃ a rest, s.world.tty = some a :: rest
      · obtain ⟨a, rest, h⟩ := h
        obtain ⟨i, h, -⟩ := k.1 a rest h
        rw [h]
        simp
      · rw [k.2 fun a rest h' => h ⟨a, rest, h'⟩]
        simp
    rw [if_neg (by simp)] at e
    rw [e] at c
    rcases ho : passphrasePrompt false s.world with ⟨i | er | _ | _ | _, w⟩ <;> rw [ho] at c ne
    · simp only [Ends, byteVals_length] at c
      exact ⟨⟨_, []⟩, _, rfl, at_append _ _ 1 rfl, blank_asked _ _, c⟩
    · show _ = _
      rw [promptErrVal_lib fun h => ne (by rw [h])]
      exact c
    all_goals exact c
  · have c := confirm_in (worldSys P) (worldSys_tame P) H G hn
    rw [if_pos rfl] at e
    rw [e] at c
    rcases ho : passphrasePrompt true s.world with ⟨i | er | _ | _ | _, w⟩ <;> rw [ho] at c
    · simp only [Ends, byteVals_length] at c
      exact ⟨⟨_, []⟩, _, rfl, at_append _ _ 1 rfl, blank_confirm _ _, c⟩
    all_goals exact c

/-- C112: with two entries on the terminal, the text of `PassphrasePrompt(true)` takes both, prints the two questions and nothing else, and
changes nothing else in the world. If they are equal it returns a slice with that entry, otherwise the error "passphrases don't match". -/
theorem C112_typed (P : Prims) {s : St World} {v0 v1 : Val} (G : Globals s v0 v1) {a b : Bytes} {rest : List (Option Bytes)}
    (h : s.world.tty = some a :: some b :: rest) {n : Nat} (hn : 40 ≤ n) :
    ∃ v e t, (interp (repo (worldSys P)) n).call id!"signify" promptF [.bool true] s = .ok [v, e] t ∧
      t.world = { s.world with tty := rest, stdout := s.world.stdout ++ b!"Password: \nConfirm password: \n" } ∧
      (a = b → e = .nil ∧ ∃ l : Loc, v = .slice l 0 a.length a.length ∧ s.mem.length ≤ l.blk ∧ l.get t.mem = some (.arr (byteVals a))) ∧
      (a ≠ b → v = .nil ∧ e = .err (.text b!"passphrases don't match" none) ∧ t.mem = s.mem) := by
  have c := C112_prompt P G true hn
  have hw : recordOf s.world (typedTwice s.world a b rest) =
      { s.world with tty := rest, stdout := s.world.stdout ++ b!"Password: \nConfirm password: \n" } := by
    simp only [recordOf, typedTwice, List.append_assoc]
    rfl
  rw [passphrasePrompt_twice h] at c
  by_cases hab : a = b
  · subst hab
    rw [if_pos rfl] at c
    obtain ⟨l, new, h1, h2, -, h4⟩ := c
    have e : (typedTwice s.world a a rest).bufs.getD s.world.bufs.length [] = a := by simp [typedTwice, List.getD]
    rw [e] at h2 h4
    exact ⟨_, _, _, h4, hw, fun _ => ⟨rfl, l, rfl, by omega, h2⟩, fun h => absurd rfl h⟩
  · rw [if_neg hab] at c
    exact ⟨_, _, _, c, hw, fun h => absurd h hab, fun _ => ⟨rfl, rfl, rfl⟩⟩

/-- What a run of the text of `PassphrasePrompt(true)` that returned no error says about the terminal. -/
theorem confirmed (P : Prims) {s t : St World} {v0 v1 v : Val} (G : Globals s v0 v1) {n : Nat}
    (h : (interp (repo (worldSys P)) n).call id!"signify" promptF [.bool true] s = .ok [v, .nil] t) :
    ∃ pw rest, s.world.tty = some pw :: some pw :: rest ∧ Given t.mem v pw .nil none ∧ Globals t v0 v1 ∧
      t.world = { s.world with tty := rest, stdout := s.world.stdout ++ b!"Password: \nConfirm password: \n" } := by
  have h' := ((interp_mono (Prog.Le.refl (repo (worldSys P))) (Nat.le_max_left n 40)).call _ _ _).eq h (by simp)
  have c := C112_prompt P G true (Nat.le_max_right n 40)
  by_cases ht : ∃ a b rest, s.world.tty = some a :: some b :: rest
  · obtain ⟨a, b, rest, ht⟩ := ht
    obtain ⟨v', e, t', k, hw, y1, y2⟩ := C112_typed P G ht (Nat.le_max_right n 40)
    cases h'.symm.trans k
    by_cases hab : a = b
    · subst hab
      obtain ⟨-, l, rfl, k1, k2⟩ := y1 rfl
      have hl := globals_len G
      rw [passphrasePrompt_twice ht, if_pos rfl] at c
      obtain ⟨l', new, -, -, -, c⟩ := c
      rw [show (typedTwice s.world a a rest).bufs.getD s.world.bufs.length [] = a by simp [typedTwice, List.getD]] at c
      cases h'.symm.trans c
      refine ⟨a, rest, ht, .pass _ (by omega) k2, ⟨?_, ?_, G.plain0, G.plain1⟩, hw⟩
      · show (s.mem ++ new)[0]? = _
        rw [List.getElem?_append_left (by omega)]
        exact G.first
      · show (s.mem ++ new)[1]? = _
        rw [List.getElem?_append_left (by omega)]
        exact G.second
    · cases (y2 hab).2.1
  · have k := (C58_only s.world).2 fun a b rest h => ht ⟨a, b, rest, h⟩
    rcases ho : passphrasePrompt true s.world with ⟨r, w⟩
    rw [ho] at c k
    cases k
    cases h'.symm.trans c

/-- C112: what `psignify -G` does, in the two texts: if that of `PassphrasePrompt(true)` returns no error, and that of `GenerateKey`, given the
slice that it returned, returns nil, then the user typed the same passphrase twice, and the two files hold a pair that was generated for that passphrase. -/
theorem C112_generate (P : Prims) {s0 s1 s2 : St World} {v0 v : Val} (G : Globals s0 v0 defaultOpts) (base : Path) {n1 n2 : Nat}
    (h1 : (interp (repo (worldSys P)) n1).call id!"signify" promptF [.bool true] s0 = .ok [v, .nil] s1)
    (h2 : (interp (repo (worldSys P)) n2).call id!"signify" key.GenerateKey [.str base, v, .nil] s1 = .ok [.nil] s2) :
    ∃ pw rest priv pub f g, s0.world.tty = some pw :: some pw :: rest ∧
      Generated P pw none (draw s0.world s0.world.rngPos 32) (draw s0.world (s0.world.rngPos + 32) 16) (draw s0.world (s0.world.rngPos + 48) 8) priv pub ∧
      s2.world.fs (base ++ b!".sec") = some f ∧ readPrivateKeyFile f.data = .ok priv ∧
      s2.world.fs (base ++ b!".pub") = some g ∧ readPublicKeyFile g.data = .ok pub := by
  obtain ⟨pw, rest, ht, hg, G1, hw⟩ := confirmed P G h1
  obtain ⟨priv, pub, f, g, k⟩ := C109_complete P G1 hg base h2
  rw [hw] at k
  exact ⟨pw, rest, priv, pub, f, g, ht, k⟩

/-! ### The assumptions can be met -/

noncomputable def twiceState : St World := ⟨[promptFunc, defaultOpts, .nil], 0, [], { calm with tty := [some b!"pw", some b!"pw"] }⟩

example : Globals twiceState promptFunc defaultOpts ∧ twiceState.world.tty = some b!"pw" :: some b!"pw" :: [] := ⟨⟨rfl, rfl, rfl, rfl⟩, rfl⟩

/-- The two texts, one after the other. -/
example : ∃ n1 n2 v s1 s2, (interp (repo (worldSys flat)) n1).call id!"signify" promptF [.bool true] twiceState = .ok [v, .nil] s1 ∧
    (interp (repo (worldSys flat)) n2).call id!"signify" key.GenerateKey [.str b!"k", v, .nil] s1 = .ok [.nil] s2 := by
  have G : Globals twiceState promptFunc defaultOpts := ⟨rfl, rfl, rfl, rfl⟩
  obtain ⟨v, e, t, k, hw, y, -⟩ := C112_typed flat G (a := b!"pw") (b := b!"pw") (rest := []) rfl (Nat.le_refl 40)
  obtain ⟨rfl, -⟩ := y rfl
  obtain ⟨pw, rest, ht, hg, G1, -⟩ := confirmed flat G k
  cases ht
  obtain ⟨n2, s2, h2⟩ := (GenerateKey_nil_iff flat G1 hg b!"k").2 (by rw [hw]; rfl)
  exact ⟨40, n2, v, t, s2, k, h2⟩

end Verif.Src
