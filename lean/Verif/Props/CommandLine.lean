/-
C75, C76: the command line.
-/
import Verif.Model.Flags
import Verif.Spec.CommandLine
import Verif.Props.Cli
import Mathlib.Tactic.Tauto
import Mathlib.Data.List.Induction

namespace Verif.Props
open World Spec

/-! ### Lemmas -/

theorem flagBody_dashes (d : Bool) (l : UInt8) (t : Bytes) (hl : l ≠ 45) : flagBody (dashes d ++ l :: t) = some (some (l :: t)) := by
  cases d
  · show flagBody (45 :: l :: t) = _
    unfold flagBody
    split <;> simp_all
  · show flagBody (45 :: 45 :: l :: t) = _
    unfold flagBody
    split <;> simp_all

theorem splitFlag_plain (l : UInt8) : splitFlag [l] = ([l], none) := by simp [splitFlag]

theorem splitFlag_joined (l : UInt8) (v : Bytes) : splitFlag (l :: 61 :: v) = ([l], some v) := by
  simp [splitFlag]

/-- What one option does to the settings. -/
def Item.apply (f : Flags) : Item → Flags
  | .switch _ l => if l = 110 then { f with noPass := true } else if l = 68 then { f with decrypt := true }
      else if l = 69 then { f with encrypt := true } else if l = 71 then { f with generate := true }
      else if l = 83 then { f with sign := true } else { f with verify := true }
  | .pair _ l v | .joined _ l v => if l = 99 then { f with encryptedFile := v } else if l = 109 then { f with messageFile := v }
      else if l = 112 then { f with pubKeyFile := v } else if l = 115 then { f with privKeyFile := v }
      else { f with signatureFile := v }

theorem proper_switch {l : UInt8} (h : l ∈ switchLetters) : l = 110 ∨ l = 68 ∨ l = 69 ∨ l = 71 ∨ l = 83 ∨ l = 86 := by
  simpa [switchLetters] using h

theorem proper_value {l : UInt8} (h : l ∈ valueLetters) : l = 99 ∨ l = 109 ∨ l = 112 ∨ l = 115 ∨ l = 120 := by
  simpa [valueLetters] using h

theorem parse_item (i : Item) (hi : i.Proper) (rest : List Bytes) (f : Flags) :
    parseFlags (i.args ++ rest) f = parseFlags rest (Item.apply f i) := by
  cases i with
  | switch d l =>
    rcases proper_switch hi with rfl | rfl | rfl | rfl | rfl | rfl <;>
      (show parseFlags ((dashes d ++ [_]) :: rest) f = _
       rw [parseFlags, flagBody_dashes d _ [] (by decide)]
       simp only [splitFlag_plain]
       rfl)
  | pair d l v =>
    rcases proper_value hi with rfl | rfl | rfl | rfl | rfl <;>
      (show parseFlags ((dashes d ++ [_]) :: v :: rest) f = _
       rw [parseFlags, flagBody_dashes d _ [] (by decide)]
       simp only [splitFlag_plain]
       rfl)
  | joined d l v =>
    rcases proper_value hi with rfl | rfl | rfl | rfl | rfl <;>
      (show parseFlags ((dashes d ++ _ :: 61 :: v) :: rest) f = _
       rw [parseFlags, flagBody_dashes d _ _ (by decide)]
       simp only [splitFlag_joined]
       rfl)

theorem parse_items (items : List Item) (h : ∀ i ∈ items, i.Proper) (rest : List Bytes) (f : Flags) :
    parseFlags ((items.map Item.args).flatten ++ rest) f = parseFlags rest (items.foldl Item.apply f) := by
  induction items generalizing f with
  | nil => rfl
  | cons i items ih =>
    simp only [List.map_cons, List.flatten_cons, List.append_assoc, List.foldl_cons]
    rw [parse_item i (h i (by simp)), ih (fun j hj => h j (by simp [hj]))]

theorem parse_end (rest : List Bytes) (h : EndsOptions rest) (f : Flags) : parseFlags rest f = .ok f := by
  match rest, h with
  | [], _ => rfl
  | a :: rest, h =>
    rw [parseFlags]
    have : flagBody a = none ∨ flagBody a = some none := by
      rcases h with rfl | rfl | h
      · right; rfl
      · left; rfl
      · left
        unfold flagBody
        split <;> simp_all
    rcases this with h | h <;> rw [h]

theorem valueIn_append (items : List Item) (i : Item) (l : UInt8) :
    valueIn (items ++ [i]) l = (i.valueOf l).getD (valueIn items l) := by
  unfold valueIn
  rw [List.filterMap_append]
  cases h : i.valueOf l with
  | none => simp [h]
  | some v => simp [h]

theorem hasSwitch_append (items : List Item) (i : Item) (l : UInt8) :
    hasSwitch (items ++ [i]) l = (hasSwitch items l || i.isSwitch l) := by simp [hasSwitch]

theorem settings_append (items : List Item) (i : Item) (hi : i.Proper) :
    settings (items ++ [i]) = Item.apply (settings items) i := by
  unfold settings
  simp only [valueIn_append, hasSwitch_append]
  cases i with
  | switch d l =>
    rcases proper_switch hi with rfl | rfl | rfl | rfl | rfl | rfl <;> simp [Item.apply, Item.isSwitch, Item.valueOf]
  | pair d l v =>
    rcases proper_value hi with rfl | rfl | rfl | rfl | rfl <;> simp [Item.apply, Item.isSwitch, Item.valueOf]
  | joined d l v =>
    rcases proper_value hi with rfl | rfl | rfl | rfl | rfl <;> simp [Item.apply, Item.isSwitch, Item.valueOf]

theorem settings_foldl (items : List Item) (h : ∀ i ∈ items, i.Proper) : items.foldl Item.apply {} = settings items := by
  induction items using List.reverseRecOn with
  | nil => rfl
  | append_singleton items i ih =>
    rw [List.foldl_append, List.foldl_cons, List.foldl_nil, ih (fun j hj => h j (by simp [hj])),
      settings_append items i (h i (by simp))]

/-! ### C75 -/

/-- C75: for every sequence of properly used options, in every order and notation, with repetitions, followed by anything that ends
the options, the process runs with exactly the settings that the options say; what follows the options has no effect. -/
theorem C75_options (P : Prims) (fuel : Nat) (env : CliEnv) (text : FlagText) (items : List Item) (h : ∀ i ∈ items, i.Proper)
    (rest : List Bytes) (hrest : EndsOptions rest) (w : World) :
    psignify P fuel env text ((items.map Item.args).flatten ++ rest) w = cliMain P fuel env (settings items) w := by
  unfold psignify
  rw [parse_items items h, parse_end rest hrest, settings_foldl items h]

/-- C75 for verification as in the usage text: with no faults the command `psignify -V -p pubkey -x sigfile -m message` ends with
status 0 exactly if the three files hold a signature that is to be accepted; whatever the paths are (they may start with a dash). -/
theorem C75_verify (P : Prims) (fuel : Nat) (env : CliEnv) (text : FlagText) (pub sig msg : Path) (hpub : pub ≠ []) (hsig : sig ≠ [])
    (w : World) (hq : w.Quiet) :
    (psignify P fuel env text [b!"-V", b!"-p", pub, b!"-x", sig, b!"-m", msg] w).1 = .status 0 ↔
      ∃ fp fm fs, w.fs pub = some fp ∧ w.fs msg = some fm ∧ w.fs sig = some fs ∧ Accepts P fp.data fm.data fs.data := by
  have e := C75_options P fuel env text [.switch false 86, .pair false 112 pub, .pair false 120 sig, .pair false 109 msg]
    (by simp [Item.Proper, switchLetters, valueLetters]) [] trivial w
  have e' : psignify P fuel env text [b!"-V", b!"-p", pub, b!"-x", sig, b!"-m", msg] w =
      cliMain P fuel env { verify := true, pubKeyFile := pub, signatureFile := sig, messageFile := msg } w := e
  rw [e', C56_verify_exact P fuel env _ w rfl hq]
  have h1 : pubPath env { verify := true, pubKeyFile := pub, signatureFile := sig, messageFile := msg } = pub := by
    simp [pubPath, orDefault, hpub]
  have h2 : sigPath msg sig = sig := by simp [sigPath, hsig]
  rw [h1, h2]

/-- A command line with options in several notations, a repetition, and arguments after the options. -/
example : let items : List Item := [.pair false 109 b!"a", .switch true 86, .joined true 112 b!"-k=pub", .pair false 109 b!"-b"]
    (∀ i ∈ items, i.Proper) ∧ EndsOptions [b!"--", b!"-S"] ∧
    (items.map Item.args).flatten ++ [b!"--", b!"-S"] = [b!"-m", b!"a", b!"--V", b!"--p=-k=pub", b!"-m", b!"-b", b!"--", b!"-S"] ∧
    (settings items).messageFile = b!"-b" ∧ (settings items).pubKeyFile = b!"-k=pub" ∧ (settings items).verify = true ∧
    (settings items).sign = false := by
  refine ⟨by simp [Item.Proper, switchLetters, valueLetters], .inl rfl, rfl, rfl, rfl, rfl, rfl⟩

/-! ### C76 -/

/-- A command line that the program does not understand: after properly used options there is an option without its value, an
unknown letter (not `h`, which asks for help), or a switch with a value that is no truth value. -/
inductive Malformed : List Bytes → Prop
  | noValue (items : List Item) (h : ∀ i ∈ items, i.Proper) (d : Bool) (l : UInt8) (hl : l ∈ valueLetters) :
      Malformed ((items.map Item.args).flatten ++ [dashes d ++ [l]])
  | unknown (items : List Item) (h : ∀ i ∈ items, i.Proper) (d : Bool) (l : UInt8) (hl : l ∉ valueLetters ++ switchLetters ++ b!"-=h")
      (rest : List Bytes) : Malformed ((items.map Item.args).flatten ++ (dashes d ++ [l]) :: rest)
  | badSwitch (items : List Item) (h : ∀ i ∈ items, i.Proper) (d : Bool) (l : UInt8) (hl : l ∈ switchLetters) (v : Bytes)
      (hv : v ∉ [b!"1", b!"t", b!"T", b!"true", b!"TRUE", b!"True", b!"0", b!"f", b!"F", b!"false", b!"FALSE", b!"False"])
      (rest : List Bytes) : Malformed ((items.map Item.args).flatten ++ (dashes d ++ l :: 61 :: v) :: rest)

theorem flagTable_unknown {l : UInt8} (hl : l ∉ valueLetters ++ switchLetters) : flagTable [l] = none := by
  simp only [valueLetters, switchLetters, List.mem_append, List.mem_cons, List.not_mem_nil, or_false, not_or] at hl
  obtain ⟨⟨h1, h2, h3, h4, h5⟩, h6, h7, h8, h9, h10, h11⟩ := hl
  simp [flagTable, h1, h2, h3, h4, h5, h6, h7, h8, h9, h10, h11]

theorem parse_malformed {args : List Bytes} (h : Malformed args) : ∃ e, parseFlags args {} = .error e := by
  cases h with
  | noValue items h d l hl =>
    rw [parse_items items h]
    rcases proper_value hl with rfl | rfl | rfl | rfl | rfl <;>
      (rw [parseFlags, flagBody_dashes d _ [] (by decide)]
       simp only [splitFlag_plain]
       exact ⟨_, rfl⟩)
  | unknown items h d l hl rest =>
    rw [parse_items items h]
    have h45 : l ≠ 45 := fun h => hl (by simp [h])
    have h61 : l ≠ 61 := fun h => hl (by simp [h])
    rw [parseFlags, flagBody_dashes d _ [] h45]
    simp only [splitFlag_plain]
    rw [if_neg (by simp [h45, h61]), flagTable_unknown (fun h => hl (List.mem_append_left _ h))]
    simp only
    split
    · exact ⟨_, rfl⟩
    · exact ⟨_, rfl⟩
  | badSwitch items h d l hl v hv rest =>
    rw [parse_items items h]
    have hb : parseBool v = none := by
      simp only [List.mem_cons, List.not_mem_nil, or_false, not_or] at hv
      unfold parseBool
      rw [if_neg (by tauto), if_neg (by tauto)]
    rcases proper_switch hl with rfl | rfl | rfl | rfl | rfl | rfl <;>
      (rw [parseFlags, flagBody_dashes d _ _ (by decide)]
       simp only [splitFlag_joined]
       rw [if_neg (by simp)]
       simp only [show ∀ k, flagTable [k] = flagTable [k] from fun _ => rfl, flagTable]
       simp [hb])

/-- C76, negation: every malformed command line ends the process with status 0, the status of success, although nothing has been
done: no file was changed and none needs to exist. For verification: dropping the last argument of any command line that ends in an
option with a value (for instance `psignify -V -p pubkey -x sigfile -m`) turns a rejection into status 0. -/
theorem C76_negation (P : Prims) (fuel : Nat) (env : CliEnv) (text : FlagText) (args : List Bytes) (h : Malformed args) (w : World) :
    (psignify P fuel env text args w).1 = .status 0 ∧ (psignify P fuel env text args w).2.fs = w.fs := by
  obtain ⟨e, he⟩ := parse_malformed h
  unfold psignify
  rw [he]
  exact ⟨rfl, rfl⟩

/-- C76, the case of a missing message path, whatever the files hold. -/
theorem C76_verify_negation (P : Prims) (fuel : Nat) (env : CliEnv) (text : FlagText) (pub sig : Path) (w : World) :
    (psignify P fuel env text [b!"-V", b!"-p", pub, b!"-x", sig, b!"-m"] w).1 = .status 0 :=
  (C76_negation P fuel env text _ (.noValue [.switch false 86, .pair false 112 pub, .pair false 120 sig]
    (by simp [Item.Proper, switchLetters, valueLetters]) false 109 (by decide)) w).1

/-- C76, the part that holds: if the command line consists of properly used options with `-V` and neither `-G` nor `-S`, then
status 0 means that the signature was accepted, under every schedule. Not claimed, because false: the same for malformed command
lines. -/
theorem C76_verified_partial (P : Prims) (fuel : Nat) (env : CliEnv) (text : FlagText) (items : List Item)
    (h : ∀ i ∈ items, i.Proper) (rest : List Bytes) (hrest : EndsOptions rest) (w : World)
    (hV : hasSwitch items 86 = true) (hG : hasSwitch items 71 = false) (hS : hasSwitch items 83 = false)
    (h0 : (psignify P fuel env text ((items.map Item.args).flatten ++ rest) w).1 = .status 0) :
    ∃ fp fm fs, w.fs (pubPath env (settings items)) = some fp ∧ w.fs (valueIn items 109) = some fm ∧
      w.fs (sigPath (valueIn items 109) (valueIn items 120)) = some fs ∧ Accepts P fp.data fm.data fs.data := by
  rw [C75_options P fuel env text items h rest hrest] at h0
  have hop : Flags.op (settings items) = some .verify := by
    unfold Flags.op settings
    simp only [hG, hS, hV, Bool.false_eq_true, if_false, if_true]
  have := (C56_verify P fuel env (settings items) w hop).2.1.mp h0
  exact C19_sound P _ _ _ w this

end Verif.Props
