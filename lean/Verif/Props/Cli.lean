/-
C51, C56-C59: the box scalar, the command line, the passphrase prompt, wiping.
-/
import Verif.Spec.Little
import Verif.Lemmas.AllBytes
import Verif.Model.Cli
import Verif.Props.Sign
import Verif.Props.Keygen
import Verif.Props.SealFiles

namespace Verif.Props
open World Spec

/-! ### C51 -/

theorem and248 : ∀ b : UInt8, (b &&& 248).toNat % 8 = 0 ∧ (b &&& 248).toNat / 8 = b.toNat / 8 :=
  forall_byte (by decide +kernel)
theorem or64 : ∀ b : UInt8, 64 ≤ ((b &&& 127) ||| 64).toNat ∧ ((b &&& 127) ||| 64).toNat < 128 ∧
    ((b &&& 127) ||| 64).toNat % 64 = b.toNat % 64 := forall_byte (by decide +kernel)

theorem leNat_clamped (l : Bytes) (hlen : l.length = 32) (h0 : (l[0]'(by omega)).toNat % 8 = 0)
    (h31 : 64 ≤ (l[31]'(by omega)).toNat ∧ (l[31]'(by omega)).toNat < 128) :
    leNat l % 8 = 0 ∧ 2 ^ 254 ≤ leNat l ∧ leNat l < 2 ^ 255 := by
  constructor
  · match l, hlen with
    | x :: l, _ => simp only [leNat, List.foldr_cons, List.getElem_cons_zero] at h0 ⊢; omega
  · have hsplit : leNat l = leNat (l.take 31 ++ [l[31]'(by omega)]) := by
      rw [List.take_append_getElem (by omega), List.take_of_length_le (by omega)]
    have hl : (l.take 31).length = 31 := by rw [List.length_take]; omega
    have hlt := leNat_lt (l.take 31)
    rw [hsplit, leNat_append, hl]
    rw [hl] at hlt
    have e : leNat [l[31]'(by omega)] = (l[31]'(by omega)).toNat := by simp [leNat]
    rw [e]
    generalize leNat (l.take 31) = y at *
    generalize (l[31]'(by omega)).toNat = z at *
    omega

/-- C51: whenever `Private.ToBox` returns a scalar, it is the first half of SHA-512 of the first 32 bytes (the seed) of the
usable key - the stored key, or the key that the passphrase opened - clamped as X25519 demands. -/
theorem C51_scalar (P : Prims) (priv : Private) (w : World) (k : Arr 32) (h : (Private.toBox P (priv, w)).1 = .ok k) :
    k = boxSecret P ((Private.toBox P (priv, w)).2.1.key.toList.take 32) ∧
    ((Private.toBox P (priv, w)).2.1 = priv ∨ ∃ pw, Unlocks P pw priv (Private.toBox P (priv, w)).2.1) := by
  by_cases hc : priv.check P = .ok ()
  · rw [toBox_checked P priv w hc] at h ⊢
    simp only [Res.ok.injEq] at h
    rw [← h, boxScalar_eq]
    exact ⟨rfl, .inl rfl⟩
  · rcases ht : w.tty with _ | ⟨_ | pw, rest⟩
    · rw [(toBox_noPrompt P priv w hc (.inl ht)).1] at h; cases h
    · rw [(toBox_noPrompt P priv w hc (.inr ⟨rest, ht⟩)).1] at h; cases h
    · rw [toBox_typed P priv w hc ht] at h ⊢
      rcases decrypt_clean P pw priv with hd | ⟨e, hd⟩
      · simp only [hd, Res.bind_ok, Res.ok.injEq] at h
        rw [← h, boxScalar_eq]
        refine ⟨rfl, ?_⟩
        by_cases h0 : priv.kdfRounds = 0
        · left; simp only [decrypt_plain P pw h0]
        · right; exact ⟨pw, (decrypt_ok_iff P pw h0).mp (Prod.ext hd rfl)⟩
      · simp only [hd, Res.bind_err] at h; cases h

/-- C51: the clamped scalar, read as a little-endian number, is a multiple of 8 between 2^254 and 2^255. -/
theorem C51_clamped (P : Prims) (seed : Bytes) :
    leNat (boxSecret P seed).toList % 8 = 0 ∧ 2 ^ 254 ≤ leNat (boxSecret P seed).toList ∧
    leNat (boxSecret P seed).toList < 2 ^ 255 := by
  refine leNat_clamped _ (by simp) ?_ ?_
  · rw [Vector.getElem_toList]
    simp only [boxSecret, Vector.getElem_ofFn, if_true]; exact (and248 _).1
  · rw [Vector.getElem_toList]
    simp only [boxSecret, Vector.getElem_ofFn, if_true]; exact ⟨(or64 _).1, (or64 _).2.1⟩

/-- C51: bit for bit, the clamped scalar is the first half of the digest except for the five bits that clamping fixes. -/
theorem C51_bits (P : Prims) (seed : Bytes) (i : Nat) (hi : i < 32) :
    (i ≠ 0 → i ≠ 31 → (boxSecret P seed)[i] = (P.sha512 seed)[i]) ∧
    (i = 0 → (boxSecret P seed)[i].toNat / 8 = (P.sha512 seed)[i].toNat / 8) ∧
    (i = 31 → (boxSecret P seed)[i].toNat % 64 = (P.sha512 seed)[i].toNat % 64) := by
  refine ⟨fun h0 h31 => ?_, fun h => ?_, fun h => ?_⟩
  · simp only [boxSecret, Vector.getElem_ofFn, if_neg h0, if_neg h31]
  · subst h; simp only [boxSecret, Vector.getElem_ofFn, if_true]; exact (and248 _).2
  · subst h; simp only [boxSecret, Vector.getElem_ofFn, if_true]; exact (or64 _).2.2

/-- C51: when `ToBox` returns, the digest buffer holds only zeros (and the returned scalar does not: it is at least 2^254). -/
theorem C51_wiped (P : Prims) (key : Arr 64) : ∀ i, (h : i < 64) → (boxScalar P key).2[i] = 0 := by
  intro i h
  simp only [boxScalar, zero64, Option.map_some, Option.getD_some, Vector.getElem_map, UInt8.xor_self]

/-- Two keys in the clear, one with and one without the right checksum, and an encrypted one all give a scalar. -/
example : (∃ k, (Private.toBox toy ({ lockedKey with kdfRounds := 0 }, { calm with tty := [some b!"x"] })).1 = .ok k) ∧
    (∃ k, (Private.toBox toy ({ lockedKey with kdfRounds := 0, checksum := Vector.replicate 8 65 }, calm)).1 = .ok k) ∧
    (∃ k, (Private.toBox toy (lockedKey, { calm with tty := [some b!"A"] })).1 = .ok k) :=
  ⟨⟨_, rfl⟩, ⟨_, rfl⟩, ⟨_, rfl⟩⟩

/-! ### C56 -/

/-- The five operations. -/
inductive Op where
  | generate | sign | verify | encrypt | decrypt
  deriving DecidableEq

/-- The operation that the flags ask for; several flags: the first in the order of the manual page wins. -/
def Flags.op (f : Flags) : Option Op :=
  if f.generate then some .generate else if f.sign then some .sign else if f.verify then some .verify
  else if f.encrypt then some .encrypt else if f.decrypt then some .decrypt else none

/-- The path in use for a key: the one from the command line, or the default one. -/
def orDefault (given base suffix : Bytes) : Bytes := if given = [] ∧ base ≠ [] then base ++ suffix else given

/-- The private and public key path in use. -/
def secPath (env : CliEnv) (f : Flags) : Path := orDefault f.privKeyFile (defaultKeyBase env.join env.user) b!".sec"
def pubPath (env : CliEnv) (f : Flags) : Path := orDefault f.pubKeyFile (defaultKeyBase env.join env.user) b!".pub"

/-- How the process ends when the library call returned `r`: the world is the one that the call left, except for standard
output (`say` is appended on success) and standard error (something is appended on failure). -/
def Ends {α : Type} (r : Res α × World) (say : Bytes) (x : Exit × World) : Prop :=
  match r with
  | (.ok _, w) => x = (.status 0, { w with stdout := w.stdout ++ say })
  | (.err _, w) => x.1 = .status 1 ∧ ∃ msg, msg ≠ [] ∧ x.2 = { w with stderr := w.stderr ++ msg }
  | (.panic, w) => x = (.status 2, w)
  | (.crash, w) => x = (.crash, w)
  | (.hang, w) => x = (.hang, w)

theorem orExit_ends {α : Type} (op : Act World α) (m : GoErr → Bytes) (say : Bytes) (w : World) (hm : ∀ e, m e ≠ [])
    (f : α → Unit) : Ends (op w) say (orExit op m (fun a => done say (f a)) w) := by
  unfold Ends orExit
  rcases op w with ⟨r, w'⟩
  cases r with
  | ok a => rfl
  | err e => exact ⟨rfl, _, hm e, rfl⟩
  | panic => rfl
  | crash => rfl
  | hang => rfl

theorem Ends.zero_iff {α : Type} {r : Res α × World} {say : Bytes} {x : Exit × World} (h : Ends r say x) :
    x.1 = .status 0 ↔ ∃ a, r.1 = .ok a := by
  rcases r with ⟨_ | _ | _ | _ | _, w⟩ <;> simp only [Ends] at h
  · simp [h]
  · simp [h.1]
  · simp [h]
  · simp [h]
  · simp [h]

theorem Ends.fs {α : Type} {r : Res α × World} {say : Bytes} {x : Exit × World} (h : Ends r say x) : x.2.fs = r.2.fs := by
  rcases r with ⟨_ | _ | _ | _ | _, w⟩ <;> simp only [Ends] at h
  · simp [h]
  · obtain ⟨-, m, -, h⟩ := h; simp [h]
  · simp [h]
  · simp [h]
  · simp [h]

theorem append_ne {a b : Bytes} (h : b ≠ []) : a ++ b ≠ [] := by
  intro h2; exact h (List.append_eq_nil_iff.mp h2).2

theorem op_generate {f : Flags} (h : Flags.op f = some .generate) : f.generate = true := by
  cases f with | mk _ _ _ _ _ _ d e g s v => cases g <;> cases s <;> cases v <;> cases e <;> cases d <;> simp_all [Flags.op]
theorem op_sign {f : Flags} (h : Flags.op f = some .sign) : f.generate = false ∧ f.sign = true := by
  cases f with | mk _ _ _ _ _ _ d e g s v => cases g <;> cases s <;> cases v <;> cases e <;> cases d <;> simp_all [Flags.op]
theorem op_verify {f : Flags} (h : Flags.op f = some .verify) : f.generate = false ∧ f.sign = false ∧ f.verify = true := by
  cases f with | mk _ _ _ _ _ _ d e g s v => cases g <;> cases s <;> cases v <;> cases e <;> cases d <;> simp_all [Flags.op]
theorem op_encrypt {f : Flags} (h : Flags.op f = some .encrypt) :
    f.generate = false ∧ f.sign = false ∧ f.verify = false ∧ f.encrypt = true := by
  cases f with | mk _ _ _ _ _ _ d e g s v => cases g <;> cases s <;> cases v <;> cases e <;> cases d <;> simp_all [Flags.op]
theorem op_decrypt {f : Flags} (h : Flags.op f = some .decrypt) :
    f.generate = false ∧ f.sign = false ∧ f.verify = false ∧ f.encrypt = false ∧ f.decrypt = true := by
  cases f with | mk _ _ _ _ _ _ d e g s v => cases g <;> cases s <;> cases v <;> cases e <;> cases d <;> simp_all [Flags.op]
theorem op_none {f : Flags} (h : Flags.op f = none) :
    f.generate = false ∧ f.sign = false ∧ f.verify = false ∧ f.encrypt = false ∧ f.decrypt = false := by
  cases f with | mk _ _ _ _ _ _ d e g s v => cases g <;> cases s <;> cases v <;> cases e <;> cases d <;> simp_all [Flags.op]

/-- C56, -V: whatever other flags of lower rank are given, the process makes exactly the call `Verify` with the paths in use, ends
with status 0 exactly if that returned nil, and then (only) prints `<message>: OK`. -/
theorem C56_verify (P : Prims) (fuel : Nat) (env : CliEnv) (f : Flags) (w : World) (h : Flags.op f = some .verify) :
    let r := Verify P (pubPath env f) f.messageFile f.signatureFile w
    let x := cliMain P fuel env f w
    Ends r (f.messageFile ++ b!": OK\n") x ∧ (x.1 = .status 0 ↔ r.1 = .ok ()) ∧
    x.2.stdout = (if r.1 = .ok () then w.stdout ++ f.messageFile ++ b!": OK\n" else w.stdout) ∧ x.2.fs = w.fs := by
  have hx : Ends (Verify P (pubPath env f) f.messageFile f.signatureFile w) (f.messageFile ++ b!": OK\n")
      (cliMain P fuel env f w) := by
    obtain ⟨h1, h2, h3⟩ := op_verify h
    simp only [cliMain, h1, h2, h3, if_true, Bool.false_eq_true, if_false]
    exact orExit_ends _ _ _ _ (fun _ => append_ne (by simp)) id
  have ho := Verify_onlyTick P (pubPath env f) f.messageFile f.signatureFile w
  refine ⟨hx, ?_, ?_, ?_⟩
  · exact hx.zero_iff.trans ⟨fun ⟨_, h⟩ => h, fun h => ⟨(), h⟩⟩
  · have hout : (Verify P (pubPath env f) f.messageFile f.signatureFile w).2.stdout = w.stdout := by rw [ho]
    rcases hr : Verify P (pubPath env f) f.messageFile f.signatureFile w with ⟨r, w'⟩
    rw [hr] at hx hout
    dsimp only at hout ⊢
    cases r with
    | ok a => rw [show _ = _ from hx, if_pos rfl]; simp only; rw [hout, List.append_assoc]
    | err e => obtain ⟨-, m, -, hx⟩ := hx; rw [hx, if_neg (by simp)]; exact hout
    | panic => rw [show _ = _ from hx, if_neg (by simp)]; exact hout
    | crash => rw [show _ = _ from hx, if_neg (by simp)]; exact hout
    | hang => rw [show _ = _ from hx, if_neg (by simp)]; exact hout
  · rw [hx.fs, ho]

/-- C56, -V, end to end: with no faults the process ends with status 0 and `<message>: OK` exactly if the three files exist and
hold a signature that is to be accepted. -/
theorem C56_verify_exact (P : Prims) (fuel : Nat) (env : CliEnv) (f : Flags) (w : World) (h : Flags.op f = some .verify)
    (hq : w.Quiet) : (cliMain P fuel env f w).1 = .status 0 ↔
      ∃ fp fm fs, w.fs (pubPath env f) = some fp ∧ w.fs f.messageFile = some fm ∧
        w.fs (sigPath f.messageFile f.signatureFile) = some fs ∧ Accepts P fp.data fm.data fs.data :=
  (C56_verify P fuel env f w h).2.1.trans (C19_exact P _ _ _ w hq)

/-- C56, -S: the process makes exactly the call `Sign` with the paths in use if a private key path and a message path are known
(otherwise it fails and touches no file), and ends with status 0 exactly if that returned nil. Nothing is printed then. -/
theorem C56_sign (P : Prims) (fuel : Nat) (env : CliEnv) (f : Flags) (w : World) (h : Flags.op f = some .sign) :
    let x := cliMain P fuel env f w
    (secPath env f ≠ [] → f.messageFile ≠ [] →
      Ends (Sign P (secPath env f) f.messageFile f.signatureFile w) [] x ∧
      (x.1 = .status 0 ↔ (Sign P (secPath env f) f.messageFile f.signatureFile w).1 = .ok ()) ∧
      x.2.fs = (Sign P (secPath env f) f.messageFile f.signatureFile w).2.fs) ∧
    ((secPath env f = [] ∨ f.messageFile = []) → x.1 = .status 1 ∧ x.2.fs = w.fs ∧ x.2.stdout = w.stdout) := by
  obtain ⟨h1, h2⟩ := op_sign h
  refine ⟨fun hs hm => ?_, fun hn => ?_⟩
  · have hx : Ends (Sign P (secPath env f) f.messageFile f.signatureFile w) [] (cliMain P fuel env f w) := by
      simp only [cliMain, h1, h2, if_true, Bool.false_eq_true, if_false]
      rw [show (if f.privKeyFile = [] ∧ defaultKeyBase env.join env.user ≠ [] then
        defaultKeyBase env.join env.user ++ b!".sec" else f.privKeyFile) = secPath env f from rfl]
      rw [if_neg (by simp [hs, hm])]
      exact orExit_ends _ _ _ _ (fun _ => append_ne (by simp)) id
    exact ⟨hx, hx.zero_iff.trans ⟨fun ⟨_, h⟩ => h, fun h => ⟨(), h⟩⟩, hx.fs⟩
  · simp only [cliMain, h1, h2, if_true, Bool.false_eq_true, if_false]
    rw [show (if f.privKeyFile = [] ∧ defaultKeyBase env.join env.user ≠ [] then
        defaultKeyBase env.join env.user ++ b!".sec" else f.privKeyFile) = secPath env f from rfl]
    rw [if_pos hn]
    exact ⟨rfl, rfl, rfl⟩

/-- C56, -E. -/
theorem C56_encrypt (P : Prims) (fuel : Nat) (env : CliEnv) (f : Flags) (w : World) (h : Flags.op f = some .encrypt) :
    let r := Seal P (pubPath env f) f.messageFile f.encryptedFile w
    let x := cliMain P fuel env f w
    Ends r (f.messageFile ++ b!": OK\n") x ∧ (x.1 = .status 0 ↔ r.1 = .ok ()) ∧ x.2.fs = r.2.fs := by
  have hx : Ends (Seal P (pubPath env f) f.messageFile f.encryptedFile w) (f.messageFile ++ b!": OK\n")
      (cliMain P fuel env f w) := by
    obtain ⟨h1, h2, h3, h4⟩ := op_encrypt h
    simp only [cliMain, h1, h2, h3, h4, if_true, Bool.false_eq_true, if_false]
    exact orExit_ends _ _ _ _ (fun _ => append_ne (by simp)) id
  exact ⟨hx, hx.zero_iff.trans ⟨fun ⟨_, h⟩ => h, fun h => ⟨(), h⟩⟩, hx.fs⟩

/-- C56, -D. -/
theorem C56_decrypt (P : Prims) (fuel : Nat) (env : CliEnv) (f : Flags) (w : World) (h : Flags.op f = some .decrypt) :
    let r := Open P fuel (secPath env f) f.encryptedFile f.messageFile w
    let x := cliMain P fuel env f w
    Ends r (f.encryptedFile ++ b!": OK\n") x ∧ (x.1 = .status 0 ↔ r.1 = .ok ()) ∧ x.2.fs = r.2.fs := by
  have hx : Ends (Open P fuel (secPath env f) f.encryptedFile f.messageFile w) (f.encryptedFile ++ b!": OK\n")
      (cliMain P fuel env f w) := by
    obtain ⟨h1, h2, h3, h4, h5⟩ := op_decrypt h
    simp only [cliMain, h1, h2, h3, h4, h5, if_true, Bool.false_eq_true, if_false]
    exact orExit_ends _ _ _ _ (fun _ => append_ne (by simp)) id
  exact ⟨hx, hx.zero_iff.trans ⟨fun ⟨_, h⟩ => h, fun h => ⟨(), h⟩⟩, hx.fs⟩

/-- C56, no operation: the usage goes to standard error, status 1, nothing else happens. -/
theorem C56_none (P : Prims) (fuel : Nat) (env : CliEnv) (f : Flags) (w : World) (h : Flags.op f = none) :
    cliMain P fuel env f w = (.status 1, { w with stderr := w.stderr ++ usageText env.arg0 }) := by
  obtain ⟨h1, h2, h3, h4, h5⟩ := op_none h
  simp only [cliMain, h1, h2, h3, h4, h5, Bool.false_eq_true, if_false]
  rfl

/-! ### C58 -/

/-- The world after the user was asked twice and typed `a` and `b`. -/
def typedTwice (w : World) (a b : Bytes) (rest : List (Option Bytes)) : World :=
  { w with prompts := w.prompts ++ [true], tty := rest, bufs := w.bufs ++ [a, List.replicate b.length 0],
           stdout := w.stdout ++ b!"Password: " ++ b!"\n" ++ b!"Confirm password: " ++ b!"\n" }

theorem passphrasePrompt_twice {w : World} {a b : Bytes} {rest : List (Option Bytes)} (h : w.tty = some a :: some b :: rest) :
    passphrasePrompt true w = (if a = b then .ok w.bufs.length else .err .passphraseMismatch, typedTwice w a b rest) := by
  have e : (w.bufs ++ [a] ++ [b]).getD w.bufs.length [] = a := by simp
  have e2 : (w.bufs ++ [a] ++ [b]).getD (w.bufs ++ [a]).length [] = b := by simp
  have e3 : (w.bufs ++ [a] ++ [b]).modify (w.bufs ++ [a]).length (fun x => (zero (some x)).getD []) =
      w.bufs ++ [a, List.replicate b.length 0] := by
    apply List.ext_getElem?
    intro i
    rw [List.getElem?_modify, List.append_assoc]
    by_cases hi : (w.bufs ++ [a]).length = i
    · subst hi; simp [zero_bytes]
    · simp only [if_neg hi, id_map']
      simp only [List.length_append, List.length_singleton] at hi
      by_cases hlt : i < w.bufs.length
      · simp [List.getElem?_append_left, hlt]
      · rw [List.getElem?_append_right (l₁ := w.bufs) (by omega), List.getElem?_append_right (l₁ := w.bufs) (by omega)]
        match i - w.bufs.length, (by omega : i - w.bufs.length ≠ 1) with
        | 0, _ => simp
        | 1, h => exact absurd rfl h
        | k + 2, _ => simp
  unfold passphrasePrompt
  by_cases hab : a = b
  · simp only [Act.bind_eq, Act.modify_apply, World.readPassword, World.print, h, Act.deferring, World.getBuf, e, e2,
      if_pos hab, Act.pure_apply, World.zeroBuf, e3, typedTwice, Bool.not_true, Bool.false_eq_true, if_false]
  · simp only [Act.bind_eq, Act.modify_apply, World.readPassword, World.print, h, Act.deferring, World.getBuf, e, e2,
      if_neg hab, Act.fail, World.zeroBuf, e3, typedTwice, Bool.not_true, Bool.false_eq_true, if_false]

theorem passphrasePrompt_fewer {w : World} (h : ∀ a b rest, w.tty ≠ some a :: some b :: rest) :
    (passphrasePrompt true w).1 = .err .io ∧ ∃ a b c d, (passphrasePrompt true w).2 =
      { w with prompts := a, tty := b, bufs := c, stdout := d } := by
  unfold passphrasePrompt
  rcases ht : w.tty with _ | ⟨_ | a, _ | ⟨_ | b, rest⟩⟩
  case cons.some.cons.some => exact absurd ht (h _ _ _)
  all_goals
    simp only [Act.bind_eq, Act.modify_apply, World.readPassword, World.print, ht, Bool.not_true, Bool.false_eq_true, if_false,
      true_and]
    exact ⟨_, _, _, _, rfl⟩

/-- C58: the user types two entries. The prompt returns a passphrase exactly if they are equal, and then that entry; otherwise an
error. Both entries are consumed, the confirmation copy is wiped. -/
theorem C58_confirmed (w : World) (a b : Bytes) (rest : List (Option Bytes)) (h : w.tty = some a :: some b :: rest) :
    (a = b → ∃ i, (passphrasePrompt true w).1 = .ok i ∧ (passphrasePrompt true w).2.bufs[i]? = some a) ∧
    (a ≠ b → (passphrasePrompt true w).1 = .err .passphraseMismatch) ∧
    (passphrasePrompt true w).2.tty = rest ∧
    (passphrasePrompt true w).2.bufs = w.bufs ++ [a, List.replicate b.length 0] ∧
    (passphrasePrompt true w).2.fs = w.fs := by
  rw [passphrasePrompt_twice h]
  refine ⟨fun hab => ⟨w.bufs.length, by rw [if_pos hab], by simp [typedTwice]⟩, fun hab => by rw [if_neg hab], rfl, rfl, rfl⟩

/-- C58: in every state, a confirmed passphrase was typed twice; if one of the two entries cannot be read, the prompt fails. -/
theorem C58_only (w : World) :
    (∀ i, (passphrasePrompt true w).1 = .ok i →
      ∃ a rest, w.tty = some a :: some a :: rest ∧ (passphrasePrompt true w).2.bufs[i]? = some a) ∧
    ((∀ a b rest, w.tty ≠ some a :: some b :: rest) → (passphrasePrompt true w).1 = .err .io) := by
  refine ⟨fun i hi => ?_, fun h => (passphrasePrompt_fewer h).1⟩
  by_cases h : ∃ a b rest, w.tty = some a :: some b :: rest
  · obtain ⟨a, b, rest, ht⟩ := h
    rw [passphrasePrompt_twice ht] at hi ⊢
    by_cases hab : a = b
    · subst hab
      rw [if_pos rfl] at hi
      cases hi
      exact ⟨a, rest, ht, by simp [typedTwice]⟩
    · rw [if_neg hab] at hi; cases hi
  · rw [(passphrasePrompt_fewer fun a b rest ht => h ⟨a, b, rest, ht⟩).1] at hi; cases hi

/-- C58: without confirmation exactly one entry is read and returned as it is. -/
theorem C58_single (w : World) :
    (∀ a rest, w.tty = some a :: rest → ∃ i, (passphrasePrompt false w).1 = .ok i ∧
      (passphrasePrompt false w).2.bufs = w.bufs ++ [a] ∧ (passphrasePrompt false w).2.bufs[i]? = some a ∧
      (passphrasePrompt false w).2.tty = rest) ∧
    ((∀ a rest, w.tty ≠ some a :: rest) → (passphrasePrompt false w).1 = .err .io) := by
  refine ⟨fun a rest h => ?_, fun h => ?_⟩
  · rw [passphrasePrompt_some h]
    exact ⟨w.bufs.length, rfl, rfl, by simp, rfl⟩
  · rcases ht : w.tty with _ | ⟨_ | a, rest⟩
    · rw [passphrasePrompt_nil ht]
    · rw [passphrasePrompt_none ht]
    · exact absurd ht (h _ _)

example : (passphrasePrompt true { calm with tty := [some b!"pw", some b!"pw", none] }).1 = .ok 0 ∧
    (passphrasePrompt true { calm with tty := [some b!"pw", some b!"pW"] }).1 = .err .passphraseMismatch ∧
    (passphrasePrompt true { calm with tty := [some b!"pw"] }).1 = .err .io ∧
    (passphrasePrompt false { calm with tty := [some b!"pw", none] }).1 = .ok 0 := ⟨rfl, rfl, rfl, rfl⟩

/-! ### C59 -/

/-- C59: `zero` sets every byte to 0, keeps the length, and accepts nil. -/
theorem C59_zero (buf : Option Bytes) :
    (zero buf).isSome = buf.isSome ∧ ∀ b, buf = some b → ∃ z, zero buf = some z ∧ z.length = b.length ∧ ∀ x ∈ z, x = 0 := by
  refine ⟨by simp [zero], ?_⟩
  rintro b rfl
  refine ⟨b.map fun x => x ^^^ x, rfl, by simp, ?_⟩
  intro x hx
  obtain ⟨y, -, rfl⟩ := List.mem_map.mp hx
  exact UInt8.xor_self

/-- C59: so does `zero64`. -/
theorem C59_zero64 (buf : Option (Arr 64)) :
    (zero64 buf).isSome = buf.isSome ∧ ∀ z, zero64 buf = some z → ∀ i (h : i < 64), z[i] = 0 := by
  refine ⟨by simp [zero64], ?_⟩
  intro z hz i h
  cases buf with
  | none => cases hz
  | some b =>
    obtain rfl := Option.some.inj hz
    simp only [Vector.getElem_map, UInt8.xor_self]

example : zero (some [1, 2, 255]) = some [0, 0, 0] ∧ zero none = none := ⟨rfl, rfl⟩

/-! ### C56, -G -/

/-- C56, -G: without a base name the process fails and touches no file. With `-n` it makes exactly the call `GenerateKey` with the
empty passphrase. Otherwise the user has to type the passphrase twice; then the call is made with it; if the entries differ or
cannot be read the process fails and touches no file. Status 0 exactly if the call was made and returned nil. -/
theorem C56_generate (P : Prims) (fuel : Nat) (env : CliEnv) (f : Flags) (w : World) (h : Flags.op f = some .generate) :
    let x := cliMain P fuel env f w
    (pubPath env f = [] → x.1 = .status 1 ∧ x.2.fs = w.fs) ∧
    (pubPath env f ≠ [] → f.noPass = true →
      Ends (GenerateKey P (pubPath env f) [] none w) [] x ∧
      (x.1 = .status 0 ↔ (GenerateKey P (pubPath env f) [] none w).1 = .ok ()) ∧
      x.2.fs = (GenerateKey P (pubPath env f) [] none w).2.fs) ∧
    (pubPath env f ≠ [] → f.noPass = false → ∀ pw rest, w.tty = some pw :: some pw :: rest →
      Ends (GenerateKey P (pubPath env f) pw none (typedTwice w pw pw rest)) [] x ∧
      (x.1 = .status 0 ↔ (GenerateKey P (pubPath env f) pw none (typedTwice w pw pw rest)).1 = .ok ()) ∧
      x.2.fs = (GenerateKey P (pubPath env f) pw none (typedTwice w pw pw rest)).2.fs) ∧
    (f.noPass = false → (∀ pw rest, w.tty ≠ some pw :: some pw :: rest) → x.1 = .status 1 ∧ x.2.fs = w.fs) := by
  have h1 := op_generate h
  have hm : cliMain P fuel env f w = cliGenerate P env f.noPass (pubPath env f) w := by
    simp only [cliMain, h1, if_true]; rfl
  simp only [hm]
  refine ⟨fun hp => ?_, fun hp hn => ?_, fun hp hn pw rest ht => ?_, fun hn ht => ?_⟩
  · rw [cliGenerate, if_pos hp]; exact ⟨rfl, rfl⟩
  · have hx : Ends (GenerateKey P (pubPath env f) [] none w) [] (cliGenerate P env f.noPass (pubPath env f) w) := by
      simp only [cliGenerate, if_neg hp, hn, Bool.not_true, Bool.false_eq_true, if_false]
      exact orExit_ends _ _ _ _ (fun _ => append_ne (by simp)) id
    exact ⟨hx, hx.zero_iff.trans ⟨fun ⟨_, h⟩ => h, fun h => ⟨(), h⟩⟩, hx.fs⟩
  · have hx : Ends (GenerateKey P (pubPath env f) pw none (typedTwice w pw pw rest)) []
        (cliGenerate P env f.noPass (pubPath env f) w) := by
      simp only [cliGenerate, if_neg hp, hn, Bool.not_false, if_true]
      rw [orExit, passphrasePrompt_twice ht, if_pos rfl]
      dsimp only
      rw [show (typedTwice w pw pw rest).bufs.getD w.bufs.length [] = pw by simp [typedTwice]]
      exact orExit_ends _ _ _ _ (fun _ => append_ne (by simp)) id
    exact ⟨hx, hx.zero_iff.trans ⟨fun ⟨_, h⟩ => h, fun h => ⟨(), h⟩⟩, hx.fs⟩
  · by_cases hp : pubPath env f = []
    · rw [cliGenerate, if_pos hp]; exact ⟨rfl, rfl⟩
    · simp only [cliGenerate, if_neg hp, hn, Bool.not_false, if_true, orExit]
      by_cases h2 : ∃ a b rest, w.tty = some a :: some b :: rest
      · obtain ⟨a, b, rest, h2⟩ := h2
        rw [passphrasePrompt_twice h2, if_neg (by rintro rfl; exact ht _ _ h2)]
        exact ⟨rfl, rfl⟩
      · obtain ⟨h3, a, b, c, d, h4⟩ := passphrasePrompt_fewer fun a b rest ht => h2 ⟨a, b, rest, ht⟩
        rcases hr : passphrasePrompt true w with ⟨r, w'⟩
        rw [hr] at h3 h4
        dsimp only at h3 h4
        subst h3 h4
        exact ⟨rfl, rfl⟩

/-- Every operation occurs, also with several flags set. -/
example : Flags.op { generate := true, sign := true } = some .generate ∧ Flags.op { sign := true, decrypt := true } = some .sign ∧
    Flags.op { verify := true, encrypt := true } = some .verify ∧ Flags.op { encrypt := true, decrypt := true } = some .encrypt ∧
    Flags.op { decrypt := true } = some .decrypt ∧ Flags.op {} = none := ⟨rfl, rfl, rfl, rfl, rfl, rfl⟩

/-! ### C57 -/

theorem suffix_ne (a : Bytes) : a ++ b!".sec" ≠ a ++ b!".pub" ++ b!".sec" ∧ a ++ b!".sec" ≠ a ++ b!".pub" ++ b!".pub" := by
  constructor <;> intro h <;> have := congrArg List.length h <;> simp at this

/-- What `-G` wrote when it ended with status 0, and where. -/
theorem generate_files (P : Prims) (fuel : Nat) (env : CliEnv) (f : Flags) (h : Flags.op f = some .generate) (w : World)
    (hgen : (cliMain P fuel env f w).1 = .status 0) :
    ∃ pw w0, w0.fs = w.fs ∧ (GenerateKey P (pubPath env f) pw none w0).1 = .ok () ∧
      (cliMain P fuel env f w).2.fs = (GenerateKey P (pubPath env f) pw none w0).2.fs ∧
      (pw = [] ∧ f.noPass = true ∨ f.noPass = false ∧ ∃ rest, w.tty = some pw :: some pw :: rest) := by
  obtain ⟨h1, h2, h3, h4⟩ := C56_generate P fuel env f w h
  by_cases hp : pubPath env f = []
  · rw [(h1 hp).1] at hgen; cases hgen
  · cases hn : f.noPass with
    | true =>
      obtain ⟨-, a, b⟩ := h2 hp hn
      exact ⟨[], w, rfl, a.mp hgen, b, .inl ⟨rfl, rfl⟩⟩
    | false =>
      by_cases ht : ∃ pw rest, w.tty = some pw :: some pw :: rest
      · obtain ⟨pw, rest, ht⟩ := ht
        obtain ⟨-, a, b⟩ := h3 hp hn pw rest ht
        exact ⟨pw, typedTwice w pw pw rest, rfl, a.mp hgen, b, .inr ⟨rfl, rest, ht⟩⟩
      · rw [(h4 hn fun pw rest h => ht ⟨pw, rest, h⟩).1] at hgen; cases hgen

/-- C57, negation: for every default key base, a successful `-G` with default paths writes `<base>.pub.sec` and
`<base>.pub.pub`; the private key file that `-S` and `-D` use with default paths is not there (unless it was there before), so
in every later state in which nobody else has made it, they fail. -/
theorem C57_negation (P : Prims) (fuel : Nat) (env : CliEnv) (base : Bytes) (hbase : defaultKeyBase env.join env.user = base)
    (hb : base ≠ []) (noPass : Bool) (w : World) (hno : w.fs (base ++ b!".sec") = none)
    (hgen : (cliMain P fuel env { generate := true, noPass := noPass } w).1 = .status 0) :
    (∃ s p, (cliMain P fuel env { generate := true, noPass := noPass } w).2.fs (base ++ b!".pub.sec") = some s ∧
      (cliMain P fuel env { generate := true, noPass := noPass } w).2.fs (base ++ b!".pub.pub") = some p) ∧
    (cliMain P fuel env { generate := true, noPass := noPass } w).2.fs (base ++ b!".sec") = none ∧
    ∀ w2, w2.fs (base ++ b!".sec") =
        (cliMain P fuel env { generate := true, noPass := noPass } w).2.fs (base ++ b!".sec") →
      ∀ m x c, (cliMain P fuel env { sign := true, messageFile := m, signatureFile := x } w2).1 ≠ .status 0 ∧
        (cliMain P fuel env { decrypt := true, messageFile := m, encryptedFile := c } w2).1 ≠ .status 0 := by
  obtain ⟨pw, w0, e0, hok, hfs, -⟩ := generate_files P fuel env _ rfl w hgen
  have hpub : pubPath env { generate := true, noPass := noPass } = base ++ b!".pub" := by
    simp [pubPath, orDefault, hbase, hb]
  rw [hpub] at hok hfs
  have hnone : (cliMain P fuel env { generate := true, noPass := noPass } w).2.fs (base ++ b!".sec") = none := by
    rw [hfs, C32_frame P _ _ _ _ _ (suffix_ne base).1 (suffix_ne base).2, e0, hno]
  refine ⟨?_, hnone, fun w2 h2 m x c => ?_⟩
  · obtain ⟨priv, pub, f, g, -, h1, -, -, h2, -, -⟩ := C32_complete P _ _ _ _ hok
    rw [← hfs, List.append_assoc] at h1 h2
    exact ⟨f, g, h1, h2⟩
  · rw [hnone] at h2
    constructor
    · intro h
      obtain ⟨hs, hn⟩ := C56_sign P fuel env { sign := true, messageFile := m, signatureFile := x } w2 rfl
      by_cases hm : m = []
      · rw [(hn (.inr hm)).1] at h; cases h
      · have e2 : secPath env { sign := true, messageFile := m, signatureFile := x } = base ++ b!".sec" := by
          simp [secPath, orDefault, hbase, hb]
        rw [e2] at hs
        have hok2 := (hs (by simp) hm).2.1.mp h
        rcases (Sign_spec P (base ++ b!".sec") m x w2).fs with ⟨-, h'⟩ | ⟨fk, _, _, _, _, h', -⟩
        · exact h' hok2
        · rw [h2] at h'; cases h'
    · intro h
      have e2 : secPath env { decrypt := true, messageFile := m, encryptedFile := c } = base ++ b!".sec" := by
        simp [secPath, orDefault, hbase, hb]
      have hok2 := (C56_decrypt P fuel env { decrypt := true, messageFile := m, encryptedFile := c } w2 rfl).2.1.mp h
      rw [e2] at hok2
      obtain ⟨fk, _, _, _, _, _, _, _, _, _, h', -⟩ := C38_file P fuel _ _ _ w2 hok2
      rw [h2] at h'; cases h'

/-- A home directory and a user, and a `-G` with default paths that ends with status 0. -/
def homeEnv : CliEnv :=
  { arg0 := b!"psignify", user := some ⟨b!"/home/u", b!"u"⟩, join := fun a b c => a ++ [47] ++ b ++ [47] ++ c, errText := fun _ => [] }

example : defaultKeyBase homeEnv.join homeEnv.user = b!"/home/u/.signify/u" ∧
    (cliMain toy 0 homeEnv { generate := true, noPass := true } calm).1 = .status 0 ∧
    (cliMain toy 0 homeEnv { generate := true } { calm with tty := [some b!"pw", some b!"pw"] }).1 = .status 0 ∧
    (cliMain toy 0 homeEnv { generate := true, noPass := true, pubKeyFile := b!"/home/u/.signify/u" } calm).1 = .status 0 ∧
    Splits b!"/home/u/.signify/u" b!"/home/u/.signify/" b!"u" := by
  refine ⟨rfl, rfl, rfl, rfl, ⟨rfl, .inr rfl, by decide⟩⟩

/-- C57, the true part: if the base name is given to `-G` explicitly (`-G -p <base>`), then signing and verifying with default
paths work together. Between the calls the rest of the machine may change in any way. -/
theorem C57_explicit_partial (P : Prims) (hed : EdCorrect P) (fuel : Nat) (env : CliEnv) (base dir name : Path)
    (hbase : defaultKeyBase env.join env.user = base) (hb : base ≠ [])
    (hsplit : Splits base dir name) (hnl : 10 ∉ name) (hlen : name.length < 64000) (noPass : Bool) (w0 : World)
    (hgen : (cliMain P fuel env { generate := true, noPass := noPass, pubKeyFile := base } w0).1 = .status 0)
    (mp sp : Path) (hmp : mp ≠ []) (fm : File) (w1 : World) (hq1 : w1.Quiet)
    (hsec : w1.fs (base ++ b!".sec") =
      (cliMain P fuel env { generate := true, noPass := noPass, pubKeyFile := base } w0).2.fs (base ++ b!".sec"))
    (hmsg : w1.fs mp = some fm)
    (htty : noPass = false → ∀ pw rest, w0.tty = some pw :: some pw :: rest → ∃ rest', w1.tty = some pw :: rest')
    (w2 : World) (hq2 : w2.Quiet)
    (hpub : w2.fs (base ++ b!".pub") =
      (cliMain P fuel env { generate := true, noPass := noPass, pubKeyFile := base } w0).2.fs (base ++ b!".pub"))
    (hmsg2 : w2.fs mp = some fm)
    (hsig : w2.fs (sigPath mp sp) =
      (cliMain P fuel env { sign := true, messageFile := mp, signatureFile := sp } w1).2.fs (sigPath mp sp)) :
    (cliMain P fuel env { sign := true, messageFile := mp, signatureFile := sp } w1).1 = .status 0 ∧
    (cliMain P fuel env { verify := true, messageFile := mp, signatureFile := sp } w2).1 = .status 0 := by
  obtain ⟨pw, w0', e0, hok, hfs, hpw⟩ := generate_files P fuel env _ rfl w0 hgen
  have e1 : pubPath env { generate := true, noPass := noPass, pubKeyFile := base } = base := by simp [pubPath, orDefault, hb]
  have e2 : secPath env { sign := true, messageFile := mp, signatureFile := sp } = base ++ b!".sec" := by
    simp [secPath, orDefault, hbase, hb]
  have e3 : pubPath env { verify := true, messageFile := mp, signatureFile := sp } = base ++ b!".pub" := by
    simp [pubPath, orDefault, hbase, hb]
  rw [e1] at hok hfs
  rw [hfs] at hsec hpub
  obtain ⟨-, s1, s2⟩ := (C56_sign P fuel env { sign := true, messageFile := mp, signatureFile := sp } w1 rfl).1
    (by rw [e2]; simp) hmp
  rw [e2] at s1 s2
  rw [s2] at hsig
  obtain ⟨a, b⟩ := C18_sign_verify P hed base dir name pw none w0' hok hsplit hnl hlen mp sp fm w1 hq1 hsec hmsg (by
    intro hne
    rcases hpw with ⟨h, -⟩ | ⟨hn, rest, h⟩
    · exact absurd h hne
    · exact htty hn pw rest h) w2 hq2 hpub hmsg2 hsig
  refine ⟨s1.mpr a, ?_⟩
  rw [(C56_verify P fuel env { verify := true, messageFile := mp, signatureFile := sp } w2 rfl).2.1, e3]
  exact b

end Verif.Props
