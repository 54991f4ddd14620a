/-
Runs of the text of cmd/psignify/main.go, with what `main` calls given.
-/
import Verif.Source.CmdLib
import Verif.Source.PromptText

namespace Verif.Src

variable (U : Cmd) (C : Id → Func → List Val → M Proc (List Val))

/-- The variables of `main`. -/
def mainEnv : Env := [(id!"verify", .var ⟨13, []⟩), (id!"sign", .var ⟨12, []⟩), (id!"generate", .var ⟨11, []⟩), (id!"encrypt", .var ⟨10, []⟩), (id!"decrypt", .var ⟨9, []⟩),
  (id!"noPass", .var ⟨8, []⟩), (id!"signatureFile", .var ⟨7, []⟩), (id!"encryptedFile", .var ⟨6, []⟩), (id!"messageFile", .var ⟨5, []⟩),
  (id!"privKeyFile", .var ⟨4, []⟩), (id!"pubKeyFile", .var ⟨3, []⟩)]

/-- The variables that options go to, at these paths of keys. -/
def mainMem (f : Flags) (pub priv : Bytes) : List Val := [.str pub, .str priv, .str f.messageFile, .str f.encryptedFile, .str f.signatureFile,
  .bool f.noPass, .bool f.decrypt, .bool f.encrypt, .bool f.generate, .bool f.sign, .bool f.verify]

/-- The options. -/
def flagsOf : Flags where
  encryptedFile := U.str b!"c" []
  messageFile := U.str b!"m" []
  noPass := U.bool b!"n" false
  pubKeyFile := U.str b!"p" []
  privKeyFile := U.str b!"s" []
  signatureFile := U.str b!"x" []
  decrypt := U.bool b!"D" false
  encrypt := U.bool b!"E" false
  generate := U.bool b!"G" false
  sign := U.bool b!"S" false
  verify := U.bool b!"V" false

/-- What `flag` remembers of them. -/
def mainVars : List (Bytes × Val × Loc) := [(b!"c", .str [], ⟨6, []⟩), (b!"m", .str [], ⟨5, []⟩), (b!"n", .bool false, ⟨8, []⟩), (b!"p", .str [], ⟨3, []⟩),
  (b!"s", .str [], ⟨4, []⟩), (b!"x", .str [], ⟨7, []⟩), (b!"D", .bool false, ⟨9, []⟩), (b!"E", .bool false, ⟨10, []⟩), (b!"G", .bool false, ⟨11, []⟩),
  (b!"S", .bool false, ⟨12, []⟩), (b!"V", .bool false, ⟨13, []⟩)]

theorem main_flags (g0 g1 g2 : Val) (w : World) :
    execsEnv (interpC (cmd U) C 19) ⟨id!"main", []⟩ (cmdmain.main.body.take 23) ⟨[g0, g1, g2], 3, [], (w, [], none)⟩ =
      .ok (mainEnv, .next) ⟨[g0, g1, g2] ++ mainMem (flagsOf U) (flagsOf U).pubKeyFile (flagsOf U).privKeyFile, 3, [], (w, mainVars, none)⟩ := by
  seval []

theorem base_run (m0 m1 m2 m3 m4 m5 m6 m7 m8 m9 m10 m11 m12 m13 : Val) (w : Proc) :
    callC (cmd U) C id!"main" cmdmain.defaultKeyBase [] ⟨[m0, m1, m2, m3, m4, m5, m6, m7, m8, m9, m10, m11, m12, m13], 3, [], w⟩ =
      .ok [.str (defaultKeyBase U.join U.user)] ⟨[m0, m1, m2, m3, m4, m5, m6, m7, m8, m9, m10, m11, m12, m13], 3, [], w⟩ := by
  cases h : U.user with
  | none => seval [h]
  | some u =>
    by_cases k : u.homeDir = []
    · have e : defaultKeyBase U.join (some u) = u.username := by simp [defaultKeyBase, k]
      rw [e]
      seval [h, k]
    · have e : defaultKeyBase U.join (some u) = U.join u.homeDir b!".signify" u.username := by simp [defaultKeyBase, k]
      rw [e]
      seval [h, k]

theorem usageText_eq (a : Bytes) : usageText a = b!"\nUsage: " ++ (a ++ (b!" -S -s seckey -m message [-x sigfile]\n       " ++ (a ++
    (b!" -V -p pubkey [-x sigfile] -m message\n       " ++ (a ++ (b!" -G [-n] -p keyname\n       " ++ (a ++
    (b!" -E -p pubkey -m message [-c encrypted]\n       " ++ (a ++ b!" -D -s privkey -c encrypted -m message\n"))))))))) := by
  unfold usageText
  simp only [List.append_assoc]

theorem usage_run (m0 m1 m3 m4 m5 m6 m7 m8 m9 m10 m11 m12 m13 m14 : Val) (w : World) (x : List (Bytes × Val × Loc) × Option Nat) :
    callC (cmd U) C id!"main" cmdmain.usage [.obj id!"Stderr" 0] ⟨[m0, m1, .arr [.str U.arg0], m3, m4, m5, m6, m7, m8, m9, m10, m11, m12, m13, m14], 3, [], (w, x)⟩ =
      .ok [] ⟨[m0, m1, .arr [.str U.arg0], m3, m4, m5, m6, m7, m8, m9, m10, m11, m12, m13, m14], 3, [], (w.eprint (usageText U.arg0), x)⟩ := by
  rw [usageText_eq]
  seval []

/-- The path of a key: as given, or from the default base. -/
inductive KeyPath (kb given ext : Bytes) : Bytes → Prop where
  | given (h : ¬given = []) : KeyPath kb given ext given
  | none (h : given = []) (k : kb = []) : KeyPath kb given ext given
  | base (h : given = []) (k : ¬kb = []) : KeyPath kb given ext (kb ++ ext)

theorem KeyPath.ite {kb given ext : Bytes} : KeyPath kb given ext (if given = [] ∧ kb ≠ [] then kb ++ ext else given) := by
  by_cases h : given = []
  · by_cases k : kb = []
    · rw [if_neg (by simp [k])]; exact .none h k
    · rw [if_pos ⟨h, k⟩]; exact .base h k
  · rw [if_neg (by simp [h])]; exact .given h

theorem main_paths (g0 g1 g2 v0 v1 v2 v3 v4 v5 v6 v7 v8 : Val) (kb pub pub' priv priv' : Bytes) (vs : List (Bytes × Val × Loc)) (w : World)
    (hC : C id!"main" cmdmain.defaultKeyBase [] ⟨[g0, g1, g2, .str pub, .str priv, v0, v1, v2, v3, v4, v5, v6, v7, v8], 3, [], (w, vs, none)⟩ =
      .ok [.str kb] ⟨[g0, g1, g2, .str pub, .str priv, v0, v1, v2, v3, v4, v5, v6, v7, v8], 3, [], (w, vs, none)⟩)
    (h1 : KeyPath kb priv b!".sec" priv') (h2 : KeyPath kb pub b!".pub" pub') :
    execsEnv (interpC (cmd U) C 19) ⟨id!"main", mainEnv⟩ ((cmdmain.main.body.drop 23).take 3)
      ⟨[g0, g1, g2, .str pub, .str priv, v0, v1, v2, v3, v4, v5, v6, v7, v8], 3, [], (w, vs, none)⟩ =
      .ok ((id!"keyBase", .var ⟨14, []⟩) :: mainEnv, .next)
        ⟨[g0, g1, g2, .str pub', .str priv', v0, v1, v2, v3, v4, v5, v6, v7, v8, .str kb], 3, [], (w, vs, none)⟩ := by
  cases h1 with
  | given h =>
    cases h2 with
    | given h' => seval [hC, h, h']
    | none h' k => seval [hC, h, h', k]
    | base h' k => seval [hC, h, h', k]
  | none h k =>
    cases h2 with
    | given h' => seval [hC, h, h', k]
    | none h' k => seval [hC, h, h', k]
    | base h' k' => exact absurd k k'
  | base h k =>
    cases h2 with
    | given h' => seval [hC, h, h', k]
    | none h' k' => exact absurd k' k
    | base h' k => seval [hC, h, h', k]

/-- The variables before the last statement. -/
def endEnv : Env := (id!"keyBase", .var ⟨14, []⟩) :: mainEnv


set_option quotPrecheck false

section
variable (pf : Func) (pub priv msg enc sig kb : Bytes) (n d e g s v : Bool) (vs : List (Bytes × Val × Loc)) (w w' : World)

/-- Memory before the last statement of `main`. -/
noncomputable def lastMem : List Val := [.func id!"signify" pf, defaultOpts, .arr [.str U.arg0], .str pub, .str priv, .str msg, .str enc, .str sig, .bool n, .bool d, .bool e, .bool g, .bool s, .bool v,
  .str kb]

/-- The outcome of `main`, from its last statement. -/
noncomputable def lastOut (w0 : World) (m : List Val) (w : World) (vs : List (Bytes × Val × Loc)) : Option (Exit × World) :=
  outcome (finish (cmd U) (interpC (cmd U) C 19) cmdmain.main [] (startOf U w0)
    (execs (interpC (cmd U) C 19) ⟨id!"main", endEnv⟩ (cmdmain.main.body.drop 26) ⟨m, 3, [], (w, vs, none)⟩))

variable (w0 : World)

local notation "signMem" => lastMem U pf pub priv msg enc sig kb n d e false true v
local notation "signCall" => C id!"signify" key.Sign [.str priv, .str msg, .str sig] ⟨signMem, 3, [], (w, vs, none)⟩

theorem main_sign_priv (h : priv = []) : lastOut U C w0 signMem w vs = some (.status 1, w.eprint b!"Signing requires a message and private key.\n") := by
  seval [h]

theorem main_sign_msg (h : ¬priv = []) (k : msg = []) : lastOut U C w0 signMem w vs = some (.status 1, w.eprint b!"Signing requires a message and private key.\n") := by
  seval [h, k]

theorem main_sign_ok (h : ¬priv = []) (k : ¬msg = []) (hC : signCall = .ok [.nil] ⟨signMem, 3, [], (w', vs, none)⟩) :
    lastOut U C w0 signMem w vs = some (.status 0, w') := by
  seval [h, k, hC]

theorem main_sign_err (h : ¬priv = []) (k : ¬msg = []) (x : EVal) (hC : signCall = .ok [.err x] ⟨signMem, 3, [], (w', vs, none)⟩) :
    lastOut U C w0 signMem w vs = some (.status 1, w'.eprint (b!"Signing " ++ (msg ++ (b!" failed: " ++ (U.errText x ++ b!"\n"))))) := by
  seval [h, k, hC]

theorem main_sign_panic (h : ¬priv = []) (k : ¬msg = []) (m' : List Val) (b' : Nat) (hC : signCall = .panic ⟨m', b', [], (w', vs, none)⟩) :
    lastOut U C w0 signMem w vs = some (.status 2, w') := by
  seval [h, k, hC]

theorem main_sign_crash (h : ¬priv = []) (k : ¬msg = []) (m' : List Val) (b' : Nat) (d' : List Deferred) (hC : signCall = .crash ⟨m', b', d', (w', vs, none)⟩) :
    lastOut U C w0 signMem w vs = some (.crash, w') := by
  seval [h, k, hC]

local notation "verifyMem" => lastMem U pf pub priv msg enc sig kb n d e false false true
local notation "verifyCall" => C id!"signify" key.Verify [.str pub, .str msg, .str sig] ⟨verifyMem, 3, [], (w, vs, none)⟩

theorem main_verify_ok (hC : verifyCall = .ok [.nil] ⟨verifyMem, 3, [], (w', vs, none)⟩) : lastOut U C w0 verifyMem w vs = some (.status 0, w'.print (msg ++ b!": OK\n")) := by
  seval [hC]

theorem main_verify_err (x : EVal) (hC : verifyCall = .ok [.err x] ⟨verifyMem, 3, [], (w', vs, none)⟩) :
    lastOut U C w0 verifyMem w vs = some (.status 1, w'.eprint (msg ++ b!": invalid signature\n")) := by
  seval [hC]

theorem main_verify_panic (m' : List Val) (b' : Nat) (hC : verifyCall = .panic ⟨m', b', [], (w', vs, none)⟩) : lastOut U C w0 verifyMem w vs = some (.status 2, w') := by
  seval [hC]

theorem main_verify_crash (m' : List Val) (b' : Nat) (d' : List Deferred) (hC : verifyCall = .crash ⟨m', b', d', (w', vs, none)⟩) :
    lastOut U C w0 verifyMem w vs = some (.crash, w') := by
  seval [hC]

local notation "sealMem" => lastMem U pf pub priv msg enc sig kb n d true false false false
local notation "sealCall" => C id!"crypto" crypt.Seal [.str pub, .str msg, .str enc] ⟨sealMem, 3, [], (w, vs, none)⟩

theorem main_seal_ok (hC : sealCall = .ok [.nil] ⟨sealMem, 3, [], (w', vs, none)⟩) : lastOut U C w0 sealMem w vs = some (.status 0, w'.print (msg ++ b!": OK\n")) := by
  seval [hC]

theorem main_seal_err (x : EVal) (hC : sealCall = .ok [.err x] ⟨sealMem, 3, [], (w', vs, none)⟩) :
    lastOut U C w0 sealMem w vs = some (.status 1, w'.eprint (U.errText x ++ b!"\n")) := by
  seval [hC]

theorem main_seal_panic (m' : List Val) (b' : Nat) (hC : sealCall = .panic ⟨m', b', [], (w', vs, none)⟩) : lastOut U C w0 sealMem w vs = some (.status 2, w') := by
  seval [hC]

theorem main_seal_crash (m' : List Val) (b' : Nat) (d' : List Deferred) (hC : sealCall = .crash ⟨m', b', d', (w', vs, none)⟩) :
    lastOut U C w0 sealMem w vs = some (.crash, w') := by
  seval [hC]

local notation "openMem" => lastMem U pf pub priv msg enc sig kb n true false false false false
local notation "openCall" => C id!"crypto" crypt.Open [.str priv, .str enc, .str msg] ⟨openMem, 3, [], (w, vs, none)⟩

theorem main_open_ok (hC : openCall = .ok [.nil] ⟨openMem, 3, [], (w', vs, none)⟩) : lastOut U C w0 openMem w vs = some (.status 0, w'.print (enc ++ b!": OK\n")) := by
  seval [hC]

theorem main_open_err (x : EVal) (hC : openCall = .ok [.err x] ⟨openMem, 3, [], (w', vs, none)⟩) :
    lastOut U C w0 openMem w vs = some (.status 1, w'.eprint (U.errText x ++ b!"\n")) := by
  seval [hC]

theorem main_open_panic (m' : List Val) (b' : Nat) (hC : openCall = .panic ⟨m', b', [], (w', vs, none)⟩) : lastOut U C w0 openMem w vs = some (.status 2, w') := by
  seval [hC]

theorem main_open_crash (m' : List Val) (b' : Nat) (d' : List Deferred) (hC : openCall = .crash ⟨m', b', d', (w', vs, none)⟩) :
    lastOut U C w0 openMem w vs = some (.crash, w') := by
  seval [hC]

local notation "noMem" => lastMem U pf pub priv msg enc sig kb n false false false false false

theorem main_none (hC : C id!"main" cmdmain.usage [.obj id!"Stderr" 0] ⟨noMem, 3, [], (w, vs, none)⟩ = .ok [] ⟨noMem, 3, [], (w', vs, none)⟩) :
    lastOut U C w0 noMem w vs = some (.status 1, w') := by
  seval [hC]

local notation "genMem" => lastMem U pf pub priv msg enc sig kb true d e true s v
local notation "askMem" => lastMem U pf pub priv msg enc sig kb false d e true s v
local notation "genCall" => C id!"signify" key.GenerateKey [.str pub, .nil, .nil] ⟨genMem ++ [.nil, .nil], 3, [], (w, vs, none)⟩
local notation "askCall" => C id!"signify" pf [.bool true] ⟨askMem ++ [.nil, .nil], 3, [], (w, vs, none)⟩

theorem main_gen_base (n : Bool) (h : pub = []) : lastOut U C w0 (lastMem U pf pub priv msg enc sig kb n d e true s v) w vs = some (.status 1, w.eprint b!"Please provide the base name for the keypair.\n") := by
  seval [h]

theorem main_gen_ok (h : ¬pub = []) (hC : genCall = .ok [.nil] ⟨genMem ++ [.nil, .nil], 3, [], (w', vs, none)⟩) : lastOut U C w0 genMem w vs = some (.status 0, w') := by
  seval [h, hC]
theorem main_gen_err (h : ¬pub = []) (x : EVal) (hC : genCall = .ok [.err x] ⟨genMem ++ [.nil, .nil], 3, [], (w', vs, none)⟩) :
    lastOut U C w0 genMem w vs = some (.status 1, w'.eprint (b!"Failed to generate keypair: " ++ (U.errText x ++ b!"\n"))) := by
  seval [h, hC]
theorem main_gen_panic (h : ¬pub = []) (m' : List Val) (b' : Nat) (hC : genCall = .panic ⟨m', b', [], (w', vs, none)⟩) : lastOut U C w0 genMem w vs = some (.status 2, w') := by
  seval [h, hC]
theorem main_gen_crash (h : ¬pub = []) (m' : List Val) (b' : Nat) (d' : List Deferred) (hC : genCall = .crash ⟨m', b', d', (w', vs, none)⟩) :
    lastOut U C w0 genMem w vs = some (.crash, w') := by
  seval [h, hC]

theorem main_ask_err (h : ¬pub = []) (x : EVal) (hC : askCall = .ok [.nil, .err x] ⟨askMem ++ [.nil, .nil], 3, [], (w', vs, none)⟩) :
    lastOut U C w0 askMem w vs = some (.status 1, w'.eprint (U.errText x ++ b!"\n")) := by
  seval [h, hC]
theorem main_ask_panic (h : ¬pub = []) (m' : List Val) (b' : Nat) (hC : askCall = .panic ⟨m', b', [], (w', vs, none)⟩) : lastOut U C w0 askMem w vs = some (.status 2, w') := by
  seval [h, hC]
theorem main_ask_crash (h : ¬pub = []) (m' : List Val) (b' : Nat) (d' : List Deferred) (hC : askCall = .crash ⟨m', b', d', (w', vs, none)⟩) :
    lastOut U C w0 askMem w vs = some (.crash, w') := by
  seval [h, hC]

section
variable (l : Loc) (k : Nat) (new : List Val) (w1 : World)

local notation "askedOk" => askCall = .ok [.slice l 0 k k, .nil] ⟨askMem ++ [.nil, .nil] ++ new, 3, [], (w1, vs, none)⟩
local notation "useCall" => C id!"signify" key.GenerateKey [.str pub, .slice l 0 k k, .nil] ⟨askMem ++ [.slice l 0 k k, .nil] ++ new, 3, [], (w1, vs, none)⟩

theorem main_use_ok (hA : askedOk) (h : ¬pub = []) (hC : useCall = .ok [.nil] ⟨askMem ++ [.slice l 0 k k, .nil] ++ new, 3, [], (w', vs, none)⟩) : lastOut U C w0 askMem w vs = some (.status 0, w') := by
  seval [h, hA, hC]

theorem main_use_err (hA : askedOk) (h : ¬pub = []) (x : EVal) (hC : useCall = .ok [.err x] ⟨askMem ++ [.slice l 0 k k, .nil] ++ new, 3, [], (w', vs, none)⟩) :
    lastOut U C w0 askMem w vs = some (.status 1, w'.eprint (b!"Failed to generate keypair: " ++ (U.errText x ++ b!"\n"))) := by
  seval [h, hA, hC]

theorem main_use_panic (hA : askedOk) (h : ¬pub = []) (m' : List Val) (b' : Nat) (hC : useCall = .panic ⟨m', b', [], (w', vs, none)⟩) : lastOut U C w0 askMem w vs = some (.status 2, w') := by
  seval [h, hA, hC]

theorem main_use_crash (hA : askedOk) (h : ¬pub = []) (m' : List Val) (b' : Nat) (d' : List Deferred) (hC : useCall = .crash ⟨m', b', d', (w', vs, none)⟩) :
    lastOut U C w0 askMem w vs = some (.crash, w') := by
  seval [h, hA, hC]
end
end
end Verif.Src
