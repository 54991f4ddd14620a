/-
The packages base64, signify and crypto of the repository as one program.
-/
import Verif.Source.TextCoding
import Verif.Source.TextCrypto
import Verif.Source.TextCommon
import Verif.Source.TextSignature
import Verif.Source.TextKey
import Verif.Source.Lib

namespace Verif.Src

open M (stuck panic the check)

variable {ω : Type}

/-- A constant. -/
def untyped (n : Int) : Bind := .val (.int .untyped n)

/-- base64/coding.go:9-12. -/
def codingConsts : Env := [(id!"decodedSize", untyped 54), (id!"encodedSize", untyped 72)]

/-- signify/common.go:11, signature.go:10, key.go:21-30. -/
def signifyConsts : Env :=
  [(id!"commentPrefix", .val (.str b!"untrusted comment: ")), (id!"keyNumLength", untyped 8),
   (id!"secretKeyLength", untyped 64), (id!"publicKeyLength", untyped 32), (id!"keyAlgoLength", untyped 2),
   (id!"kdfAlgoLength", untyped 2), (id!"saltLength", untyped 16), (id!"checksumLength", untyped 8), (id!"kdfRounds", untyped 42),
   (id!"signatureLength", untyped 64)]

/-- signify/key.go:32-59 and 411, the variables of the package. -/
def signifyVars : Env := [(id!"PassphrasePrompt", .var ⟨0, []⟩), (id!"defaultOptions", .var ⟨1, []⟩)]

/-- crypto/crypto.go:17-21. -/
def cryptoConsts : Env := [(id!"chunkSize", untyped 16385), (id!"headerSize", untyped 72), (id!"sealedChunkSize", untyped 16401)]

/-- Constants and variables. -/
def repoGlobals : List (Id × Env) :=
  [(id!"base64", codingConsts), (id!"signify", signifyConsts ++ signifyVars), (id!"crypto", cryptoConsts)]

/-- The program. -/
noncomputable def repo (S : Sys ω) : Prog ω where
  pkgs := [(id!"base64", ⟨coding.types, coding.funcs⟩),
    (id!"signify", ⟨common.types ++ signature.types ++ key.types, common.funcs ++ signature.funcs ++ key.funcs⟩),
    (id!"crypto", ⟨crypt.types, crypt.funcs⟩)]
  globals := repoGlobals
  methods := coding.methods ++ common.methods ++ signature.methods ++ key.methods ++ crypt.methods
  ext := lib S

/-- The function that `PassphrasePrompt` holds at the start. -/
noncomputable def promptFunc : Val := match key.PassphrasePrompt.init with
  | .func ps rs b => .func id!"signify" ⟨0, none, ps, rs, b⟩
  | _ => .nil

/-- key.go:411 -/
def defaultOpts : Val := .struct id!"GenerateOptions" [(id!"Rounds", .int .int 42)]

/-- The constants have the values that the text gives them. -/
theorem consts_coding (S : Sys ω) (s : St ω) : coding.consts.map (fun c => (c.1, (interp (repo S) 20).expr ⟨id!"base64", []⟩ c.2 s)) =
    [(id!"decodedSize", .ok (.int .untyped 54) s), (id!"encodedSize", .ok (.int .untyped 72) s)] := by krfl

theorem consts_crypto (S : Sys ω) (s : St ω) : crypt.consts.map (fun c => (c.1, (interp (repo S) 20).expr ⟨id!"crypto", []⟩ c.2 s)) =
    [(id!"chunkSize", .ok (.int .untyped 16385) s), (id!"headerSize", .ok (.int .untyped 72) s),
     (id!"sealedChunkSize", .ok (.int .untyped 16401) s)] := by krfl

theorem consts_signify (S : Sys ω) (s : St ω) :
    (common.consts ++ key.consts ++ signature.consts).map (fun c => (c.1, (interp (repo S) 20).expr ⟨id!"signify", []⟩ c.2 s)) =
    [(id!"commentPrefix", .ok (.str b!"untrusted comment: ") s), (id!"keyNumLength", .ok (.int .untyped 8) s),
     (id!"secretKeyLength", .ok (.int .untyped 64) s), (id!"publicKeyLength", .ok (.int .untyped 32) s),
     (id!"keyAlgoLength", .ok (.int .untyped 2) s), (id!"kdfAlgoLength", .ok (.int .untyped 2) s),
     (id!"saltLength", .ok (.int .untyped 16) s), (id!"checksumLength", .ok (.int .untyped 8) s),
     (id!"kdfRounds", .ok (.int .untyped 42) s), (id!"signatureLength", .ok (.int .untyped 64) s)] := by krfl

/-- The variables have, at the start, the values that the text gives them. -/
theorem vars_signify (S : Sys ω) (w : ω) :
    execsEnv (interp (repo S) 20) ⟨id!"signify", []⟩ ((common.vars ++ signature.vars ++ key.vars).map fun v => .var [v.1] v.2.1 v.2.2.toList)
      ⟨[], 0, [], w⟩ = .ok (signifyVars.reverse, .next) ⟨[promptFunc, defaultOpts], 0, [], w⟩ := by krfl

theorem repo_bare (S : Sys ω) : (repo S).Bare where
  value := libValue_plain
  zero := libZero_plain
  func _ v := Emb.comm_libFunc S v
  method _ v := Emb.comm_libMethod S v

theorem global_cases {p x : Id} {b : Bind} (S : Sys ω) (h : (repo S).global p x = some b) :
    (∃ v, b = .val v ∧ v.refers 0 = false) ∨ b = .var ⟨0, []⟩ ∨ b = .var ⟨1, []⟩ := by
  have mem : ∀ {l : Env} {x : Id} {b : Bind}, l.lookup x = some b → b ∈ l.map (·.2) := by
    intro l x b h
    induction l with
    | nil => cases h
    | cons a l ih =>
      rw [List.lookup_cons] at h
      split at h
      · cases h; simp
      · simp [ih h]
  have mem' : ∀ {l : List (Id × Env)} {p : Id} {e : Env}, l.lookup p = some e → e ∈ l.map (·.2) := by
    intro l p e h
    induction l with
    | nil => cases h
    | cons a l ih =>
      rw [List.lookup_cons] at h
      split at h
      · cases h; simp
      · simp [ih h]
  unfold Prog.global at h
  split at h
  · next env he =>
    replace he := mem' he
    replace h := mem h
    simp only [repo, repoGlobals, List.map_cons, List.map_nil, List.mem_cons, List.not_mem_nil, or_false] at he
    rcases he with rfl | rfl | rfl <;>
      simp only [codingConsts, cryptoConsts, signifyConsts, signifyVars, untyped, List.map_cons, List.map_nil,
        List.cons_append, List.nil_append, List.mem_cons, List.not_mem_nil, or_false] at h <;>
      (repeat' rcases h with h | h) <;>
      first | exact .inl ⟨_, rfl, rfl⟩ | exact .inr (.inl rfl) | exact .inr (.inr rfl)
  · cases h

end Verif.Src
