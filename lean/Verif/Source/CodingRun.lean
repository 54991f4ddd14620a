/-
The text of base64/coding.go run on a few blocks of memory.
-/
import Verif.Source.Kit

namespace Verif.Src

variable {ω : Type}

/-- An open file. -/
abbrev fileVal (h : Nat) : Val := .obj id!"File" h

/-- An encoder in memory. -/
def encVal (line : Nat) (w : Val) (b : Loc) (i : Nat) : Val :=
  .struct id!"Encoder" [(id!"line", .int .int line), (id!"w", w), (id!"buf", .slice b 0 3 3), (id!"index", .int .int i)]

/-- The array behind the field `buf`: the bytes that wait, and whatever comes after them. -/
def bufVal (pending stale : Bytes) : Val := .arr (byteVals (pending ++ stale))

/-- The states of an encoder. -/
def EncOk (e : EncState) : Prop := e.pending.length < 3 ∧ e.line < 54 ∧ e.line % 3 = 0

section
variable (S : Sys ω) (v0 v1 : Val) (h : Nat)

/-- Memory with an encoder. -/
def encMem (e : EncState) (stale : Bytes) : List Val :=
  [v0, v1, encVal e.line (fileVal h) ⟨3, []⟩ e.pending.length, bufVal e.pending stale]

theorem close_run (e : EncState) (stale : Bytes) (hp : e.pending.length + stale.length = 3) (k1 : e.pending.length < 3) (w : ω) :
    Agrees (encClose (S.write h) (e, w)) (·.2)
      (fun _ s r => ∃ stale', s.1.pending.length + stale'.length = 3 ∧ s.1.pending.length < 3 ∧ r = .ok [.nil] ⟨encMem v0 v1 h s.1 stale', 4, [], s.2⟩)
      (fun g s r => ∃ stale', s.1.pending.length + stale'.length = 3 ∧ s.1.pending.length < 3 ∧ r = .ok [libErr g] ⟨encMem v0 v1 h s.1 stale', 4, [], s.2⟩)
      ((interp (repo S) 20).call id!"base64" coding.Encoder.Close [.ptr ⟨2, []⟩] ⟨encMem v0 v1 h e stale, 4, [], w⟩) := by
  obtain ⟨L, pend⟩ := e
  simp only at hp k1
  match pend, hp, k1 with
  | [], hp, _ =>
    obtain ⟨a, b, c, rfl⟩ : ∃ a b c, stale = [a, b, c] := List.length_eq_three.1 (by simpa using hp)
    rcases h1 : S.write h [10] w with ⟨x | g | _ | _ | _, w1⟩ <;>
      refine Agrees.of (by seval [h1]) (by seval [h1]) ?_
    · exact ⟨[a, b, c], rfl, by simp, rfl⟩
    · exact ⟨[a, b, c], rfl, by simp, rfl⟩
    · exact ⟨_, rfl, rfl, rfl⟩
    · exact ⟨_, rfl, rfl⟩
    · trivial
  | [a], hp, _ =>
    obtain ⟨b, c, rfl⟩ : ∃ b c, stale = [b, c] := List.length_eq_two.1 (by simp at hp; omega)
    rcases h1 : S.write h (B64.encode [a]) w with ⟨x | g | _ | _ | _, w1⟩
    · rcases h2 : S.write h [10] w1 with ⟨y | g | _ | _ | _, w2⟩ <;>
        refine Agrees.of (by seval [h1, h2]) (by seval [h1, h2]) ?_
      · exact ⟨[a, b, c], rfl, by simp, rfl⟩
      · exact ⟨[a, b, c], rfl, by simp, rfl⟩
      · exact ⟨_, rfl, rfl, rfl⟩
      · exact ⟨_, rfl, rfl⟩
      · trivial
    all_goals refine Agrees.of (by seval [h1]) (by seval [h1]) ?_
    · exact ⟨[b, c], rfl, by simp, rfl⟩
    · exact ⟨_, rfl, rfl, rfl⟩
    · exact ⟨_, rfl, rfl⟩
    · trivial
  | [a, b], hp, _ =>
    obtain ⟨c, rfl⟩ : ∃ c, stale = [c] := List.length_eq_one_iff.1 (by simp at hp; omega)
    rcases h1 : S.write h (B64.encode [a, b]) w with ⟨x | g | _ | _ | _, w1⟩
    · rcases h2 : S.write h [10] w1 with ⟨y | g | _ | _ | _, w2⟩ <;>
        refine Agrees.of (by seval [h1, h2]) (by seval [h1, h2]) ?_
      · exact ⟨[a, b, c], rfl, by simp, rfl⟩
      · exact ⟨[a, b, c], rfl, by simp, rfl⟩
      · exact ⟨_, rfl, rfl, rfl⟩
      · exact ⟨_, rfl, rfl⟩
      · trivial
    all_goals refine Agrees.of (by seval [h1]) (by seval [h1]) ?_
    · exact ⟨[c], rfl, by simp, rfl⟩
    · exact ⟨_, rfl, rfl, rfl⟩
    · exact ⟨_, rfl, rfl⟩
    · trivial

end

end Verif.Src
