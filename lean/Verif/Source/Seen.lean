/-
The parts of a world that record what the model of the program did with passphrases play no part in how the system behaves.
-/
import Verif.Source.WorldSys
import Verif.Source.SignMain
import Verif.Model.Keys

namespace Verif.Src

/-- The world `w`, but with the record of passphrases of `u`. -/
def recordOf (u w : World) : World := { w with bufs := u.bufs, prompts := u.prompts }

theorem recordOf_self (w : World) : recordOf w w = w := rfl

/-- Apart from the record of passphrases, `x` does what `y` does. -/
def Sees {α : Type} (x y : Act World α) : Prop := ∀ u w, x (recordOf u w) = ((y w).1, recordOf u (y w).2)

variable {α β : Type}

theorem Sees.bind {x y : Act World α} {f g : α → Act World β} (h : Sees x y) (k : ∀ a, Sees (f a) (g a)) : Sees (x >>= f) (y >>= g) := by
  intro u w
  rw [Act.bind_eq, Act.bind_eq, h u w]
  rcases y w with ⟨a | e | _ | _ | _, t⟩
  · exact k a u t
  all_goals rfl

theorem Sees.ofRes (r : Res α) : Sees (Act.ofRes r) (Act.ofRes r) := fun _ _ => rfl

theorem Sees.readFile (p : Path) : Sees (World.readFile p) (World.readFile p) := by
  intro u w
  unfold World.readFile recordOf
  simp only
  (repeat' split) <;> simp_all

theorem Sees.createFile (p : Path) (k : Nat) : Sees (World.createFile p k) (World.createFile p k) := by
  intro u w
  unfold World.createFile recordOf World.setFile World.truncated
  simp only
  (repeat' split) <;> simp_all

theorem Sees.next : Sees World.next World.next := fun _ _ => rfl

theorem pokeFile_record (u w : World) (p : Path) (o : Nat) (bs : Bytes) : (recordOf u w).pokeFile p o bs = recordOf u (w.pokeFile p o bs) := by
  unfold World.pokeFile recordOf World.setFile
  simp only
  split <;> simp_all

theorem Sees.writeFile (p : Path) (bs : Bytes) (k : Nat) : Sees (World.writeFile p bs k) (World.writeFile p bs k) := by
  unfold World.writeFile
  refine Sees.bind (.createFile p k) fun _ => Sees.bind .next fun d => ?_
  rcases d with _ | n | n | n
  all_goals
    intro u w
    simp only [pokeFile_record]
    try rfl
    try
      have e : ∀ t : World, (recordOf u t).sched (recordOf u t).tick = t.sched t.tick := fun _ => rfl
      rw [e]
      split <;> rfl

theorem Sees.signWith (P : Prims) (priv : Private) (p m s : Path) : Sees (signRest (worldSys P) priv p m s) (Verif.signWith P priv p m s) := by
  unfold signRest Verif.signWith Verif.writeDataFile
  exact Sees.bind (.readFile m) fun _ => .writeFile _ _ _

theorem zeroBuf_record (u w : World) (i : Nat) : recordOf u (w.zeroBuf i) = recordOf u w := rfl

theorem deferring_record {x y : Act World α} {u w : World} (h : x (recordOf u w) = ((y w).1, recordOf u (y w).2)) (i : Nat) :
    x (recordOf u w) = ((Act.deferring (World.zeroBuf i) y w).1, recordOf u (Act.deferring (World.zeroBuf i) y w).2) := by
  rw [h]
  unfold Act.deferring
  rcases y w with ⟨a | e | _ | _ | _, t⟩ <;> rfl

/-- The model of `Sign` and `Sign` on the system made of the same calls. -/
theorem Sees.Sign (P : Prims) (p m s : Path) : Sees (signWithS (worldSys P) p m s) (Verif.Sign P p m s) := by
  unfold signWithS Verif.Sign
  simp only
  generalize (if s = [] then m ++ b!".sig" else s) = s'
  refine Sees.bind (Sees.bind (.readFile p) fun _ => .ofRes _) fun priv => ?_
  by_cases he : priv.isEncrypted = true
  · rw [if_pos he, if_pos he]
    intro u ⟨fs, um, hd, sc, tk, tty, bufs, prm, rng, rp, so, se⟩
    rcases tty with _ | ⟨_ | pw, rest⟩
    · rfl
    · rfl
    · have e : (bufs ++ [pw]).getD bufs.length [] = pw := by simp [List.getD]
      refine deferring_record (x := (do
          let _ ← Act.ofRes (Private.decrypt P pw priv).1
          signRest (worldSys P) (Private.decrypt P pw priv).2 p m s'))
        (y := (do
          let pw ← World.getBuf bufs.length
          let _ ← Act.ofRes (Private.decrypt P pw priv).1
          Verif.signWith P (Private.decrypt P pw priv).2 p m s'))
        (w := ⟨fs, um, hd, sc, tk, rest, bufs ++ [pw], prm ++ [false], rng, rp, so ++ b!"Password: " ++ b!"\n", se⟩) ?_ bufs.length
      rw [Act.bind_eq (World.getBuf _)]
      simp only [World.getBuf, e]
      exact Sees.bind (.ofRes _) (fun _ => .signWith P _ p m s') _ _
  · rw [if_neg he, if_neg he]
    exact .signWith P priv p m s'

theorem bind_ne_panic {x : Act World α} {f : α → Act World β} (h : ∀ w, (x w).1 ≠ .panic) (k : ∀ a w, (f a w).1 ≠ .panic) (w : World) :
    ((x >>= f) w).1 ≠ .panic := by
  rw [Act.bind_eq]
  have hw := h w
  rcases hx : x w with ⟨a | e | _ | _ | _, t⟩
  · exact k a t
  · simp
  · rw [hx] at hw
    exact absurd rfl hw
  · simp
  · simp

theorem worldSys_tame (P : Prims) : (worldSys P).Tame where
  print _ _ := rfl
  readFile p w := by
    show (World.readFile p w).1 ≠ _
    unfold World.readFile
    simp only
    (repeat' split) <;> simp
  writeFile p bs k w := by
    show (World.writeFile p bs k w).1 ≠ _
    unfold World.writeFile
    refine bind_ne_panic (fun w => ?_) (fun _ => bind_ne_panic (fun w => by simp [World.next]) fun d w => ?_) w
    · unfold World.createFile
      simp only
      (repeat' split) <;> simp
    · rcases d with _ | n | n | n <;> simp only
      (repeat' split) <;> simp
      all_goals ((repeat' split) <;> simp)
  readPassword w := by
    show (typedPassword w).1 ≠ _
    unfold typedPassword
    split <;> simp

end Verif.Src
