/-
The parts of a world that record what the model of the program did with passphrases play no part in `Open`.
-/
import Verif.Source.OpenMain
import Verif.Source.Seen
import Verif.Model.Crypto

namespace Verif.Src

variable {α β : Type}

theorem Sees.openFile (p : Path) : Sees (World.openFile p) (World.openFile p) := by
  intro u w
  unfold World.openFile recordOf
  simp only
  (repeat' split) <;> simp_all

theorem Sees.create (p : Path) : Sees (World.create p) (World.create p) := by
  unfold World.create
  exact Sees.bind (.createFile p _) fun _ _ _ => rfl

theorem Sees.readHandle (h n : Nat) : Sees (World.readHandle h n) (World.readHandle h n) := by
  intro u w
  unfold World.readHandle recordOf World.advance
  simp only
  (repeat' split) <;> simp_all

theorem advance_record (u w : World) (h n : Nat) : (recordOf u w).advance h n = recordOf u (w.advance h n) := rfl

theorem Sees.writeHandle (h : Nat) (bs : Bytes) : Sees (World.writeHandle h bs) (World.writeHandle h bs) := by
  intro u w
  have e : ∀ bs' p o, ({ recordOf u w with tick := (recordOf u w).tick + 1 } : World).pokeFile p o bs' =
      recordOf u (({ w with tick := w.tick + 1 } : World).pokeFile p o bs') := fun bs' p o => pokeFile_record u { w with tick := w.tick + 1 } p o bs'
  unfold World.writeHandle
  simp only [e, advance_record]
  show (match w.handles[h]? with
    | none => _
    | some hd => match w.sched w.tick with
      | .fail n => _
      | .crash n => _
      | _ => _) = _
  rcases w.handles[h]? with _ | hd
  · rfl
  · rcases w.sched w.tick with _ | n | n | n <;> rfl

theorem Sees.skipComment {rd : Reader World} (h : ∀ n, Sees (rd n) (rd n)) (f : Nat) : Sees (Verif.skipComment f rd) (Verif.skipComment f rd) := by
  unfold Verif.skipComment
  generalize (0 : UInt8) = c
  induction f generalizing c with
  | zero => exact fun _ _ => rfl
  | succ f ih =>
    unfold skipCommentLoop
    refine Sees.bind (h 1) fun got => ?_
    simp only
    split
    · exact fun _ _ => rfl
    · exact ih _

theorem Sees.decReadLoop {rd : Reader World} (h : ∀ n, Sees (rd n) (rd n)) (k f : Nat) (c : UInt8) (buf : Bytes) :
    Sees (Verif.decReadLoop rd k f c buf) (Verif.decReadLoop rd k f c buf) := by
  induction f generalizing c buf with
  | zero => exact fun _ _ => rfl
  | succ f ih =>
    intro u w
    unfold Verif.decReadLoop
    simp only
    split
    · rfl
    · rw [h 1 u w]
      rcases rd 1 w with ⟨got | e | _ | _ | _, w'⟩
      · simp only
        split
        · exact ih _ _ u w'
        · exact ih _ _ u w'
      · cases e <;> rfl
      all_goals rfl

theorem Sees.decRead {rd : Reader World} (h : ∀ n, Sees (rd n) (rd n)) (f n : Nat) : Sees (Verif.decRead f rd n) (Verif.decRead f rd n) := by
  unfold Verif.decRead
  refine Sees.bind (.decReadLoop h _ _ _ _) fun buf => ?_
  split <;> exact fun _ _ => rfl

/-- The same, of functions that keep a private key beside the world. -/
def SeesK (x y : Act (Private × World) α) : Prop :=
  ∀ u priv w, x (priv, recordOf u w) = ((y (priv, w)).1, (y (priv, w)).2.1, recordOf u (y (priv, w)).2.2)

theorem SeesK.bind {x y : Act (Private × World) α} {f g : α → Act (Private × World) β} (h : SeesK x y) (k : ∀ a, SeesK (f a) (g a)) :
    SeesK (x >>= f) (y >>= g) := by
  intro u priv w
  rw [Act.bind_eq, Act.bind_eq, h u priv w]
  rcases y (priv, w) with ⟨a | e | _ | _ | _, priv', t⟩
  · exact k a u priv' t
  all_goals rfl

theorem SeesK.snd {x y : Act World α} (h : Sees x y) : SeesK (Act.onSnd x) (Act.onSnd y) := by
  intro u priv w
  unfold Act.onSnd
  simp only [h u w]

theorem SeesK.toBox (P : Prims) : SeesK (toBoxS (worldSys P)) (Private.toBox P) := by
  intro u priv w
  rcases hc : priv.check P with a | e | _ | _ | _
  · unfold toBoxS Private.toBox
    simp only [Act.bind_eq, Act.getFst, show (worldSys P).prims = P from rfl, hc]
    rfl
  all_goals
    unfold toBoxS Private.toBox
    simp only [Act.bind_eq, Act.getFst, show (worldSys P).prims = P from rfl, hc]
    obtain ⟨fs, um, hd, sc, tk, tty, bufs, prm, rng, rp, so, se⟩ := w
    rcases tty with _ | ⟨_ | pw, rest⟩
    · rfl
    · rfl
    · have e : (bufs ++ [pw]).getD bufs.length [] = pw := by simp [List.getD]
      have a1 : askS (worldSys P) (recordOf u ⟨fs, um, hd, sc, tk, some pw :: rest, bufs, prm, rng, rp, so, se⟩) =
        (.ok pw, recordOf u ⟨fs, um, hd, sc, tk, rest, bufs ++ [pw], prm ++ [false], rng, rp, so ++ b!"Password: " ++ b!"\n", se⟩) := rfl
      have a2 : passphrasePrompt false ⟨fs, um, hd, sc, tk, some pw :: rest, bufs, prm, rng, rp, so, se⟩ =
        (.ok bufs.length, ⟨fs, um, hd, sc, tk, rest, bufs ++ [pw], prm ++ [false], rng, rp, so ++ b!"Password: " ++ b!"\n", se⟩) := rfl
      have a3 : World.getBuf bufs.length ⟨fs, um, hd, sc, tk, rest, bufs ++ [pw], prm ++ [false], rng, rp, so ++ b!"Password: " ++ b!"\n", se⟩ =
        (.ok pw, ⟨fs, um, hd, sc, tk, rest, bufs ++ [pw], prm ++ [false], rng, rp, so ++ b!"Password: " ++ b!"\n", se⟩) := by
        unfold World.getBuf
        simp only [e]
      simp only [Act.onSnd, a1, a2, a3, Act.setFst, Act.ofRes]
      rcases Private.decrypt P pw priv with ⟨a | e | _ | _ | _, priv'⟩ <;> rfl

theorem SeesK.openLoop (P : Prims) (sh : Arr 32) {rd : Reader (Private × World)} {wr : Writer (Private × World)} (h : ∀ n, SeesK (rd n) (rd n))
    (k : ∀ bs, SeesK (wr bs) (wr bs)) (n i : Nat) (nonce : Arr 24) : SeesK (Verif.openLoop P sh rd wr n i nonce) (Verif.openLoop P sh rd wr n i nonce) := by
  induction n generalizing i nonce with
  | zero => exact fun _ _ _ => rfl
  | succ n ih =>
    unfold Verif.openLoop
    refine SeesK.bind (h _) fun chunk => ?_
    split
    · exact fun _ _ _ => rfl
    · exact SeesK.bind (k _) fun _ => SeesK.bind (fun _ _ _ => rfl) fun nonce' => ih _ _

theorem SeesK.openBox (P : Prims) {x y : Act (Private × World) (Arr 32)} (hx : SeesK x y) {rd : Reader (Private × World)} {wr : Writer (Private × World)}
    (h : ∀ n, SeesK (rd n) (rd n)) (k : ∀ bs, SeesK (wr bs) (wr bs)) : SeesK (Verif.openBox P x rd wr) (Verif.openBox P y rd wr) := by
  unfold Verif.openBox
  refine SeesK.bind hx fun sc => SeesK.bind (h _) fun hd => ?_
  split
  · exact fun _ _ _ => rfl
  · simp only
    split
    · exact fun _ _ _ => rfl
    · exact .openLoop P _ h k _ _ _

/-- The model of `Open` and `Open` on the system made of the same calls. -/
theorem Sees.Open (P : Prims) (f : Nat) (p e m : Path) : Sees (openAllS (worldSys P) f p e m) (Verif.Open P f p e m) := by
  unfold openAllS Verif.Open
  refine Sees.bind (Sees.bind (.readFile p) fun _ => .ofRes _) fun priv => Sees.bind (.openFile e) fun he =>
    Sees.bind (.skipComment (.readHandle he) f) fun _ => Sees.bind (.create m) fun hw => ?_
  intro u w
  unfold openEnd openS
  simp only
  have h := SeesK.openBox P (.toBox P) (fun n => .snd (.decRead (.readHandle he) f n)) (fun bs => .snd (.writeHandle hw bs)) u priv w
  exact Prod.ext (congrArg (·.1) h) (congrArg (·.2.2) h)

theorem worldSys_fair (P : Prims) : (worldSys P).Fair where
  openFile p w := by
    show (World.openFile p w).1 ≠ _
    unfold World.openFile
    simp only
    (repeat' split) <;> simp
  create p w := by
    show (World.create p w).1 ≠ _
    unfold World.create
    refine bind_ne_panic (fun w => ?_) (fun _ w => by simp) w
    unfold World.createFile
    simp only
    (repeat' split) <;> simp
  read hm w got w' h := by
    change World.readHandle hm 1 w = _ at h
    unfold World.readHandle at h
    simp only at h
    repeat' split at h
    all_goals first
      | cases h; done
      | (cases h; simp only [List.length_take, List.length_nil]; omega)

end Verif.Src
