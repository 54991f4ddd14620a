/-
Building blocks for the libraries called by the repository, each of them local (see `Verif.Source.Local`).
-/
import Verif.Source.EdRun
import Verif.Source.Rules

namespace Verif.Src

open M (stuck panic the check)

variable {ω : Type}

/-! ### Arguments -/

def args0 {β : Type} (vs : List Val) (k : M ω β) : M ω β := match vs with
  | [] => k
  | _ => stuck

def args1 {β : Type} (vs : List Val) (k : Val → M ω β) : M ω β := match vs with
  | [a] => k a
  | _ => stuck

def args2 {β : Type} (vs : List Val) (k : Val → Val → M ω β) : M ω β := match vs with
  | [a, b] => k a b
  | _ => stuck

def args3 {β : Type} (vs : List Val) (k : Val → Val → Val → M ω β) : M ω β := match vs with
  | [a, b, c] => k a b c
  | _ => stuck

def args4 {β : Type} (vs : List Val) (k : Val → Val → Val → Val → M ω β) : M ω β := match vs with
  | [a, b, c, d] => k a b c d
  | _ => stuck

/-- A string. -/
def strOf : Val → M ω Bytes
  | .str s => return s
  | _ => stuck

/-- An integer. -/
def intOf : Val → M ω Int
  | .int _ v => return v
  | _ => stuck

/-- A pointer. -/
def locOf : Val → M ω Loc
  | .ptr l => return l
  | _ => stuck

/-- The length of a slice. -/
def lengthOf : Val → M ω Nat
  | .slice _ _ n _ => return n
  | .nil => return 0
  | _ => stuck

/-- The bytes of a slice or a string. -/
def bytesOf (v : Val) : M ω Bytes := do
  let vs ← contents v
  return vs.map valByte

/-- Bytes as an array. -/
def toArr (n : Nat) (bs : Bytes) : Option (Arr n) := if h : bs.length = n then some ⟨bs.toArray, by simp [h]⟩ else none

/-- The array at a pointer. -/
def arrAt (n : Nat) (v : Val) : M ω (Arr n) := do
  let l ← locOf v
  match ← load l with
  | .arr vs => the (toArr n (vs.map valByte))
  | _ => stuck

/-- An array in memory. -/
def encArr {n : Nat} (a : Arr n) : Val := EdSrc.encInts .uint8 n (EdSrc.intsOf a)

/-- A new slice of bytes. -/
def newBytes (bs : Bytes) : M ω Val := newSlice (byteVals bs) bs.length

/-- A new slice of the bytes of an array. -/
def newArr {n : Nat} (a : Arr n) : M ω Val := do
  let l ← alloc (encArr a)
  return .slice l 0 n n

/-- A new block and the pointer to it. -/
def newPtr (v : Val) : M ω Val := do
  let l ← alloc v
  return .ptr l

/-- Copy bytes into a slice. -/
def fill (d : Val) (bs : Bytes) : M ω Unit := do
  let _ ← copyVal d (.str bs)
  return ()

/-- The text kept at a pointer, by libraries that keep text. -/
def textAt (l : Loc) : M ω Bytes := do strOf (← load l)

/-- Something that the outside world does. -/
def act {α β : Type} (a : Act ω α) (ok : α → M ω β) (err : GoErr → M ω β) : M ω β := fun s =>
  match a s.world with
  | (.ok x, w) => ok x { s with world := w }
  | (.err e, w) => err e { s with world := w }
  | (.panic, w) => .panic { s with world := w }
  | (.crash, w) => .crash { s with world := w }
  | (.hang, _) => .stuck

/-! ### Locality -/

namespace Emb

variable {E : Emb} {α β : Type} {r : β → β}

theorem comm_args0 {vs : List Val} {k k' : M ω β} (h : E.Comm r k k') : E.Comm r (args0 vs k) (args0 (E.renVs vs) k') := by
  rcases vs with _ | ⟨a, vs⟩ <;> simp only [renVs, args0]
  · exact h
  · exact Comm.stuck _ _

theorem comm_args1 {vs : List Val} {k k' : Val → M ω β} (h : ∀ a, E.Comm r (k a) (k' (E.renV a))) :
    E.Comm r (args1 vs k) (args1 (E.renVs vs) k') := by
  rcases vs with _ | ⟨a, _ | ⟨b, vs⟩⟩ <;> simp only [renVs, args1] <;> first | exact h _ | exact Comm.stuck _ _

theorem comm_args2 {vs : List Val} {k k' : Val → Val → M ω β} (h : ∀ a b, E.Comm r (k a b) (k' (E.renV a) (E.renV b))) :
    E.Comm r (args2 vs k) (args2 (E.renVs vs) k') := by
  rcases vs with _ | ⟨a, _ | ⟨b, _ | ⟨c, vs⟩⟩⟩ <;> simp only [renVs, args2] <;> first | exact h _ _ | exact Comm.stuck _ _

theorem comm_args3 {vs : List Val} {k k' : Val → Val → Val → M ω β}
    (h : ∀ a b c, E.Comm r (k a b c) (k' (E.renV a) (E.renV b) (E.renV c))) :
    E.Comm r (args3 vs k) (args3 (E.renVs vs) k') := by
  rcases vs with _ | ⟨a, _ | ⟨b, _ | ⟨c, _ | ⟨d, vs⟩⟩⟩⟩ <;> simp only [renVs, args3] <;>
    first | exact h _ _ _ | exact Comm.stuck _ _

theorem comm_args4 {vs : List Val} {k k' : Val → Val → Val → Val → M ω β}
    (h : ∀ a b c d, E.Comm r (k a b c d) (k' (E.renV a) (E.renV b) (E.renV c) (E.renV d))) :
    E.Comm r (args4 vs k) (args4 (E.renVs vs) k') := by
  rcases vs with _ | ⟨a, _ | ⟨b, _ | ⟨c, _ | ⟨d, _ | ⟨e, vs⟩⟩⟩⟩⟩ <;> simp only [renVs, args4] <;>
    first | exact h _ _ _ _ | exact Comm.stuck _ _

theorem comm_strOf (v : Val) : E.Comm id (strOf v : M ω Bytes) (strOf (E.renV v)) := by
  cases v <;> simp only [renV, strOf] <;> first | exact Comm.stuck _ _ | exact Comm.pure id _

theorem comm_intOf (v : Val) : E.Comm id (intOf v : M ω Int) (intOf (E.renV v)) := by
  cases v <;> simp only [renV, intOf] <;> first | exact Comm.stuck _ _ | exact Comm.pure id _

theorem comm_locOf (v : Val) : E.Comm E.ren (locOf v : M ω Loc) (locOf (E.renV v)) := by
  cases v <;> simp only [renV, locOf] <;> first | exact Comm.stuck _ _ | exact Comm.pure _ _

theorem comm_lengthOf (v : Val) : E.Comm id (lengthOf v : M ω Nat) (lengthOf (E.renV v)) := by
  cases v <;> simp only [renV, lengthOf] <;> first | exact Comm.stuck _ _ | exact Comm.pure id _

theorem map_valByte_ren (vs : List Val) : (E.renVs vs).map valByte = vs.map valByte := by
  rw [renVs_eq, List.map_map]
  congr 1
  funext v
  exact valByte_ren v

theorem comm_bytesOf (h : E.Valid) (v : Val) : E.Comm id (bytesOf v : M ω Bytes) (bytesOf (E.renV v)) := by
  unfold bytesOf
  exact Comm.bind (comm_contents h v) fun vs => Comm.pure' (map_valByte_ren vs)

theorem comm_arrAt (h : E.Valid) (n : Nat) (v : Val) : E.Comm id (arrAt n v : M ω (Arr n)) (arrAt n (E.renV v)) := by
  unfold arrAt
  refine Comm.bind (comm_locOf v) fun l => Comm.bind (comm_load h l) fun u => ?_
  cases u <;> simp only [renV] <;> first | exact Comm.stuck _ _ | skip
  rw [map_valByte_ren]
  exact Comm.the fun _ h => h

theorem comm_newBytes (bs : Bytes) : E.Comm E.renV (newBytes bs : M ω Val) (newBytes bs) := by
  have := comm_newSlice (E := E) (ω := ω) (byteVals bs) bs.length
  have e : E.renVs (byteVals bs) = byteVals bs := by
    rw [renVs_eq]
    unfold byteVals
    rw [List.map_map]
    rfl
  rwa [e] at this

theorem comm_newPtr (v : Val) : E.Comm E.renV (newPtr v : M ω Val) (newPtr (E.renV v)) := by
  unfold newPtr
  exact Comm.bind (comm_alloc v) fun l => Comm.pure' rfl

theorem renV_encArr {n : Nat} (a : Arr n) : E.renV (encArr a) = encArr a := by
  unfold encArr EdSrc.encInts
  rw [renV, renVs_eq, List.map_map]
  rfl

theorem comm_newArr {n : Nat} (a : Arr n) : E.Comm E.renV (newArr a : M ω Val) (newArr a) := by
  unfold newArr
  have := comm_alloc (E := E) (ω := ω) (encArr a)
  rw [renV_encArr] at this
  exact Comm.bind this fun l => Comm.pure' rfl

theorem comm_fill (h : E.Valid) (d : Val) (bs : Bytes) : E.Comm id (fill d bs : M ω Unit) (fill (E.renV d) bs) := by
  unfold fill
  exact Comm.bind (comm_copyVal h d (.str bs)) fun _ => Comm.pure id ()

theorem comm_textAt (h : E.Valid) (l : Loc) : E.Comm id (textAt l : M ω Bytes) (textAt (E.ren l)) := by
  unfold textAt
  exact Comm.bind (comm_load h l) fun v => comm_strOf v

theorem comm_act {a : Act ω α} {ok ok' : α → M ω β} {err err' : GoErr → M ω β} (h1 : ∀ x, E.Comm r (ok x) (ok' x))
    (h2 : ∀ e, E.Comm r (err e) (err' e)) : E.Comm r (act a ok err) (act a ok' err') := by
  intro s s' h
  have rel : ∀ w : ω, E.Rel { s with world := w } { s' with world := w } := fun w =>
    ⟨h.wins, h.size, h.base, h.defers, rfl, h.mem⟩
  unfold act
  rw [h.world]
  rcases a s.world with ⟨x | e | _ | _ | _, w⟩
  · exact h1 x _ _ (rel w)
  · exact h2 e _ _ (rel w)
  · exact ⟨_, rfl, rel w, rfl⟩
  · exact ⟨_, rfl, rel w, rfl⟩
  · trivial

end Emb

end Verif.Src
