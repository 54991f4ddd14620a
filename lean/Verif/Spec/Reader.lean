/-
The contract of io.Reader with both results, the bytes and the error; independent of the model of /repo.
-/
import Verif.Spec.Stream

namespace Verif.Spec

variable {σ : Type}

/-- A Go reader: `Read(p)` with `len(p) = n` puts some bytes into `p` and returns their number together with an error or
nil. -/
abbrev GoReader (σ : Type) := Nat → σ → (Bytes × Option GoErr) × σ

/-- `rd` is an io.Reader in the sense of its documentation that gives the text `left s` and then io.EOF: a call gives at most
`n` bytes, and gives the next bytes of the text; io.EOF comes only when the whole text has been given, either with the last
bytes or by itself; there is no other error. A call may give no bytes and no error. -/
structure ReadsText (rd : GoReader σ) (left : σ → Bytes) : Prop where
  fits : ∀ n s, (rd n s).1.1.length ≤ n
  next : ∀ n s, left s = (rd n s).1.1 ++ left (rd n s).2
  nothingElse : ∀ n s e, (rd n s).1.2 = some e → e = .eof
  last : ∀ n s, (rd n s).1.2 = some .eof → left (rd n s).2 = []

/-- The reader never returns `(0, nil)` when asked for a byte. -/
def NeverIdle (rd : GoReader σ) : Prop := ∀ s, (rd 1 s).1 ≠ ([], none)

/-- The reader never gives bytes together with io.EOF when asked for a byte. -/
def EofApart (rd : GoReader σ) : Prop := ∀ s e, (rd 1 s).1.2 = some e → (rd 1 s).1.1 = []

/-- The text is empty or ends with a newline. -/
def EndsWithNewline (t : Bytes) : Prop := t = [] ∨ ∃ u, t = u ++ [10]

/-- A reader over a string that reports io.EOF by itself, as bytes.Reader and os.File do. -/
def apartReader : GoReader Bytes := fun n s =>
  if s = [] then (([], some .eof), []) else ((s.take n, none), s.drop n)

/-- A reader over a string that reports io.EOF together with the last bytes. -/
def togetherReader : GoReader Bytes := fun n s =>
  ((s.take n, if s.length ≤ n then some .eof else none), s.drop n)

/-- A reader over a string that returns `(0, nil)` at every second call. -/
def idleReader : GoReader (Bool × Bytes) := fun n s =>
  if s.1 then (([], none), (false, s.2))
  else if s.2 = [] then (([], some .eof), (false, []))
  else ((s.2.take n, none), (true, s.2.drop n))

theorem apartReader_reads : ReadsText apartReader id where
  fits := by intro n s; simp only [apartReader]; split <;> simp; omega
  next := by intro n s; simp only [apartReader]; split <;> simp_all
  nothingElse := by intro n s e; simp only [apartReader]; split <;> simp; exact fun h => h.symm
  last := by intro n s; simp only [apartReader]; split <;> simp

theorem apartReader_neverIdle : NeverIdle apartReader := by
  intro s; cases s <;> simp [apartReader]

theorem apartReader_eofApart : EofApart apartReader := by
  intro s e; cases s <;> simp [apartReader]

theorem togetherReader_reads : ReadsText togetherReader id where
  fits := by intro n s; simp [togetherReader]; omega
  next := by intro n s; simp [togetherReader]
  nothingElse := by
    intro n s e; simp only [togetherReader]
    split
    · intro h; simpa using h.symm
    · simp
  last := by
    intro n s; simp only [togetherReader]
    split
    · intro _; simpa using ‹s.length ≤ n›
    · simp

theorem togetherReader_neverIdle : NeverIdle togetherReader := by
  intro s; cases s <;> simp [togetherReader]

theorem idleReader_reads : ReadsText idleReader (·.2) where
  fits := by
    rintro n ⟨b, s⟩; cases b <;> simp only [idleReader] <;> repeat' split
    all_goals simp
    all_goals omega
  next := by
    rintro n ⟨b, s⟩; cases b <;> simp only [idleReader] <;> repeat' split
    all_goals simp_all
  nothingElse := by
    rintro n ⟨b, s⟩ e; cases b <;> simp only [idleReader] <;> repeat' split
    all_goals simp
    all_goals exact fun h => h.symm
  last := by
    rintro n ⟨b, s⟩; cases b <;> simp only [idleReader] <;> repeat' split
    all_goals simp

end Verif.Spec
