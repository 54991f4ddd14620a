/-
What it means to observe the traffic of a reader and a writer, and for a source to serve all reads; independent of the model of
/repo.
-/
import Verif.Model.Go
import Verif.Model.StdBase64

namespace Verif

variable {σ : Type}

/-- `J l d s`: in state `s`, `l` has been read and `d` has been written, all calls so far having succeeded; `F l d s`: the
same for a state in which a call may have failed. -/
structure Channel (rd : Reader σ) (w : Writer σ) (J F : Bytes → Bytes → σ → Prop) : Prop where
  read : ∀ {l d s n got s'}, 0 < n → J l d s → rd n s = (.ok got, s') → J (l ++ got) d s'
  readFail : ∀ {l d s n r s'}, 0 < n → J l d s → rd n s = (r, s') → (∀ g, r ≠ .ok g) → F l d s'
  write : ∀ {l d s bs k s'}, J l d s → w bs s = (.ok k, s') → J l (d ++ bs) s'
  writeFail : ∀ {l d s bs r s'}, J l d s → w bs s = (r, s') → (∀ k, r ≠ .ok k) → ∃ k, F l (d ++ bs.take k) s'
  stop : ∀ {l d s}, J l d s → F l d s

/-- An action that neither reads nor writes. -/
structure Silent {α : Type} (a : Act σ α) (J F : Bytes → Bytes → σ → Prop) : Prop where
  ok : ∀ {l d s x s'}, J l d s → a s = (.ok x, s') → J l d s'
  fail : ∀ {l d s r s'}, J l d s → a s = (r, s') → (∀ x, r ≠ .ok x) → F l d s'

/-- `S m d s`: in state `s`, the source still holds `m`, and `d` has been written. Reads that the source can serve return as
much as was asked for. -/
structure FullSource (rd : Reader σ) (w : Writer σ) (S : Bytes → Bytes → σ → Prop) : Prop where
  read : ∀ {m d s n}, S m d s → m ≠ [] → 0 < n → ∃ s', rd n s = (.ok (m.take n), s') ∧ S (m.drop n) d s'
  write : ∀ {m d s bs}, S m d s → ∃ k s', w bs s = (.ok k, s') ∧ S m (d ++ bs) s'

/-- `S data d s`: in state `s` the source still holds `data`, and `d` has been written. Reads of a multiple of three bytes
return as much as there is. -/
structure DataSource (rd : Reader σ) (w : Writer σ) (S : Bytes → Bytes → σ → Prop) : Prop where
  read : ∀ {m d s n}, S m d s → 3 ∣ n → ∃ s', rd n s = (.ok (m.take n), s') ∧ S (m.drop n) d s'
  write : ∀ {m d s bs}, S m d s → ∃ k s', w bs s = (.ok k, s') ∧ S m (d ++ bs) s'

/-- All pieces have full size, except that the last one may be shorter if nothing follows. -/
def Framed : List Bytes → Bytes → Prop
  | [], _ => True
  | p :: ps, t => (p.length = 16385 ∧ Framed ps t) ∨ (p.length ≤ 16385 ∧ ps = [] ∧ t = [])

/-- `log` is what the reader has returned so far, `recv` what the writer has accepted so far: a successful read adds what it
returned, a successful write adds everything, a failing write some prefix. -/
structure Observed (rd : Reader σ) (w : Writer σ) (log recv : σ → Bytes) : Prop where
  read : ∀ {n s got s'}, 0 < n → rd n s = (.ok got, s') → log s' = log s ++ got ∧ recv s' = recv s
  readFail : ∀ {n s r s'}, 0 < n → rd n s = (r, s') → (∀ g, r ≠ .ok g) → log s' = log s ∧ recv s' = recv s
  write : ∀ {bs s k s'}, w bs s = (.ok k, s') → log s' = log s ∧ recv s' = recv s ++ bs
  writeFail : ∀ {bs s r s'}, w bs s = (r, s') → (∀ k, r ≠ .ok k) → log s' = log s ∧ ∃ k, recv s' = recv s ++ bs.take k

/-- An action that neither reads nor writes. -/
def Unseen {α : Type} (a : Act σ α) (log recv : σ → Bytes) : Prop :=
  ∀ s, log (a s).2 = log s ∧ recv (a s).2 = recv s

theorem Observed.channel {rd : Reader σ} {w : Writer σ} {log recv : σ → Bytes} (h : Observed rd w log recv) :
    Channel rd w (fun l d s => log s = l ∧ recv s = d) (fun l d s => log s = l ∧ recv s = d) where
  read := by
    rintro _ _ s n got s' hn ⟨rfl, rfl⟩ hr
    exact h.read hn hr
  readFail := by
    rintro _ _ s n r s' hn ⟨rfl, rfl⟩ hr hf
    exact h.readFail hn hr hf
  write := by
    rintro _ _ s bs k s' ⟨rfl, rfl⟩ hw
    exact h.write hw
  writeFail := by
    rintro _ _ s bs r s' ⟨rfl, rfl⟩ hw hf
    obtain ⟨h1, k, h2⟩ := h.writeFail hw hf
    exact ⟨k, h1, h2⟩
  stop := id

theorem Unseen.silent {α : Type} {a : Act σ α} {log recv : σ → Bytes} (h : Unseen a log recv) :
    Silent a (fun l d s => log s = l ∧ recv s = d) (fun l d s => log s = l ∧ recv s = d) where
  ok := by
    rintro _ _ s x s' ⟨rfl, rfl⟩ ha
    have := h s
    rw [ha] at this; exact this
  fail := by
    rintro _ _ s x s' ⟨rfl, rfl⟩ ha -
    have := h s
    rw [ha] at this; exact this

/-- Input still to be read, input read, output written; used for non-vacuity checks. -/
structure Tape where
  left : Bytes
  log : Bytes
  out : Bytes
deriving DecidableEq

/-- A reader that returns as much as there is. -/
def Tape.read : Reader Tape := fun n s => (.ok (s.left.take n), { s with left := s.left.drop n, log := s.log ++ s.left.take n })

/-- A writer that accepts everything. -/
def Tape.write : Writer Tape := fun bs s => (.ok bs.length, { s with out := s.out ++ bs })

theorem tape_observed : Observed Tape.read Tape.write Tape.log Tape.out where
  read := by
    intro n s got s' _ h
    simp only [Tape.read, Prod.mk.injEq, Res.ok.injEq] at h
    obtain ⟨rfl, rfl⟩ := h; exact ⟨rfl, rfl⟩
  readFail := by
    intro n s r s' _ h hf
    simp only [Tape.read, Prod.mk.injEq] at h
    exact absurd h.1.symm (hf _)
  write := by
    intro bs s k s' h
    simp only [Tape.write, Prod.mk.injEq, Res.ok.injEq] at h
    obtain ⟨-, rfl⟩ := h; exact ⟨rfl, rfl⟩
  writeFail := by
    intro bs s r s' h hf
    simp only [Tape.write, Prod.mk.injEq] at h
    exact absurd h.1.symm (hf _)

theorem tape_data : DataSource Tape.read Tape.write (fun m d s => s.left = m ∧ s.out = d) where
  read := by rintro _ _ s n ⟨rfl, rfl⟩ _; exact ⟨_, rfl, rfl, rfl⟩
  write := by rintro _ _ s bs ⟨rfl, rfl⟩; exact ⟨_, _, rfl, rfl, rfl⟩

theorem tape_full : FullSource Tape.read Tape.write (fun m d s => s.left = m ∧ s.out = d) where
  read := by rintro _ _ s n ⟨rfl, rfl⟩ _ _; exact ⟨_, rfl, rfl, rfl⟩
  write := by rintro _ _ s bs ⟨rfl, rfl⟩; exact ⟨_, _, rfl, rfl, rfl⟩

/-- `l` is the concatenation of decodings of consecutive blocks of `T`, up to a rest. -/
def DecodedFrom (T l rest : Bytes) : Prop :=
  ∃ segs : List (Bytes × Bytes), (∀ sg ∈ segs, ∃ n, B64.decode n sg.1 = .ok sg.2) ∧
    (segs.map Prod.fst).flatten ++ rest = T ∧ (segs.map Prod.snd).flatten = l

end Verif
