/-
C106: what the text of `incrementNonce`, `skipComment` and `seal` in crypto/crypto.go and of `Public.ToBox` in signify/key.go says,
run by the interpreter in Verif.Source.Semantics with the libraries of Verif.Source.Lib, for all contents, in all memories, and for
all behaviours of the files and of the random source.
-/
import Verif.Source.SealRun
import Verif.Props.SourceCoding
import Verif.Props.SealStream

namespace Verif.Src

open Spec

variable {ω : Type} (S : Sys ω)

/-- `incrementNonce(nonce *[24]byte) error`, crypto.go:37-51: the array is one more, as the model has it, or, if there is no such
array, the error is that of the model; nothing but the array is different. -/
theorem C106_incrementNonce {s : St ω} {v0 v1 : Val} (G : Globals s v0 v1) {l : Loc} (hl : 2 ≤ l.blk) {nonce : Arr 24}
    (E : l.get s.mem = some (encArr nonce)) {n : Nat} (hn : 50 ≤ n) :
    match incrementNonce nonce with
    | .ok a => ∃ m, l.set s.mem (encArr a) = some m ∧
        (interp (repo S) n).call id!"crypto" crypt.incrementNonce [.ptr l] s = .ok [.nil] { s with mem := m }
    | .err e => ∃ (bs : Arr 24) (m : List Val), l.set s.mem (encArr bs) = some m ∧
        (interp (repo S) n).call id!"crypto" crypt.incrementNonce [.ptr l] s = .ok [errVal e] { s with mem := m }
    | _ => False :=
  nonce_in S G hl E hn

/-- The same in terms of numbers: the text returns nil exactly if the 24 bytes, as a big-endian number, are not the largest, and then
the number in memory is one more. -/
theorem C106_incrementNonce_value {s : St ω} {v0 v1 : Val} (G : Globals s v0 v1) {l : Loc} (hl : 2 ≤ l.blk) {nonce : Arr 24}
    (E : l.get s.mem = some (encArr nonce)) {n : Nat} (hn : 50 ≤ n) :
    (beVal nonce.toList + 1 < 256 ^ 24 → ∃ (a : Arr 24) (s' : St ω),
      (interp (repo S) n).call id!"crypto" crypt.incrementNonce [.ptr l] s = .ok [.nil] s' ∧
      l.get s'.mem = some (encArr a) ∧ beVal a.toList = beVal nonce.toList + 1 ∧ s'.world = s.world) ∧
    (beVal nonce.toList + 1 = 256 ^ 24 → ∃ s' : St ω,
      (interp (repo S) n).call id!"crypto" crypt.incrementNonce [.ptr l] s = .ok [errVal .nonceReused] s' ∧ s'.world = s.world) := by
  have c := C106_incrementNonce S G hl E hn
  constructor
  · intro h
    rcases incrementNonce_val nonce with ⟨-, a, h1, h2⟩ | ⟨h0, -⟩
    · rw [h1] at c
      obtain ⟨m, c1, c2⟩ := c
      exact ⟨a, _, c2, Loc.get_set c1, h2, rfl⟩
    · omega
  · intro h
    rcases incrementNonce_val nonce with ⟨h0, -⟩ | ⟨-, h1⟩
    · omega
    · rw [h1] at c
      obtain ⟨bs, m, -, c2⟩ := c
      exact ⟨_, c2, rfl⟩

/-- `skipComment(r io.Reader) error`, crypto.go:23-35, for a file whose Read returns at most the byte asked for: the calls of Read
and the result are those of the model, and memory is as before. The number `f` bounds the calls of Read, beyond which the model says
nothing. -/
theorem C106_skipComment {s : St ω} {v0 v1 : Val} (G : Globals s v0 v1) {h : Nat}
    (contract : ∀ w got w', S.read h 1 w = (.ok got, w') → got.length ≤ 1) {f n : Nat} (hn : f + 22 ≤ n) :
    Ends s.defers (skipComment f (S.read h) s.world) id
      (fun _ w r => r = .ok [.nil] ⟨s.mem, s.base, s.defers, w⟩)
      (fun e w r => r = .ok [libErr e] ⟨s.mem, s.base, s.defers, w⟩)
      ((interp (repo S) n).call id!"crypto" crypt.skipComment [fileVal h] s) :=
  skip_in S G contract hn

/-- `(pub *Public) ToBox() (*[32]byte, error)`, key.go:317-338, with the functions of internal/edwards25519 in place of their text
(C103, C104): a new array with the key of the model, or its error; nothing else is different. -/
theorem C106_ToBox (hS : S.ed = edFns) {s : St ω} {v0 v1 : Val} (G : Globals s v0 v1) {l : Loc} (hl : 2 ≤ l.blk) {pub : Public}
    (E : l.get s.mem = some (publicVal pub)) {n : Nat} (hn : 20 ≤ n) :
    match pub.toBox with
    | .ok a => ∃ (q : Loc) (s' : St ω), (interp (repo S) n).call id!"signify" key.Public.ToBox [.ptr l] s = .ok [.ptr q, .nil] s' ∧
        s.mem.length ≤ q.blk ∧ q.get s'.mem = some (encArr a) ∧ s'.mem.take s.mem.length = s.mem ∧ s'.world = s.world
    | .err e => (interp (repo S) n).call id!"signify" key.Public.ToBox [.ptr l] s = .ok [.nil, errVal e] s
    | _ => True := by
  have c := toBox_in S hS G hl E hn
  generalize pub.toBox = o at c
  rcases o with a | e | _ | _ | _
  · obtain ⟨new, h1, h2, -, h4⟩ := c
    refine ⟨_, _, h4, by simp, ?_, by simp, rfl⟩
    rw [Loc.get_eq]
    simp only [List.getElem?_append_right (Nat.le_add_right _ _), Nat.add_sub_cancel_left, h2]
    rfl
  · exact c
  all_goals trivial

/-- `seal(pub *signify.Public, message io.Reader, messageLen int, w io.Writer) error`, crypto.go:53-118, with an encoder as `w`: whatever
the random source and the two files do, the calls made of them, the result, and the encoder afterwards are those of the model, and
nothing else in memory is different. The Read of the message returns at most as much as asked for. -/
theorem C106_seal (hS : S.ed = edFns) {s : St ω} {v0 v1 : Val} (G : Globals s v0 v1) {p l b : Loc} {hw hm : Nat} {pub : Public} {e : EncState}
    (hp : 2 ≤ p.blk) (hl : 2 ≤ l.blk) (hb : 2 ≤ b.blk) (d : l.disjoint b = true) (d1 : p.disjoint l = true) (d2 : p.disjoint b = true)
    (Ep : p.get s.mem = some (publicVal pub)) (E : EncAt s l b hw e) (K : EncOk e) {n : Nat} (hn : n < 2 ^ 62)
    (contract : ∀ w got w', S.read hm 16385 w = (.ok got, w') → got.length ≤ 16385)
    {k : Nat} (hk : chunkCount n + 73 ≤ k) :
    Ends s.defers (sealBox S.prims pub (Act.onSnd (S.entropy 32)) (fun k => Act.onSnd (S.read hm k)) n (encWrite (S.write hw)) (e, s.world)) (·.2)
      (fun _ t r => EncOk t.1 ∧ ∃ s', EncMoved s l b hw t.1 t.2 s' ∧ r = .ok [.nil] s')
      (fun er t r => ∃ v s', IsErr er v ∧ EncMoved s l b hw t.1 t.2 s' ∧ r = .ok [v] s')
      ((interp (repo S) k).call id!"crypto" crypt.seal [.ptr p, fileVal hm, .int .int n, .ptr l] s) :=
  seal_in S hS G hp hl hb d d1 d2 Ep E K hn contract S.prims.boxSeal_length hk

/-- Where the source fills every Read and the file accepts everything, the text of `seal` returns nil, having given the encoder the
specified stream: the header and the sealed pieces of 16385 bytes. -/
theorem C106_sealed (hS : S.ed = edFns) {s : St ω} {v0 v1 : Val} (G : Globals s v0 v1) {p l b : Loc} {hw hm : Nat} {pub : Public} {e : EncState}
    (hp : 2 ≤ p.blk) (hl : 2 ≤ l.blk) (hb : 2 ≤ b.blk) (d : l.disjoint b = true) (d1 : p.disjoint l = true) (d2 : p.disjoint b = true)
    (Ep : p.get s.mem = some (publicVal pub)) (E : EncAt s l b hw e) (K : EncOk e) {m bs : Bytes} (hn : m.length < 2 ^ 62) (hm0 : m ≠ [])
    (contract : ∀ w got w', S.read hm 16385 w = (.ok got, w') → got.length ≤ 16385)
    {k : Nat} (hk : chunkCount m.length + 73 ≤ k)
    {T : Bytes → Bytes → EncState × ω → Prop} (full : FullSource (fun k => Act.onSnd (S.read hm k)) (encWrite (S.write hw)) T)
    {edpub epriv : Arr 32} {w1 : ω} (he : pub.toBox = .ok edpub) (hr : S.entropy 32 s.world = (.ok epriv, w1)) (hT : T m bs (e, w1)) :
    ∃ s' e', (interp (repo S) k).call id!"crypto" crypt.seal [.ptr p, fileVal hm, .int .int m.length, .ptr l] s = .ok [.nil] s' ∧
      EncAt s' l b hw e' ∧
      T [] (bs ++ sealedStream S.prims (S.prims.precompute edpub epriv) (S.prims.x25519Base epriv) (pieces 16385 (by decide) m)) (e', s'.world) := by
  have c := C106_seal S hS G hp hl hb d d1 d2 Ep E K hn contract hk
  obtain ⟨t, h1, h2⟩ := Props.C42_layout full S.prims pub (rand := Act.onSnd (S.entropy 32)) (s := (e, s.world)) (s1 := (e, w1)) hm0 (by omega) he
    (by rw [Act.onSnd_apply, hr]) hT
  rw [h1] at c
  obtain ⟨-, s', m1, e1⟩ := c
  obtain ⟨E', hw'⟩ := m1.at d
  exact ⟨s', t.1, e1, E', by rw [hw']; exact h2⟩

/-! ### The assumptions can be met -/

/-- A system whose files are two strings: what is left to read and what was written. -/
def twoTapes (P : Prims) : Sys Tape where
  prims := P
  readFile _ := fun w => (.ok w.left, w)
  writeFile _ bs _ := fun w => (.ok (), { w with out := bs })
  openFile _ := pure 0
  create _ := pure 0
  size _ := fun w => (.ok w.left.length, w)
  read _ := Tape.read
  write _ := Tape.write
  entropy n := pure (Vector.replicate n 7)
  readPassword := pure []
  print _ := pure ()

/-- A state with a public key, an encoder in the middle of a line, and a nonce about to carry. -/
noncomputable def cryptoState (pub : Public) : St Tape :=
  ⟨[promptFunc, defaultOpts, publicVal pub, encVal 51 (fileVal 0) ⟨4, []⟩ 2, bufVal [104, 105] [0], encArr (copyZ 24 (List.replicate 23 0 ++ [255]))],
    0, [], ⟨b!"hello", [], []⟩⟩

example (pub : Public) : (twoTapes toy).ed = edFns ∧ Globals (cryptoState pub) promptFunc defaultOpts ∧
    (⟨2, []⟩ : Loc).get (cryptoState pub).mem = some (publicVal pub) ∧ EncAt (cryptoState pub) ⟨3, []⟩ ⟨4, []⟩ 0 ⟨51, [104, 105]⟩ ∧
    EncOk ⟨51, [104, 105]⟩ ∧ (⟨5, []⟩ : Loc).get (cryptoState pub).mem = some (encArr (copyZ 24 (List.replicate 23 0 ++ [255]))) ∧
    (⟨3, []⟩ : Loc).disjoint ⟨4, []⟩ = true ∧ (⟨2, []⟩ : Loc).disjoint ⟨3, []⟩ = true ∧ (⟨2, []⟩ : Loc).disjoint ⟨4, []⟩ = true ∧
    (∀ k w got w', (twoTapes toy).read 0 k w = (.ok got, w') → got.length ≤ k) := by
  refine ⟨rfl, ⟨rfl, rfl, rfl, rfl⟩, rfl, ⟨[0], rfl, by decide, rfl, rfl⟩, ⟨by decide, by decide, rfl⟩, rfl, rfl, rfl, rfl, ?_⟩
  intro k w got w' e
  change Tape.read k w = _ at e
  unfold Tape.read at e
  cases e
  simp

/-- The carry reaches the next byte. -/
example : incrementNonce (copyZ 24 (List.replicate 23 0 ++ [255])) = .ok (copyZ 24 (List.replicate 22 0 ++ [1, 0])) := by decide +kernel

end Verif.Src
