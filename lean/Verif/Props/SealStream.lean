/-
C38-C42, C45 and C47: sealing and opening over arbitrary readers and writers.
-/
import Verif.Lemmas.SealLoop
import Verif.Spec.Toy

namespace Verif.Props
open Spec

variable {σ : Type} {rd : Reader σ} {w : Writer σ} {log recv : σ → Bytes}

/-! ### C38 -/

/-- C38: if `open` returns nil then, under any reader, writer and read schedule, what it has read is exactly a header whose chunk
count and ephemeral key are authenticated under the shared secret, followed by that many chunks, the `i`-th being the sealing of
the `i`-th piece under the nonce of number `i`; what it has written is the concatenation of the pieces. -/
theorem C38_authentic (hc : Observed rd w log recv) (P : Prims) {toBox : Act σ (Arr 32)} (ht : Unseen toBox log recv) {s s' : σ}
    (h : openBox P toBox rd w s = (.ok (), s')) :
    ∃ edpriv epub, ∃ ps : List Bytes, (toBox s).1 = .ok edpriv ∧ ps.length < 2 ^ 64 ∧
      log s' = log s ++ headerOf P (P.precompute epub edpriv) epub ps.length ++
        (sealedFrom P (P.precompute epub edpriv) 0 ps).flatten ∧
      recv s' = recv s ++ ps.flatten := by
  obtain ⟨edpriv, epub, ps, h1, h2, h3, h4⟩ := openBox_ok hc.channel P ht.silent ⟨rfl, rfl⟩ h
  exact ⟨edpriv, epub, ps, h1, h2, by rw [h3, sealedStream, List.append_assoc], h4⟩

/-- C38: the `i`-th element of the chunks is the sealing of the `i`-th piece under the nonce of number `i`. -/
theorem C38_chunk (P : Prims) (shared : Arr 32) (ps : List Bytes) (i : Nat) (h : i < ps.length) :
    (sealedFrom P shared 0 ps)[i]? = some (P.boxSeal shared (nonceOf i) ps[i]) := by
  rw [sealedFrom_get, List.getElem?_eq_getElem h, Nat.zero_add]; rfl

/-- A sealed stream with two chunks (for the toy primitives and the secret key `b!"k"`), and its use in C38. -/
example :
    let k : Arr 32 := copyZ 32 b!"k"
    let e : Arr 32 := copyZ 32 b!"e"
    let m := sealedStream toy (toy.precompute e k) e [b!"hi"]
    Observed Tape.read Tape.write Tape.log Tape.out ∧ Unseen (fun s => (.ok k, s)) Tape.log Tape.out ∧
    openBox toy (fun s => (.ok k, s)) Tape.read Tape.write ⟨m, [], []⟩ = (.ok (), ⟨[], m, b!"hi"⟩) :=
  ⟨tape_observed, fun _ => ⟨rfl, rfl⟩, by decide +kernel⟩

/-! ### C39 -/

/-- C39: whatever was read, `open` returns nil only if the number of chunks it read is the authenticated count at the beginning
of the header; in particular at least 72 bytes and 16 more per counted chunk were read. -/
theorem C39_count (hc : Observed rd w log recv) (P : Prims) {toBox : Act σ (Arr 32)} (ht : Unseen toBox log recv) {s s' : σ}
    (hs : log s = []) (h : openBox P toBox rd w s = (.ok (), s')) :
    72 + 16 * beVal ((log s').take 8) ≤ (log s').length ∧
    (log s').length = 72 + 16 * beVal ((log s').take 8) + ((recv s').length - (recv s).length) := by
  obtain ⟨edpriv, epub, ps, h1, h2, h3, h4⟩ := C38_authentic hc P ht h
  rw [hs, List.nil_append] at h3
  have h8 : beVal ((log s').take 8) = ps.length := by
    rw [h3, List.take_append_of_le_length (by rw [headerOf_length]; decide), headerOf_take8, beVal_bigEndian]
    exact Nat.mod_eq_of_lt h2
  have hl : (log s').length = 72 + (ps.flatten.length + 16 * ps.length) := by
    rw [h3, List.length_append, headerOf_length, sealedFrom_flatten_length]
  rw [h8, hl, h4, List.length_append]
  omega

/-- C39: a chunk is accepted at position `i`, with plaintext `m`, only if it is the sealing of `m` under the nonce of its own
position. -/
theorem C39_chunk (P : Prims) (shared : Arr 32) (i : Nat) (c m : Bytes) :
    P.boxOpen shared (nonceOf i) c = some m ↔ c = P.boxSeal shared (nonceOf i) m := P.boxOpen_iff

/-- C39: if, after some full-size authentic chunks, the next chunk is not authentic under the nonce of its own position, `open`
reports it by number, having written exactly the preceding plaintexts. -/
theorem C39_reject {S : Bytes → Bytes → σ → Prop} (hs : DataSource rd w S) (P : Prims) {toBox : Act σ (Arr 32)}
    {edpriv epub : Arr 32} (qs : List Bytes) (more : Nat) {t d : Bytes} {s s1 : σ} (ht : toBox s = (.ok edpriv, s1))
    (hn : qs.length + (more + 1) < 2 ^ 64)
    (hS : S (headerOf P (P.precompute epub edpriv) epub (qs.length + (more + 1)) ++
      (sealedFrom P (P.precompute epub edpriv) 0 qs).flatten ++ t) d s1)
    (hf : ∀ q ∈ qs, q.length = 16385)
    (hbad : ∀ m, t.take 16401 ≠ P.boxSeal (P.precompute epub edpriv) (nonceOf qs.length) m) :
    ∃ s', openBox P toBox rd w s = (.err (.chunkDecrypt qs.length), s') ∧ S (t.drop 16401) (d ++ qs.flatten) s' := by
  refine openBox_cut hs P qs more ht hn hS hf ?_
  cases h : P.boxOpen (P.precompute epub edpriv) (nonceOf qs.length) (t.take 16401) with
  | none => rfl
  | some m => exact absurd (P.boxOpen_some h) (hbad m)

/-- C39: a stream that was cut off after some of its chunks never opens: of a sealed stream of `n` chunks (full-size except
possibly the last) only the first `k < n` are left. -/
theorem C39_truncated {S : Bytes → Bytes → σ → Prop} (hs : DataSource rd w S) (P : Prims) {toBox : Act σ (Arr 32)}
    {edpriv epub : Arr 32} (ps : List Bytes) (k : Nat) {d : Bytes} {s s1 : σ} (ht : toBox s = (.ok edpriv, s1))
    (hn : ps.length < 2 ^ 64) (hf : ∀ q ∈ ps.dropLast, q.length = 16385) (hk : k < ps.length)
    (hS : S (headerOf P (P.precompute epub edpriv) epub ps.length ++
      (sealedFrom P (P.precompute epub edpriv) 0 (ps.take k)).flatten) d s1) :
    ∃ s', openBox P toBox rd w s = (.err (.chunkDecrypt k), s') ∧ S [] (d ++ (ps.take k).flatten) s' := by
  have hl : (ps.take k).length = k := by rw [List.length_take]; omega
  have := C39_reject (t := []) (d := d) (epub := epub) hs P (ps.take k) (ps.length - k - 1) ht (by omega)
    (by rw [hl, List.append_nil, show k + (ps.length - k - 1 + 1) = ps.length by omega]; exact hS)
    (fun q hq => hf q (by
      rw [List.dropLast_eq_take]
      exact (List.IsPrefix.subset (List.take_prefix_take_left (by omega))) hq))
    (fun m h => by
      have := congrArg List.length h
      rw [P.boxSeal_length] at this
      simp at this)
  rw [hl] at this
  exact this

/-- C39 applied: the header alone, of a stream of two chunks. -/
example :
    let k : Arr 32 := copyZ 32 b!"k"
    let e : Arr 32 := copyZ 32 b!"e"
    openBox toy (fun s => (.ok k, s)) Tape.read Tape.write ⟨headerOf toy (toy.precompute e k) e 2, [], []⟩ =
      (.err (.chunkDecrypt 0), ⟨[], headerOf toy (toy.precompute e k) e 2, []⟩) := by
  decide +kernel

/-- The hypotheses of C39 can be met by a stream of two chunks of which one is left. -/
example : ∃ (ps : List Bytes) (s : Tape), (∀ q ∈ ps.dropLast, q.length = 16385) ∧ 1 < ps.length ∧
    DataSource Tape.read Tape.write (fun m d (s : Tape) => s.left = m ∧ s.out = d) ∧
    s.left = headerOf toy (copyZ 32 []) (copyZ 32 []) ps.length ++ (sealedFrom toy (copyZ 32 []) 0 (ps.take 1)).flatten :=
  ⟨[List.replicate 16385 1, b!"x"], ⟨_, [], []⟩, fun q hq => by rw [List.mem_singleton.mp hq]; exact List.length_replicate,
    by decide, tape_data, rfl⟩

/-! ### C40 -/

/-- C40: however `open` ends (error, panic, crash, hang), under any reader and writer, what it has written is the beginning of the
concatenated plaintexts of chunks that were read and are authentic, and that follow a header authenticating a count at least as
large; each of these plaintexts except possibly the last is written completely. -/
theorem C40_authentic (hc : Observed rd w log recv) (P : Prims) {toBox : Act σ (Arr 32)} (ht : Unseen toBox log recv) (s : σ) :
    recv (openBox P toBox rd w s).2 = recv s ∨
    ∃ edpriv epub n, ∃ ps : List Bytes, ∃ c j, (toBox s).1 = .ok edpriv ∧ n < 2 ^ 64 ∧ ps.length ≤ n ∧
      log (openBox P toBox rd w s).2 = log s ++ (headerOf P (P.precompute epub edpriv) epub n ++
        (sealedFrom P (P.precompute epub edpriv) 0 ps).flatten) ++ c ∧
      recv (openBox P toBox rd w s).2 = recv s ++ ps.flatten.take j ∧ ps.dropLast.flatten.length ≤ j := by
  rcases openBox_any hc.channel P ht.silent (s := s) ⟨rfl, rfl⟩ with ⟨c, ⟨h1, h2⟩, -⟩ | ⟨edpriv, epub, n, ps, c, j, h1, h2, h3, h4, h5, h6⟩
  · exact .inl h2
  · exact .inr ⟨edpriv, epub, n, ps, c, j, h1, h2, h3, h5, h6, h4⟩

/-- C40 in a run that fails at the second chunk: the first plaintext has been written. -/
example :
    let k : Arr 32 := copyZ 32 b!"k"
    let e : Arr 32 := copyZ 32 b!"e"
    let m := headerOf toy (toy.precompute e k) e 2 ++ (sealedFrom toy (toy.precompute e k) 0 [b!"hi"]).flatten
    openBox toy (fun s => (.ok k, s)) Tape.read Tape.write ⟨m, [], []⟩ = (.err (.chunkDecrypt 1), ⟨[], m, b!"hi"⟩) := by
  decide +kernel

/-! ### C41 -/

/-- C41: the increment adds one to the nonce read as a big-endian number, and reports an error exactly for the largest one. -/
theorem C41_increment (v : Arr 24) :
    (∀ v', incrementNonce v = .ok v' ↔ beVal v'.toList = beVal v.toList + 1) ∧
    (incrementNonce v = .err .nonceReused ↔ beVal v.toList + 1 = 256 ^ 24) := by
  have hlt : ∀ x : Arr 24, beVal x.toList < 256 ^ 24 := fun x => by have := beVal_lt x.toList; rwa [length_toList] at this
  rcases incrementNonce_val v with ⟨h0, v1, h1, h2⟩ | ⟨h0, h1⟩
  · refine ⟨fun v' => ?_, ?_⟩
    · rw [h1]
      constructor
      · intro h; rw [← Res.ok.inj h, h2]
      · intro h
        congr 1
        apply arr_ext
        exact beVal_inj (by simp) (by rw [h, h2])
    · rw [h1]; constructor
      · intro h; cases h
      · intro h; omega
  · refine ⟨fun v' => ?_, ?_⟩
    · rw [h1]; constructor
      · intro h; cases h
      · intro h; have := hlt v'; omega
    · exact ⟨fun _ => h0, fun _ => h1⟩

/-- C41: distinct chunk numbers have distinct nonces. -/
theorem C41_distinct {i j : Nat} (hi : i < 256 ^ 24) (hj : j < 256 ^ 24) (h : nonceOf i = nonceOf j) : i = j :=
  nonceOf_inj hi hj h

/-- C41: the nonce of chunk `i` is the 24-byte big-endian encoding of `i`. -/
theorem C41_value {i : Nat} (hi : i < 256 ^ 24) : beVal (nonceOf i).toList = i := nonceOf_val hi

/-- C41: in a successful `seal`, under any reader and writer, the `i`-th chunk written is the sealing of the `i`-th piece read
under the nonce of number `i`. Every number of chunks that `seal` can count is far below the number of nonces. -/
theorem C41_sealed (hc : Observed rd w log recv) (P : Prims) (pub : Public) {rand : Act σ (Arr 32)} (hr : Unseen rand log recv)
    (len : Nat) (hlen : len ≠ 0) {s s' : σ} (h : sealBox P pub rand rd len w s = (.ok (), s')) :
    ∃ edpub epriv, ∃ ps cs : List Bytes, pub.toBox = .ok edpub ∧ (rand s).1 = .ok epriv ∧ cs.length = ps.length ∧
      log s' = log s ++ ps.flatten ∧
      recv s' = recv s ++ headerOf P (P.precompute edpub epriv) (P.x25519Base epriv) ps.length ++ cs.flatten ∧
      ∀ i (hi : i < ps.length), cs[i]? = some (P.boxSeal (P.precompute edpub epriv) (nonceOf i) ps[i]) := by
  obtain ⟨edpub, epriv, ps, h1, h2, h3, h4, h5⟩ := sealBox_ok hc.channel P pub hr.silent len hlen ⟨rfl, rfl⟩ h
  exact ⟨edpub, epriv, ps, sealedFrom P (P.precompute edpub epriv) 0 ps, h1, h2, sealedFrom_length _ _ _ _, h4,
    by rw [h5, sealedStream, List.append_assoc], fun i hi => C38_chunk P _ ps i hi⟩

example : incrementNonce (copyZ 24 (List.replicate 20 7 ++ [9, 255, 255, 255])) = .ok (copyZ 24 (List.replicate 20 7 ++ [10])) ∧
    incrementNonce (Vector.replicate 24 255) = .err .nonceReused := by decide +kernel

/-! ### C42 -/

/-- C42: with a source that fills every read, `seal` of a non-empty message (whose length fits an int64, as it must) succeeds;
it reads the message to the end and writes the specified stream for the message cut into pieces of 16385 bytes. -/
theorem C42_layout {S : Bytes → Bytes → σ → Prop} (hs : FullSource rd w S) (P : Prims) (pub : Public) {rand : Act σ (Arr 32)}
    {m d : Bytes} {s s1 : σ} (hm : m ≠ []) (hlen : m.length < 2 ^ 63) {edpub epriv : Arr 32} (he : pub.toBox = .ok edpub)
    (hr : rand s = (.ok epriv, s1)) (hS : S m d s1) :
    ∃ s', sealBox P pub rand rd m.length w s = (.ok (), s') ∧
      S [] (d ++ sealedStream P (P.precompute edpub epriv) (P.x25519Base epriv) (pieces 16385 (by decide) m)) s' :=
  sealBox_run hs P pub hm hlen he hr hS

/-- C42: the pieces make up the message; all but the last have 16385 bytes, the last at least one and at most 16385. -/
theorem C42_pieces (m : Bytes) : (pieces 16385 (by decide) m).flatten = m ∧
    (pieces 16385 (by decide) m).length = (m.length + 16384) / 16385 ∧
    (∀ p ∈ (pieces 16385 (by decide) m).dropLast, p.length = 16385) ∧
    (∀ p ∈ pieces 16385 (by decide) m, 0 < p.length ∧ p.length ≤ 16385) := by
  refine ⟨pieces_flatten _ _ m, pieces_length _ _ m, ?_, fun p hp => ⟨?_, mem_pieces_length hp⟩⟩
  · induction hk : m.length using Nat.strongRecOn generalizing m with
    | ind k ih =>
      by_cases hm : m = []
      · subst hm; rw [pieces_nil]; simp
      · have hp := List.length_pos_iff.mpr hm
        rw [pieces_cons hm]
        by_cases hd : m.drop 16385 = []
        · rw [hd, pieces_nil]; simp
        · have hlt : 16385 < m.length := by
            rcases Nat.lt_or_ge 16385 m.length with h | h
            · exact h
            · exact absurd (List.drop_of_length_le h) hd
          have hcons := pieces_cons (hn := by decide) (n := 16385) hd
          rw [hcons, List.dropLast_cons_cons, ← hcons]
          intro p hp'
          rcases List.mem_cons.mp hp' with rfl | h
          · rw [List.length_take]; omega
          · exact ih _ (by rw [List.length_drop]; omega) (m.drop 16385) rfl p h
  · induction hk : m.length using Nat.strongRecOn generalizing m with
    | ind k ih =>
      by_cases hm : m = []
      · subst hm; rw [pieces_nil] at hp; cases hp
      · have hpos := List.length_pos_iff.mpr hm
        rw [pieces_cons hm] at hp
        rcases List.mem_cons.mp hp with rfl | h
        · rw [List.length_take]; omega
        · exact ih _ (by rw [List.length_drop]; omega) (m.drop 16385) h rfl

/-- C42: the header has 72 bytes and its parts, and the total size is 72 + len + 16 * chunks. -/
theorem C42_size (P : Prims) (shared epub : Arr 32) (m : Bytes) :
    (headerOf P shared epub (pieces 16385 (by decide) m).length).length = 72 ∧
    (sealedStream P shared epub (pieces 16385 (by decide) m)).length = 72 + m.length + 16 * ((m.length + 16384) / 16385) ∧
    (m.length < 2 ^ 63 → beVal ((sealedStream P shared epub (pieces 16385 (by decide) m)).take 8) = (m.length + 16384) / 16385) := by
  have hl := headerOf_length P shared epub (pieces 16385 (by decide) m).length
  refine ⟨hl, ?_, fun hm => ?_⟩
  · rw [sealedStream, List.length_append, hl, sealedFrom_flatten_length, pieces_flatten, pieces_length]; omega
  · rw [sealedStream, List.take_append_of_le_length (by omega), headerOf_take8, beVal_bigEndian, pieces_length]
    exact Nat.mod_eq_of_lt (by omega)

/-- A concrete run: two bytes are sealed for the public key with all bytes zero (the point of order 4 with y = 0). -/
example : FullSource Tape.read Tape.write (fun m d s => s.left = m ∧ s.out = d) ∧ b!"hi" ≠ [] ∧ (b!"hi").length < 2 ^ 63 :=
  ⟨tape_full, by decide, by decide⟩

/-! ### C45 -/

/-- C45 (the part that holds): if `seal` returns nil, then under any reader and writer the sealed pieces are exactly the results
of the reads, in order, and their number is the one computed from the length. Not claimed, because false (see the next theorem):
that together they are the whole message. -/
theorem C45_pieces_partial (hc : Observed rd w log recv) (P : Prims) (pub : Public) {rand : Act σ (Arr 32)} (hr : Unseen rand log recv)
    (len : Nat) (hlen : len ≠ 0) {s s' : σ} (h : sealBox P pub rand rd len w s = (.ok (), s')) :
    ∃ edpub epriv, ∃ ps : List Bytes, pub.toBox = .ok edpub ∧ (rand s).1 = .ok epriv ∧ ps.length = (len + 16384) / 16385 ∧
      log s' = log s ++ ps.flatten ∧
      recv s' = recv s ++ sealedStream P (P.precompute edpub epriv) (P.x25519Base epriv) ps := by
  obtain ⟨edpub, epriv, ps, h1, h2, h3, h4, h5⟩ := sealBox_ok hc.channel P pub hr.silent len hlen ⟨rfl, rfl⟩ h
  refine ⟨edpub, epriv, ps, h1, h2, ?_, h4, h5⟩
  rw [h3, chunkCount, chunkSize]; split <;> omega

/-- A reader over the same tape that returns one byte per call. -/
def drip : Reader Tape := fun _ => Tape.read 1

theorem drip_loop (P : Prims) (sh : Arr 32) (n i : Nat) (m l d : Bytes) (hn : n ≤ m.length) (hi : i + n < 256 ^ 24) :
    ∃ ps : List Bytes, ps.length = n ∧ ps.flatten = m.take n ∧
    sealLoop P sh drip Tape.write n (nonceOf i) ⟨m, l, d⟩ =
      (.ok (), ⟨m.drop n, l ++ m.take n, d ++ (sealedFrom P sh i ps).flatten⟩) := by
  induction n generalizing i m l d with
  | zero => exact ⟨[], rfl, by simp, by simp [sealLoop, sealedFrom]⟩
  | succ n ih =>
    obtain ⟨x, m, rfl⟩ : ∃ x m', m = x :: m' := by
      cases m with
      | nil => simp at hn
      | cons x m => exact ⟨x, m, rfl⟩
    obtain ⟨ps, h1, h2, h3⟩ := ih (i + 1) m (l ++ [x]) (d ++ P.boxSeal sh (nonceOf i) [x]) (by simp at hn; omega) (by omega)
    refine ⟨[x] :: ps, by simp [h1], by simp [h2], ?_⟩
    simp only [sealLoop]
    rw [Act.bind_ok (show drip chunkSize ⟨x :: m, l, d⟩ = (.ok [x], ⟨m, l ++ [x], d⟩) from rfl),
      Act.bind_ok (show Tape.write (P.boxSeal sh (nonceOf i) [x]) ⟨m, l ++ [x], d⟩ =
        (.ok (P.boxSeal sh (nonceOf i) [x]).length, ⟨m, l ++ [x], d ++ P.boxSeal sh (nonceOf i) [x]⟩) from rfl),
      Act.bind_ok (show Act.ofRes (incrementNonce (nonceOf i)) _ = (.ok (nonceOf (i + 1)), _) by
          rw [Act.ofRes_apply, incrementNonce_ok (by omega)]), h3]
    simp [sealedFrom]

/-- C45, negation: for every message of at least two bytes, a reader that is allowed to return fewer bytes than asked for (here
one per call) makes `seal` return nil although only `ceil(len / 16385)` bytes of the message were sealed. -/
theorem C45_negation (P : Prims) (pub : Public) (edpub epriv : Arr 32) (he : pub.toBox = .ok edpub) (m : Bytes)
    (hm : 2 ≤ m.length) (hlen : m.length < 2 ^ 63) :
    ∃ ps : List Bytes, ps.flatten = m.take ((m.length + 16384) / 16385) ∧ ps.flatten ≠ m ∧
    sealBox P pub (pure epriv) drip m.length Tape.write ⟨m, [], []⟩ =
      (.ok (), ⟨m.drop ((m.length + 16384) / 16385), m.take ((m.length + 16384) / 16385),
        sealedStream P (P.precompute edpub epriv) (P.x25519Base epriv) ps⟩) := by
  have hcc : chunkCount m.length = (m.length + 16384) / 16385 := by
    rw [chunkCount, chunkSize]; split <;> omega
  obtain ⟨ps, h1, h2, h3⟩ := drip_loop P (P.precompute edpub epriv) ((m.length + 16384) / 16385) 0 m []
    (headerOf P (P.precompute edpub epriv) (P.x25519Base epriv) ((m.length + 16384) / 16385)) (by omega) (by omega)
  refine ⟨ps, h2, ?_, ?_⟩
  · intro h
    have := congrArg List.length h
    rw [h2, List.length_take] at this
    omega
  · rw [sealBox_unfold P pub _ m.length (by omega), he, hcc]
    rw [Act.bind_ok (show (Act.ofRes (.ok edpub) : Act Tape (Arr 32)) ⟨m, [], []⟩ = (.ok edpub, ⟨m, [], []⟩) from rfl),
      Act.bind_ok (Act.pure_apply epriv _)]
    generalize hh : headerOf P (P.precompute edpub epriv) (P.x25519Base epriv) ((m.length + 16384) / 16385) = hdr at h3 ⊢
    rw [Act.bind_ok (show Tape.write hdr ⟨m, [], []⟩ = (.ok hdr.length, ⟨m, [], hdr⟩) from rfl), h3, sealedStream, h1, hh]
    simp

/-- Such a reader is not excluded by anything `seal` may assume of an `io.Reader`. -/
example : Observed drip Tape.write Tape.log Tape.out where
  read := fun _ h => tape_observed.read (by decide) h
  readFail := fun _ h => tape_observed.readFail (by decide) h
  write := tape_observed.write
  writeFail := tape_observed.writeFail

/-! ### C47 -/

/-- C47: what follows a full-size last chunk has no effect: the run succeeds with the same output whatever `t` is, and `t` is
left unread. -/
theorem C47_full_last {S : Bytes → Bytes → σ → Prop} (hs : DataSource rd w S) (P : Prims) {toBox : Act σ (Arr 32)}
    {edpriv epub : Arr 32} (ps : List Bytes) (t : Bytes) {d : Bytes} {s s1 : σ} (ht : toBox s = (.ok edpriv, s1))
    (hn : ps.length < 2 ^ 64) (hf : ∀ p ∈ ps, p.length = 16385)
    (hS : S (sealedStream P (P.precompute epub edpriv) epub ps ++ t) d s1) :
    ∃ s', openBox P toBox rd w s = (.ok (), s') ∧ S t (d ++ ps.flatten) s' := by
  refine openBox_run hs P ps ht hn hS ?_
  induction ps with
  | nil => trivial
  | cons p ps ih =>
    refine .inl ⟨hf p (by simp), ?_⟩
    clear hS hn ih
    induction ps with
    | nil => trivial
    | cons q qs ih => exact .inl ⟨hf q (by simp), ih fun x hx => hf x (by
        rcases List.mem_cons.mp hx with rfl | h
        · simp
        · simp [h])⟩

/-- C47: when the last chunk is shorter and `t` follows, `open` takes the chunk to extend into `t` (up to 16401 bytes); it
succeeds if and only if the extended chunk is itself the sealing of some text, which is then written. -/
theorem C47_short_last {S : Bytes → Bytes → σ → Prop} (hs : DataSource rd w S) (P : Prims) {toBox : Act σ (Arr 32)}
    {edpriv epub : Arr 32} (qs : List Bytes) (last t : Bytes) {d : Bytes} {s s1 : σ} (ht : toBox s = (.ok edpriv, s1))
    (hn : qs.length + 1 < 2 ^ 64) (hf : ∀ p ∈ qs, p.length = 16385)
    (hS : S (sealedStream P (P.precompute epub edpriv) epub (qs ++ [last]) ++ t) d s1) :
    let sh := P.precompute epub edpriv
    let c := (P.boxSeal sh (nonceOf qs.length) last ++ t).take 16401
    (∀ m, c = P.boxSeal sh (nonceOf qs.length) m → ∃ s', openBox P toBox rd w s = (.ok (), s') ∧
      S ((P.boxSeal sh (nonceOf qs.length) last ++ t).drop 16401) (d ++ qs.flatten ++ m) s') ∧
    ((∀ m, c ≠ P.boxSeal sh (nonceOf qs.length) m) → ∃ s', openBox P toBox rd w s = (.err (.chunkDecrypt qs.length), s') ∧
      S ((P.boxSeal sh (nonceOf qs.length) last ++ t).drop 16401) (d ++ qs.flatten) s') := by
  simp only
  have hS' : S (headerOf P (P.precompute epub edpriv) epub (qs.length + 1) ++
      (sealedFrom P (P.precompute epub edpriv) 0 qs).flatten ++
      (P.boxSeal (P.precompute epub edpriv) (nonceOf qs.length) last ++ t)) d s1 := by
    rw [sealedStream, sealedFrom_append, Nat.zero_add] at hS
    simpa [sealedFrom, List.append_assoc] using hS
  generalize hu : P.boxSeal (P.precompute epub edpriv) (nonceOf qs.length) last ++ t = u at hS' ⊢
  constructor
  · intro m hm
    have hsplit : u = P.boxSeal (P.precompute epub edpriv) (nonceOf qs.length) m ++ u.drop 16401 := by
      rw [← hm, List.take_append_drop]
    have hlen := congrArg List.length hm
    rw [P.boxSeal_length, List.length_take] at hlen
    have := openBox_run (t := u.drop 16401) (d := d) (epub := epub) hs P (qs ++ [m]) ht (by simpa using hn) (by
      rw [sealedStream, sealedFrom_append, Nat.zero_add]
      rw [hsplit] at hS'
      simpa [sealedFrom, List.append_assoc] using hS') (framed_full hf (by
        rcases Nat.lt_or_ge u.length 16401 with h | h
        · exact .inr ⟨by omega, List.drop_of_length_le (by omega)⟩
        · exact .inl (by omega)))
    simpa [List.append_assoc] using this
  · intro hbad
    exact C39_reject (more := 0) hs P qs ht hn hS' hf hbad

/-- C47 in a concrete run: one byte after a short last chunk. -/
example :
    let k : Arr 32 := copyZ 32 b!"k"
    let e : Arr 32 := copyZ 32 b!"e"
    let m := sealedStream toy (toy.precompute e k) e [b!"hi"]
    (openBox toy (fun s => (.ok k, s)) Tape.read Tape.write ⟨m ++ [7], [], []⟩).1 = .err (.chunkDecrypt 0) := by
  decide +kernel

end Verif.Props
