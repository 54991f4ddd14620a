/-
Opening a sealed stream that ends early: what is known whenever `Open` returns nil, under every schedule.
-/
import Verif.Lemmas.OpenFile
import Verif.Lemmas.Truncate
import Verif.Spec.Truncated

namespace Verif
open Spec World B64

variable {σ : Type}

/-- `S m d s`: in state `s` the source can still deliver `m`, and `d` has been written. A read of a multiple of three bytes that
succeeds returns as much as there is. -/
structure PartSource (rd : Reader σ) (w : Writer σ) (S : Bytes → Bytes → σ → Prop) : Prop where
  read : ∀ {m d s n got s'}, S m d s → 3 ∣ n → rd n s = (.ok got, s') → got = m.take n ∧ S (m.drop n) d s'
  write : ∀ {m d s bs k s'}, S m d s → w bs s = (.ok k, s') → S m (d ++ bs) s'

variable {rd : Reader σ} {w : Writer σ} {S : Bytes → Bytes → σ → Prop}

theorem Act.bind_inv {α β : Type} {a : Act σ α} {f : α → Act σ β} {s s' : σ} {x : β} (h : (a >>= f) s = (.ok x, s')) :
    ∃ y s1, a s = (.ok y, s1) ∧ f y s1 = (.ok x, s') := by
  rw [Act.bind_eq] at h
  rcases ha : a s with ⟨r, s1⟩
  rw [ha] at h
  cases r with
  | ok y => exact ⟨y, s1, rfl, h⟩
  | err e => simp at h
  | panic => simp at h
  | crash => simp at h
  | hang => simp at h

theorem openLoop_part (hs : PartSource rd w S) (P : Prims) (sh : Arr 32) (n k i : Nat) {m d : Bytes} {s s' : σ}
    (hi : i + n < 256 ^ 24) (hS : S m d s) (h : openLoop P sh rd w n k (nonceOf i) s = (.ok (), s')) :
    ∃ qs : List Bytes, qs.length = n ∧
      (∀ j (hj : j < qs.length), (m.drop (16401 * j)).take 16401 = P.boxSeal sh (nonceOf (i + j)) qs[j]) ∧
      S (m.drop (16401 * n)) (d ++ qs.flatten) s' := by
  induction n generalizing k i m d s with
  | zero =>
    simp only [openLoop, Act.pure_apply, Prod.mk.injEq, true_and] at h
    subst h
    exact ⟨[], rfl, by simp, by simpa using hS⟩
  | succ n ih =>
    unfold openLoop at h
    obtain ⟨chunk, s1, h1, h2⟩ := Act.bind_inv h
    obtain ⟨rfl, hS1⟩ := hs.read hS (by decide) h1
    cases hb : P.boxOpen sh (nonceOf i) (m.take sealedChunkSize) with
    | none => rw [hb] at h2; simp [Act.fail] at h2
    | some q =>
      rw [hb] at h2
      simp only at h2
      obtain ⟨c, s2, h3, h4⟩ := Act.bind_inv h2
      have hS2 := hs.write hS1 h3
      obtain ⟨nc, s3, h5, h6⟩ := Act.bind_inv h4
      rw [Act.ofRes_apply, incrementNonce_ok (by omega)] at h5
      simp only [Prod.mk.injEq, Res.ok.injEq] at h5
      obtain ⟨rfl, rfl⟩ := h5
      obtain ⟨qs, a1, a2, a3⟩ := ih (k + 1) (i + 1) (by omega) hS2 h6
      refine ⟨q :: qs, by simp [a1], ?_, ?_⟩
      · intro j hj
        cases j with
        | zero => exact P.boxOpen_some hb
        | succ j =>
          have := a2 j (by simpa using hj)
          rw [List.drop_drop] at this
          rw [show 16401 * (j + 1) = sealedChunkSize + 16401 * j by rw [show sealedChunkSize = 16401 from rfl]; omega, this,
            show i + 1 + j = i + (j + 1) by omega]
          rfl
      · rw [List.drop_drop] at a3
        rw [show 16401 * (n + 1) = sealedChunkSize + 16401 * n by rw [show sealedChunkSize = 16401 from rfl]; omega]
        simpa using a3

theorem openBox_part (hs : PartSource rd w S) (P : Prims) {toBox : Act σ (Arr 32)} {m d : Bytes} {s s1 s' : σ} {r : Res (Arr 32)}
    (ht : toBox s = (r, s1)) (hS : S m d s1) (h : openBox P toBox rd w s = (.ok (), s')) :
    ∃ edpriv, ∃ qs : List Bytes, r = .ok edpriv ∧ 72 ≤ m.length ∧ qs.length = beVal (m.take 8) ∧
      (∀ j (hj : j < qs.length), ((m.drop 72).drop (16401 * j)).take 16401 =
        P.boxSeal (P.precompute (copyZ 32 ((m.take 72).drop 8)) edpriv) (nonceOf j) qs[j]) ∧
      ∃ m', S m' (d ++ qs.flatten) s' := by
  unfold openBox at h
  obtain ⟨edpriv, s2, h1, h2⟩ := Act.bind_inv h
  rw [ht] at h1
  simp only [Prod.mk.injEq] at h1
  obtain ⟨rfl, rfl⟩ := h1
  obtain ⟨header, s3, h3, h4⟩ := Act.bind_inv h2
  obtain ⟨rfl, hS3⟩ := hs.read hS (by decide) h3
  simp only at h4
  split at h4
  · simp [Act.fail] at h4
  · rename_i hl
    have hl' : (m.take headerSize).length = 72 := Classical.byContradiction hl
    split at h4
    · simp [Act.fail] at h4
    · have hlen : 72 ≤ m.length := by
        rw [List.length_take, show headerSize = 72 from rfl] at hl'
        omega
      have h8 : (m.take headerSize).take 8 = m.take 8 := by
        rw [List.take_take]; rfl
      rw [h8, nonceOf_zero.symm] at h4
      have hb := beVal_lt (m.take 8)
      have hm8 : (m.take 8).length = 8 := by rw [List.length_take]; omega
      rw [hm8] at hb
      obtain ⟨qs, a1, a2, a3⟩ := openLoop_part hs P _ _ _ 0 (by
        have : (256 : Nat) ^ 8 < 256 ^ 24 := by decide
        omega) hS3 h4
      refine ⟨edpriv, qs, rfl, hlen, a1, ?_, _, a3⟩
      intro j hj
      have := a2 j hj
      rw [Nat.zero_add] at this
      exact this

theorem boxSeal_prefix {P : Prims} {sh : Arr 32} {i : Nat} {p q : Bytes} (h : P.boxSeal sh (nonceOf i) q <+: P.boxSeal sh (nonceOf i) p) :
    q = p ∨ TagCollides P sh i p := by
  have hl := h.length_le
  rw [P.boxSeal_length, P.boxSeal_length] at hl
  by_cases he : q.length = p.length
  · exact .inl (P.boxSeal_inj (h.eq_of_length (by rw [P.boxSeal_length, P.boxSeal_length, he])))
  · refine .inr ⟨q.length, by omega, ?_⟩
    simp only [Prims.boxSeal] at h
    obtain ⟨t, ht⟩ := h
    rw [List.append_assoc] at ht
    obtain ⟨h1, h2⟩ := List.append_inj ht (by simp)
    have h3 : (P.xorStream sh (nonceOf i) p).take q.length = P.xorStream sh (nonceOf i) q := by
      rw [← h2, List.take_left' (P.xorStream_length ..)]
    rw [h3]
    exact (Vector.toList_inj.mp h1)

theorem chunks_match (P : Prims) (sh : Arr 32) (i : Nat) (ps qs : List Bytes) (X : Bytes) (hf : Framed ps [])
    (hX : X <+: (sealedFrom P sh i ps).flatten) (hlen : qs.length = ps.length)
    (hq : ∀ j (hj : j < qs.length), (X.drop (16401 * j)).take 16401 = P.boxSeal sh (nonceOf (i + j)) qs[j]) :
    qs = ps ∨ ∃ init p, ps = init ++ [p] ∧ TagCollides P sh (i + init.length) p := by
  induction ps generalizing qs X i with
  | nil => exact .inl (List.eq_nil_of_length_eq_zero (by simpa using hlen))
  | cons p ps ih =>
    cases qs with
    | nil => simp at hlen
    | cons q qs =>
      have h0 := hq 0 (by simp)
      simp only [Nat.mul_zero, List.drop_zero, Nat.add_zero, List.getElem_cons_zero] at h0
      simp only [sealedFrom, List.flatten_cons] at hX
      cases ps with
      | nil =>
        have hqs : qs = [] := List.eq_nil_of_length_eq_zero (by simpa using hlen)
        subst hqs
        simp only [sealedFrom, List.flatten_nil, List.append_nil] at hX
        rcases boxSeal_prefix (p := p) (q := q) (P := P) (sh := sh) (i := i) (by rw [← h0]; exact (List.take_prefix _ _).trans hX) with h | h
        · exact .inl (by rw [h])
        · exact .inr ⟨[], p, rfl, h⟩
      | cons p' ps =>
        have hp : p.length = 16385 := by
          rcases hf with ⟨h, -⟩ | ⟨-, h, -⟩
          · exact h
          · simp at h
        have hf' : Framed (p' :: ps) [] := by
          rcases hf with ⟨-, h⟩ | ⟨-, h, -⟩
          · exact h
          · simp at h
        cases qs with
        | nil => simp at hlen
        | cons q' qs =>
          have h1 := hq 1 (by simp)
          have hXl : 16401 < X.length := by
            have := congrArg List.length h1
            rw [P.boxSeal_length, List.length_take, List.length_drop] at this
            omega
          have hbl : (P.boxSeal sh (nonceOf i) p).length = 16401 := by rw [P.boxSeal_length, hp]
          obtain ⟨t, ht⟩ := hX
          have e1 : X.take 16401 = P.boxSeal sh (nonceOf i) p := by
            have := congrArg (List.take 16401) ht
            rw [List.take_append_of_le_length (by omega), List.take_left' hbl] at this
            exact this
          have e2 : X.drop 16401 ++ t = (sealedFrom P sh (i + 1) (p' :: ps)).flatten := by
            have := congrArg (List.drop 16401) ht
            rw [List.drop_append_of_le_length (by omega), List.drop_left' hbl] at this
            exact this
          have hpq : q = p := P.boxSeal_inj (by rw [← h0, e1])
          subst hpq
          rcases ih (i + 1) (q' :: qs) (X.drop 16401) hf' ⟨t, e2⟩ (by simpa using hlen) (fun j hj => by
            have := hq (j + 1) (by simpa using hj)
            rw [List.drop_drop, show 16401 + 16401 * j = 16401 * (j + 1) by omega, this, show i + 1 + j = i + (j + 1) by omega]
            rfl) with h | ⟨init, p, h, hc⟩
          · exact .inl (by rw [h])
          · exact .inr ⟨q :: init, p, by rw [h]; rfl, by
              rw [List.length_cons, show i + (init.length + 1) = i + 1 + init.length by omega]; exact hc⟩

/-- The characters `X` are a beginning of an encoding; `m` is what can be decoded from it. -/
def CutOf (X m : Bytes) : Prop :=
  ∃ D k, X = (encode D).take k ∧ m = if k < (encode D).length then D.take (k / 4 * 3) else D

theorem CutOf.nil : CutOf [] [] := ⟨[], 0, rfl, rfl⟩

/-- Decoding a proper beginning of an encoding, into a buffer that is large enough. -/
theorem decode_take_ok (cap : Nat) (d : Bytes) (n : Nat) (hn : n < (encode d).length) (hcap : n / 4 * 3 ≤ cap) {got : Bytes}
    (h : decode cap ((encode d).take n) = .ok got) : n % 4 = 0 ∧ got = d.take (n / 4 * 3) := by
  have hlen := encode_length d
  rw [encodedLen] at hlen
  have h3 : n / 4 * 3 < d.length := by omega
  have hl3 : (d.take (n / 4 * 3)).length = n / 4 * 3 := by rw [List.length_take]; omega
  have hsplit : encode d = encode (d.take (n / 4 * 3)) ++ encode (d.drop (n / 4 * 3)) := by
    rw [← encode_append _ _ (by rw [hl3]; exact Nat.dvd_mul_left ..), List.take_append_drop]
  have hl1 : (encode (d.take (n / 4 * 3))).length = n / 4 * 4 := by
    rw [encode_length, encodedLen, hl3]; omega
  have hl2 : 4 ≤ (encode (d.drop (n / 4 * 3))).length := by
    rw [encode_length, encodedLen, List.length_drop]; omega
  have htake : (encode d).take n = encode (d.take (n / 4 * 3)) ++ (encode (d.drop (n / 4 * 3))).take (n % 4) := by
    rw [hsplit, List.take_append, hl1, List.take_of_length_le (by rw [hl1]; omega)]
    congr 2
    omega
  by_cases h0 : n % 4 = 0
  · rw [htake, h0, List.take_zero, List.append_nil, decode_encode _ _ (by rw [hl3]; exact hcap)] at h
    exact ⟨h0, (Dec.ok.inj h).symm⟩
  · rw [htake, decode, decodeLoop_append _ _ _ _ (by rw [hl3]; exact Nat.dvd_mul_left ..) (by rw [hl3]; simpa using hcap),
      decodeLoop_corrupt _ _ _ (quantum_cut _ _ (by omega) (by omega) (by omega))] at h
    cases h

theorem CutOf.read {Y Z m got : Bytes} {n : Nat} (h3 : 3 ∣ n) (h : CutOf (Y ++ Z) m) (hY : Y.length ≤ encodedLen n)
    (hor : Y.length = encodedLen n ∨ Z = []) (hd : decode n Y = .ok got) : got = m.take n ∧ CutOf Z (m.drop n) := by
  obtain ⟨D, k, hX, hm⟩ := h
  obtain ⟨a, rfl⟩ := h3
  have hen : encodedLen (3 * a) = 4 * a := by rw [encodedLen]; omega
  rw [hen] at hY hor
  have hDl := encode_length D
  rw [encodedLen] at hDl
  have hXl := congrArg List.length hX
  rw [List.length_append, List.length_take] at hXl
  obtain ⟨e1, e2⟩ := encode_take D (3 * a) ⟨a, rfl⟩
  rw [hen] at e1 e2
  by_cases hfull : Y.length = 4 * a
  · have hk : 4 * a ≤ k := by omega
    have hY' : Y = encode (D.take (3 * a)) := by
      have := congrArg (List.take (4 * a)) hX
      rw [List.take_left' hfull, List.take_take, Nat.min_eq_left hk, e1] at this
      exact this
    have hZ : Z = (encode (D.drop (3 * a))).take (k - 4 * a) := by
      have := congrArg (List.drop (4 * a)) hX
      rw [List.drop_left' hfull, List.drop_take, e2] at this
      exact this
    rw [hY', decode_encode _ _ (by rw [List.length_take]; omega)] at hd
    obtain rfl := Dec.ok.inj hd
    have hdl := congrArg List.length e2
    rw [List.length_drop] at hdl
    refine ⟨?_, D.drop (3 * a), k - 4 * a, hZ, ?_⟩
    · rw [hm]
      split
      · rw [List.take_take, Nat.min_eq_left (by omega)]
      · rfl
    · rw [hm]
      by_cases hlt : k < (encode D).length
      · rw [if_pos hlt, if_pos (by omega), List.drop_take]
        congr 1
        omega
      · rw [if_neg hlt, if_neg (by omega)]
  · obtain rfl : Z = [] := by
      rcases hor with h | h
      · exact absurd h hfull
      · exact h
    rw [List.append_nil] at hX
    simp only [List.length_nil, Nat.add_zero] at hXl
    by_cases hlt : k < (encode D).length
    · rw [if_pos hlt] at hm
      rw [hX] at hd
      obtain ⟨h0, rfl⟩ := decode_take_ok _ D k hlt (by omega) hd
      have hl : (D.take (k / 4 * 3)).length ≤ 3 * a := by rw [List.length_take]; omega
      rw [hm, List.take_of_length_le hl, List.drop_of_length_le hl]
      exact ⟨rfl, .nil⟩
    · rw [if_neg hlt] at hm
      rw [hX, List.take_of_length_le (by omega), decode_encode _ _ (by omega)] at hd
      obtain rfl := Dec.ok.inj hd
      rw [hm, List.take_of_length_le (by omega), List.drop_of_length_le (by omega)]
      exact ⟨rfl, .nil⟩

/-- The decoder over a file whose text is cut. -/
theorem openPart {w0 : World} {ep mp : Path} {mode hE hM : Nat} (hne : hE ≠ hM) (hpath : ep ≠ mp) (hfe : ∃ fe, w0.fs ep = some fe) (fuel : Nat) :
    PartSource (fun n => Act.onSnd (decRead fuel (readHandle hE) n)) (fun bs => Act.onSnd (writeHandle hM bs))
      (fun m d (s : Private × World) => Opening w0 ep mp mode hE hM d s.2 ∧ CutOf (stripNL (remaining hE s.2)) m) := by
  refine ⟨?_, ?_⟩
  · rintro m d ⟨k, w⟩ n got ⟨k', w'⟩ ⟨hO, hC⟩ h3 hr
    rw [Act.onSnd_apply] at hr
    obtain ⟨r, w1, t, h1, h2, h4, h5, -⟩ := decReadLoop_on (opening_bytewise hne hfe d) (encodedLen n) fuel 0 [] w hO (by simp)
    unfold decRead at hr
    rw [Act.bind_eq, h1] at hr
    cases r with
    | err e => simp at hr
    | panic => simp at hr
    | crash => simp at hr
    | hang => simp at hr
    | ok buf =>
      obtain ⟨rfl, hle, hor⟩ := h5 buf rfl
      rw [List.nil_append] at hr hle hor
      simp only at hC hr
      rw [h4, stripNL_append] at hC
      cases hd : decode n (stripNL t) with
      | corrupt => rw [hd] at hr; simp [Act.fail] at hr
      | panic => rw [hd] at hr; simp at hr
      | ok out =>
        rw [hd] at hr
        simp only [Act.pure_apply, Prod.mk.injEq, Res.ok.injEq] at hr
        obtain ⟨rfl, rfl, rfl⟩ := hr
        obtain ⟨c1, c2⟩ := hC.read h3 hle (hor.imp id fun h => by rw [h]; rfl) hd
        exact ⟨c1, h2, c2⟩
  · rintro m d ⟨k, w⟩ bs n ⟨k', w'⟩ ⟨hO, hC⟩ hr
    obtain ⟨j, r, w1, h1, h2, h3, -, h5⟩ := opening_write hne hO bs
    rw [Act.onSnd_apply, h1] at hr
    simp only [Prod.mk.injEq] at hr
    obtain ⟨rfl, rfl, rfl⟩ := hr
    rw [h3 ⟨_, rfl⟩] at h2
    exact ⟨h2, by simp only; rw [h5 hpath]; exact hC⟩

/-- `Open` of a file that holds a beginning of the encoding of a sealed stream for its key. -/
theorem Open_part (P : Prims) (fuel : Nat) (kp ep mp : Path) (w : World) {fe : File} {first text : Bytes} {sh epub : Arr 32}
    {ps : List Bytes} (hfe : w.fs ep = some fe) (hdata : fe.data = first ++ 10 :: text) (hno : 10 ∉ first)
    (hcut : stripNL text <+: encode (sealedStream P sh epub ps)) (hf : Framed ps []) (hn : ps.length < 2 ^ 64)
    (hkey : ∀ fk priv edpriv, w.fs kp = some fk → readPrivateKeyFile fk.data = .ok priv → BoxUsable P w.tty priv edpriv →
      P.precompute epub edpriv = sh)
    (hok : (Open P fuel kp ep mp w).1 = .ok ()) :
    (Open P fuel kp ep mp w).2.fs mp = some ⟨ps.flatten, (w.truncated mp 0o666).mode⟩ ∨
      ∃ init p, ps = init ++ [p] ∧ TagCollides P sh init.length p := by
  rcases Open_start P fuel kp ep mp w with ⟨-, h2, -⟩ | ⟨priv, hE, hM, first', text', w', hR, he⟩
  · exact absurd hok h2
  · rw [he] at hok ⊢
    obtain ⟨fk, hfk, hpriv⟩ := hR.key
    obtain ⟨fe', hfe', hdata'⟩ := hR.file
    rw [hfe] at hfe'; obtain rfl := Option.some.inj hfe'
    obtain ⟨rfl, rfl⟩ := firstLine_unique hno hR.noNL (by rw [← hdata, hdata'])
    by_cases hpath : ep = mp
    · exact absurd hok (openTail_empty P fuel priv hR.ne ⟨fe, hfe⟩ hR.opening (by rw [hR.same hpath]; rfl)).1
    · have hs := openPart (mode := (w.truncated mp 0o666).mode) hR.ne hpath ⟨fe, hfe⟩ fuel
      obtain ⟨hO1, hr1⟩ := hR.opening.toBox P (priv := priv)
      have hkey' : ∀ k, (Private.toBox P (priv, w')).1 = .ok k → BoxUsable P w.tty priv k := by
        intro k hk
        rw [toBox_ok_iff, hR.tty] at hk; exact hk
      rcases htb : Private.toBox P (priv, w') with ⟨r1, k1, w1⟩
      rw [htb] at hO1 hr1 hkey'
      simp only at hO1 hr1 hkey'
      obtain ⟨st, hst⟩ : ∃ st, st = sealedStream P sh epub ps := ⟨_, rfl⟩
      rw [← hst] at hcut
      -- what can be decoded
      obtain ⟨m, hC, hm⟩ : ∃ m, CutOf (stripNL text) m ∧ m <+: st := by
        refine ⟨_, ⟨st, (stripNL text).length, List.prefix_iff_eq_take.mp hcut, rfl⟩, ?_⟩
        split
        · exact List.take_prefix _ _
        · exact List.prefix_refl _
      unfold openTail at hok ⊢
      rcases hr : openBox P (Private.toBox P) (fun n => Act.onSnd (decRead fuel (World.readHandle hE) n))
        (fun bs => Act.onSnd (World.writeHandle hM bs)) (priv, w') with ⟨r, k, w''⟩
      rw [hr] at hok
      simp only at hok
      subst hok
      obtain ⟨edpriv, qs, rfl, b2, b3, b4, m', b5, -⟩ := openBox_part hs P (m := m) (d := []) htb
        ⟨hO1, by simp only; rw [hr1, hR.rest hpath]; exact hC⟩ hr
      have hsh := hkey fk priv edpriv hfk hpriv (hkey' _ rfl)
      obtain ⟨t, ht⟩ := hm
      rw [hst, sealedStream] at ht
      have hl := headerOf_length P sh epub ps.length
      have e1 : m.take 72 = headerOf P sh epub ps.length := by
        have := congrArg (List.take 72) ht
        rw [List.take_append_of_le_length b2, List.take_left' hl] at this
        exact this
      have e2 : m.drop 72 <+: (sealedFrom P sh 0 ps).flatten := by
        have := congrArg (List.drop 72) ht
        rw [List.drop_append_of_le_length b2, List.drop_left' hl] at this
        exact ⟨t, this⟩
      have e3 : beVal (m.take 8) = ps.length := by
        rw [show m.take 8 = (m.take 72).take 8 by rw [List.take_take]; rfl, e1, headerOf_take8, beVal_bigEndian]
        exact Nat.mod_eq_of_lt hn
      rw [e1, headerOf_drop8, copyZ_append, hsh] at b4
      rw [e3] at b3
      rcases chunks_match P sh 0 ps qs (m.drop 72) hf e2 b3 (fun j hj => by rw [Nat.zero_add]; exact b4 j hj) with h | ⟨init, p, h, hc⟩
      · left
        show w''.fs mp = _
        rw [b5.dest.fs, setFile_self, h]; rfl
      · exact .inr ⟨init, p, h, by rw [Nat.zero_add] at hc; exact hc⟩

end Verif
