/-
The standard library's base64 as modelled agrees with the specification; decoding inverts encoding.
-/
import Verif.Model.StdBase64
import Verif.Spec.Base64

namespace Verif
open B64

theorem encChar_eq (v : Nat) (h : v < 64) : encChar v = Spec.alphabet.getD v 0 := by
  have : ∀ i : Fin 64, encChar i.val = Spec.alphabet.getD i.val 0 := by decide +kernel
  exact this ⟨v, h⟩

theorem decChar_encChar (v : Nat) (h : v < 64) : decChar (encChar v) = some v := by
  have : ∀ i : Fin 64, decChar (encChar i.val) = some i.val := by decide +kernel
  exact this ⟨v, h⟩

theorem isNL_encChar (v : Nat) (h : v < 64) : isNL (encChar v) = false := by
  have : ∀ i : Fin 64, isNL (encChar i.val) = false := by decide +kernel
  exact this ⟨v, h⟩

theorem sextets_cons6 (a b c d e f : Bool) (l : List Bool) :
    Spec.sextets (a :: b :: c :: d :: e :: f :: l) = Spec.bitsVal [a, b, c, d, e, f] :: Spec.sextets l := by
  rw [Spec.sextets]; simp

theorem byteBits_eq (b : UInt8) : Spec.byteBits b =
    [b.toNat.testBit 7, b.toNat.testBit 6, b.toNat.testBit 5, b.toNat.testBit 4,
     b.toNat.testBit 3, b.toNat.testBit 2, b.toNat.testBit 1, b.toNat.testBit 0] := by
  rfl

theorem bits_cons (b : UInt8) (bs : Bytes) : Spec.bits (b :: bs) = Spec.byteBits b ++ Spec.bits bs := rfl

theorem bitsVal6 (a b c d e f : Bool) : Spec.bitsVal [a, b, c, d, e, f] =
    32 * a.toNat + 16 * b.toNat + 8 * c.toNat + 4 * d.toNat + 2 * e.toNat + f.toNat := by
  simp only [Spec.bitsVal, List.foldl]; omega

theorem sextets_group (a b c : UInt8) (l : List Bool) :
    Spec.sextets (Spec.byteBits a ++ (Spec.byteBits b ++ (Spec.byteBits c ++ l))) =
      let v := a.toNat * 65536 + b.toNat * 256 + c.toNat
      (v / 2^18 % 64) :: (v / 2^12 % 64) :: (v / 2^6 % 64) :: (v % 64) :: Spec.sextets l := by
  have ha := a.toNat_lt; have hb := b.toNat_lt; have hc := c.toNat_lt
  simp only [byteBits_eq, List.cons_append, List.nil_append, sextets_cons6, bitsVal6, Nat.toNat_testBit]
  congr 1
  · omega
  congr 1
  · omega
  congr 1
  · omega
  congr 1
  · omega

theorem sextets_one (a : UInt8) : Spec.sextets (Spec.byteBits a) =
    [a.toNat * 65536 / 2^18 % 64, a.toNat * 65536 / 2^12 % 64] := by
  have ha := a.toNat_lt
  simp only [byteBits_eq, sextets_cons6]
  rw [Spec.sextets, Spec.sextets]
  simp only [List.take, List.length, List.replicate, List.drop, reduceCtorEq, ↓reduceIte, List.cons_append,
    List.nil_append, bitsVal6, Nat.toNat_testBit, Bool.toNat_false]
  congr 1
  · omega
  congr 1
  · omega

theorem sextets_two (a b : UInt8) : Spec.sextets (Spec.byteBits a ++ Spec.byteBits b) =
    let v := a.toNat * 65536 + b.toNat * 256
    [v / 2^18 % 64, v / 2^12 % 64, v / 2^6 % 64] := by
  have ha := a.toNat_lt; have hb := b.toNat_lt
  simp only [byteBits_eq, List.cons_append, List.nil_append, sextets_cons6]
  rw [Spec.sextets, Spec.sextets]
  simp only [List.take, List.length, List.replicate, List.drop, reduceCtorEq, ↓reduceIte, List.cons_append,
    List.nil_append, bitsVal6, Nat.toNat_testBit, Bool.toNat_false]
  congr 1
  · omega
  congr 1
  · omega
  congr 1
  · omega

theorem sextets_nil : Spec.sextets [] = [] := by rw [Spec.sextets]; simp

/-- The library's encoding is RFC 4648 base64. -/
theorem encode_eq_base64 (bs : Bytes) : encode bs = Spec.base64 bs := by
  induction bs using encode.induct with
  | case1 => simp [encode, Spec.base64, Spec.bits, sextets_nil]
  | case2 a =>
    simp only [encode, Spec.base64, Spec.bits, List.flatMap_cons, List.flatMap_nil, List.append_nil, sextets_one, List.map]
    rw [← encChar_eq _ (Nat.mod_lt _ (by decide)), ← encChar_eq _ (Nat.mod_lt _ (by decide))]
    rfl
  | case3 a b =>
    simp only [encode, Spec.base64, Spec.bits, List.flatMap_cons, List.flatMap_nil, List.append_nil, sextets_two, List.map]
    rw [← encChar_eq _ (Nat.mod_lt _ (by decide)), ← encChar_eq _ (Nat.mod_lt _ (by decide)),
      ← encChar_eq _ (Nat.mod_lt _ (by decide))]
    rfl
  | case4 a b c rest ih =>
    rw [encode, ih]
    simp only [Spec.base64, Spec.bits, List.flatMap_cons, sextets_group, List.map, encGroup, List.length_cons,
      List.cons_append, List.nil_append]
    rw [← encChar_eq _ (Nat.mod_lt _ (by decide)), ← encChar_eq _ (Nat.mod_lt _ (by decide)),
      ← encChar_eq _ (Nat.mod_lt _ (by decide)), ← encChar_eq _ (Nat.mod_lt _ (by decide))]
    simp only [Nat.add_assoc, Nat.add_mod_right]

theorem encode_length (bs : Bytes) : (encode bs).length = encodedLen bs.length := by
  induction bs using encode.induct with
  | case1 => rfl
  | case2 a => simp [encode, encodedLen]
  | case3 a b => simp [encode, encodedLen]
  | case4 a b c rest ih =>
    simp only [encode, encGroup, List.length_append, List.length_cons, List.length_nil, ih, encodedLen]; omega

theorem encode_append (x y : Bytes) (h : 3 ∣ x.length) : encode (x ++ y) = encode x ++ encode y := by
  induction x using encode.induct with
  | case1 => rfl
  | case2 a => simp at h
  | case3 a b => simp at h
  | case4 a b c rest ih =>
    simp only [List.cons_append, encode, List.append_assoc]
    rw [ih]
    simp only [List.length_cons] at h; omega

theorem encode_no_nl (bs : Bytes) : ∀ c ∈ encode bs, isNL c = false := by
  induction bs using encode.induct with
  | case1 => simp [encode]
  | case2 a =>
    intro c hc
    simp only [encode, List.mem_cons, List.not_mem_nil, or_false] at hc
    rcases hc with h | h | h | h <;> subst h
    · exact isNL_encChar _ (Nat.mod_lt _ (by decide))
    · exact isNL_encChar _ (Nat.mod_lt _ (by decide))
    · rfl
    · rfl
  | case3 a b =>
    intro c hc
    simp only [encode, List.mem_cons, List.not_mem_nil, or_false] at hc
    rcases hc with h | h | h | h <;> subst h
    · exact isNL_encChar _ (Nat.mod_lt _ (by decide))
    · exact isNL_encChar _ (Nat.mod_lt _ (by decide))
    · exact isNL_encChar _ (Nat.mod_lt _ (by decide))
    · rfl
  | case4 a b c rest ih =>
    intro x hx
    simp only [encode, encGroup, List.mem_append, List.mem_cons, List.not_mem_nil, or_false] at hx
    rcases hx with (h | h | h | h) | h
    · subst h; exact isNL_encChar _ (Nat.mod_lt _ (by decide))
    · subst h; exact isNL_encChar _ (Nat.mod_lt _ (by decide))
    · subst h; exact isNL_encChar _ (Nat.mod_lt _ (by decide))
    · subst h; exact isNL_encChar _ (Nat.mod_lt _ (by decide))
    · exact ih x h

theorem isNL_ten : isNL 10 = true := rfl

theorem encode_ne_nl (bs : Bytes) : ∀ c ∈ encode bs, c ≠ 10 := by
  intro c hc h; subst h; have := encode_no_nl bs _ hc; rw [isNL_ten] at this; exact Bool.noConfusion this

theorem toUInt8_eq_of_mod {n : Nat} {a : UInt8} (h : n % 256 = a.toNat) : n.toUInt8 = a := by
  apply UInt8.toNat_inj.mp; simpa using h

theorem groupBytes_eq (a b c : UInt8) :
    let v := a.toNat * 65536 + b.toNat * 256 + c.toNat
    groupBytes (v / 2^18 % 64) (v / 2^12 % 64) (v / 2^6 % 64) (v % 64) = [a, b, c] := by
  have ha := a.toNat_lt; have hb := b.toNat_lt; have hc := c.toNat_lt
  simp only [groupBytes, List.cons.injEq, and_true]
  refine ⟨toUInt8_eq_of_mod ?_, toUInt8_eq_of_mod ?_, toUInt8_eq_of_mod ?_⟩ <;> omega

theorem padChar_dec : decChar padChar = none := rfl

theorem quantum_group (a b c : UInt8) (rest : Bytes) :
    quantum [] (encGroup a b c ++ rest) = .full [a, b, c] rest := by
  have hm : ∀ n : Nat, n % 64 < 64 := fun n => Nat.mod_lt _ (by decide)
  simp only [encGroup, List.cons_append, List.nil_append, quantum, decChar_encChar _ (hm _)]
  exact congrArg (fun x => Quantum.full x rest) (groupBytes_eq a b c)

theorem quantum_two (a b : UInt8) : quantum [] (encode [a, b]) = .last [a, b] false := by
  have hm : ∀ n : Nat, n % 64 < 64 := fun n => Nat.mod_lt _ (by decide)
  have ha := a.toNat_lt; have hb := b.toNat_lt
  have h := groupBytes_eq a b 0
  simp only [encode, quantum, List.nil_append, List.cons_append, decChar_encChar _ (hm _), padChar_dec]
  simp only [groupBytes, List.take]
  have : isNL padChar = false := rfl
  simp only [this, Bool.false_eq_true, ↓reduceIte, bne_self_eq_false, hasTrailing, List.dropWhile_nil, List.isEmpty_nil,
    Bool.not_true, Quantum.last.injEq, List.cons.injEq, and_true]
  refine ⟨toUInt8_eq_of_mod ?_, toUInt8_eq_of_mod ?_⟩ <;> omega

theorem quantum_one (a : UInt8) : quantum [] (encode [a]) = .last [a] false := by
  have hm : ∀ n : Nat, n % 64 < 64 := fun n => Nat.mod_lt _ (by decide)
  have ha := a.toNat_lt
  simp only [encode, quantum, List.nil_append, List.cons_append, decChar_encChar _ (hm _), padChar_dec]
  simp only [groupBytes, List.take]
  have : isNL padChar = false := rfl
  simp only [this, Bool.false_eq_true, ↓reduceIte, bne_self_eq_false, hasTrailing, List.dropWhile_nil, List.isEmpty_nil,
    Bool.not_true, Quantum.last.injEq, List.cons.injEq, and_true, List.dropWhile_cons]
  refine toUInt8_eq_of_mod ?_; omega

theorem decodeLoop_encode (cap : Nat) (bs out : Bytes) (h : out.length + bs.length ≤ cap) :
    decodeLoop cap out (encode bs) = .ok (out ++ bs) := by
  induction bs using encode.induct generalizing out with
  | case1 => rw [decodeLoop]; simp [encode, quantum]
  | case2 a =>
    rw [decodeLoop]; split <;> rename_i hq <;> rw [quantum_one] at hq <;>
      simp only [reduceCtorEq, Quantum.last.injEq] at hq
    obtain ⟨rfl, rfl⟩ := hq
    simp only [List.length_cons, List.length_nil] at h ⊢
    rw [if_pos (by omega)]; simp
  | case3 a b =>
    rw [decodeLoop]; split <;> rename_i hq <;> rw [quantum_two] at hq <;>
      simp only [reduceCtorEq, Quantum.last.injEq] at hq
    obtain ⟨rfl, rfl⟩ := hq
    simp only [List.length_cons, List.length_nil] at h ⊢
    rw [if_pos (by omega)]; simp
  | case4 a b c rest ih =>
    rw [decodeLoop]; simp only [encode]
    split <;> rename_i hq <;> rw [quantum_group] at hq <;> simp only [reduceCtorEq, Quantum.full.injEq] at hq
    obtain ⟨rfl, rfl⟩ := hq
    simp only [List.length_cons, List.length_nil] at h ⊢
    rw [if_pos (by omega), ih _ (by simp; omega)]
    simp

theorem decode_encode (cap : Nat) (bs : Bytes) (h : bs.length ≤ cap) : decode cap (encode bs) = .ok bs := by
  rw [decode, decodeLoop_encode] <;> simp [h]

theorem decodeString_encode (bs : Bytes) : decodeString (encode bs) = .ok bs := by
  rw [decodeString, decode_encode]
  rw [encode_length, encodedLen, decodedLen]; omega

/-- Size of what a quantum yields against the characters it consumes. -/
theorem quantum_size (acc : List Nat) (src : Bytes) (hacc : acc.length ≤ 3) :
    (∀ out rest, quantum acc src = .full out rest → out.length = 3 ∧ rest.length + 4 ≤ src.length + acc.length) ∧
    (∀ out t, quantum acc src = .last out t → out.length ≤ 2 ∧ 4 ≤ src.length + acc.length) := by
  induction src generalizing acc with
  | nil => unfold quantum; split <;> simp
  | cons c cs ih =>
    unfold quantum
    split
    · split
      · simp [groupBytes]
      · rename_i v _ _ hne
        have hlt : acc.length ≤ 2 := by
          rcases acc with _ | ⟨a, _ | ⟨b, _ | ⟨d, _ | ⟨e, t⟩⟩⟩⟩ <;> simp_all
        have := ih (acc ++ [v]) (by simp; omega)
        refine ⟨fun out rest h => ?_, fun out t h => ?_⟩
        · have := this.1 out rest h; simp at this ⊢; omega
        · have := this.2 out t h; simp at this ⊢; omega
    · split
      · have := ih acc hacc
        refine ⟨fun out rest h => ?_, fun out t h => ?_⟩
        · have := this.1 out rest h; simp at this ⊢; omega
        · have := this.2 out t h; simp at this ⊢; omega
      · split
        · simp
        · split
          · split
            · simp
            · rename_i c2 rest2 hdw
              have hl : (cs.dropWhile isNL).length ≤ cs.length := by
                simpa using (List.dropWhile_sublist isNL).length_le
              rw [hdw] at hl
              split
              · simp
              · refine ⟨by simp, fun out t h => ?_⟩
                simp only [Quantum.last.injEq] at h
                obtain ⟨rfl, rfl⟩ := h
                simp [groupBytes] at hl ⊢; omega
          · refine ⟨by simp, fun out t h => ?_⟩
            simp only [Quantum.last.injEq] at h
            obtain ⟨rfl, rfl⟩ := h
            simp [groupBytes]
          · simp

/-- A destination of at least three bytes for every four characters is always big enough. -/
theorem decodeLoop_bound (cap : Nat) (out src : Bytes) (h : out.length + src.length / 4 * 3 ≤ cap) :
    decodeLoop cap out src ≠ .panic ∧ ∀ r, decodeLoop cap out src = .ok r → r.length ≤ cap := by
  induction hn : src.length using Nat.strongRecOn generalizing out src with
  | ind n ih =>
    have hq := quantum_size [] src (by simp)
    rw [decodeLoop]
    split
    · simp; omega
    · simp
    · rename_i bs rest he
      have h1 := hq.1 _ _ he
      simp only [List.length_nil, Nat.add_zero] at h1
      rw [if_pos (by omega)]
      exact ih rest.length (by omega) _ _ (by simp; omega) rfl
    · rename_i bs t he
      have h1 := hq.2 _ _ he
      simp only [List.length_nil, Nat.add_zero] at h1
      rw [if_pos (by omega)]
      split <;> simp
      omega

theorem decode_bound (cap : Nat) (src : Bytes) (h : src.length / 4 * 3 ≤ cap) :
    decode cap src ≠ .panic ∧ ∀ r, decode cap src = .ok r → r.length ≤ cap :=
  decodeLoop_bound cap [] src (by simpa using h)

theorem decodeString_ne_panic (src : Bytes) : decodeString src ≠ .panic :=
  (decode_bound _ src (by rw [decodedLen]; exact Nat.le_refl _)).1

end Verif
