/-
Properties C97-C99: files are interchangeable with OpenBSD's signify.
-/
import Verif.Spec.Signify
import Verif.Props.Formats
import Verif.Props.Codec
import Verif.Props.Scalar
import Verif.Props.Independence
import Verif.Lemmas.OpenFile

namespace Verif.Props
open World Spec Ed Signify

/-! ### Lemmas -/

theorem encode_all {p : UInt8 → Prop} (hp : ∀ v, v < 64 → p (B64.encChar v)) (h61 : p 61) (bs : Bytes) :
    ∀ c ∈ B64.encode bs, p c := by
  have hm : ∀ n, p (B64.encChar (n % 64)) := fun n => hp _ (Nat.mod_lt _ (by decide))
  induction bs using B64.encode.induct with
  | case1 => simp [B64.encode]
  | case2 a =>
    intro c hc
    simp only [B64.encode, List.mem_cons, List.not_mem_nil, or_false] at hc
    rcases hc with h | h | h | h <;> subst h <;> first | exact hm _ | exact h61
  | case3 a b =>
    intro c hc
    simp only [B64.encode, List.mem_cons, List.not_mem_nil, or_false] at hc
    rcases hc with h | h | h | h <;> subst h <;> first | exact hm _ | exact h61
  | case4 a b c rest ih =>
    intro x hx
    simp only [B64.encode, B64.encGroup, List.mem_append, List.mem_cons, List.not_mem_nil, or_false] at hx
    rcases hx with (h | h | h | h) | h
    · subst h; exact hm _
    · subst h; exact hm _
    · subst h; exact hm _
    · subst h; exact hm _
    · exact ih x h

/-- Base64 text has no white space and no zero byte. -/
theorem base64_plain (d : Bytes) : ∀ c ∈ base64 d, isSpace c = false ∧ c ≠ 0 := by
  rw [← encode_eq_base64]
  exact encode_all (p := fun c => isSpace c = false ∧ c ≠ 0) (by decide +kernel) (by decide) d

theorem base64_filter (d : Bytes) : (base64 d).filter (fun c => !isSpace c) = base64 d := by
  rw [List.filter_eq_self]; intro c hc; simp [(base64_plain d c hc).1]

theorem cString_self {f : Bytes} (h : 0 ∉ f) : cString f = f := by
  rw [cString]
  induction f with
  | nil => rfl
  | cons c f ih =>
    simp only [List.mem_cons, not_or] at h
    rw [List.takeWhile_cons_of_pos (by simp only [bne_iff_ne, ne_eq]; exact fun e => h.1 e.symm), ih h.2]

/-- What signify writes, signify reads. -/
theorem reads_written {n : Nat} {comment data : Bytes} (hc : GoodComment comment) (hn : data.length = n)
    (ha : data.take 2 = b!"Ed") : Reads n (written comment data []) comment data := by
  obtain ⟨h1, h2, h3, h4⟩ := hc
  refine ⟨⟨base64 data, [], ?_, C02_no_newline_in_base64 data, base64_filter data⟩, ⟨h1, h2⟩, hn, ha⟩
  rw [cString_self]
  · rfl
  · simp only [written, List.mem_append, not_or, List.append_nil]
    refine ⟨⟨⟨⟨by decide, h3⟩, by decide⟩, fun h => (base64_plain data 0 h).2 rfl⟩, by decide⟩

/-- Reading a file with a comment line and a base64 line. -/
theorem read_lines (comment line data rest : Bytes) (h10 : 10 ∉ comment) (hlen : comment.length < 65000) (hl : line.length < 65536)
    (h : line = base64 data ∨ line = base64 data ++ [13]) :
    readDataFileBytes (commentTag ++ comment ++ [10] ++ line ++ [10] ++ rest) = .ok { comment := dropCR comment, data := data } := by
  rw [← encode_eq_base64] at h
  have hn : 10 ∉ commentPrefix ++ comment := by
    intro hm
    rcases List.mem_append.mp hm with hm | hm
    · revert hm; decide
    · exact h10 hm
  have hn2 : 10 ∉ line := by
    rcases h with rfl | rfl
    · exact encode_not_nl_mem data
    · intro hm
      rcases List.mem_append.mp hm with hm | hm
      · exact encode_not_nl_mem data hm
      · revert hm; decide
  have hd : dropCR line = B64.encode data := by
    rcases h with rfl | rfl
    · exact dropCR_of_not (encode_last_ne_cr data)
    · exact dropCR_append_cr _
  have h1 := scanLine_line (rest := line ++ 10 :: rest) hn (by
    rw [List.length_append]; simp only [commentPrefix, List.length_cons, List.length_nil]; omega)
  rw [dropCR_prefix] at h1
  have heq : commentTag ++ comment ++ [10] ++ line ++ [10] ++ rest = (commentPrefix ++ comment) ++ 10 :: (line ++ 10 :: rest) := by
    simp [commentTag, commentPrefix]
  rw [heq, readDataFileBytes, scanLoop_comment h1,
    scanLoop_data (scanLine_line hn2 hl) (by rw [hd]; exact encode_not_comment _)]
  simp only [hd, decodeString_encode]
  rfl

theorem read_written {comment data : Bytes} (rest : Bytes) (hc : GoodComment comment) (hd : data.length ≤ 200) :
    readDataFileBytes (written comment data rest) = .ok { comment := dropCR comment, data := data } :=
  read_lines comment (base64 data) data rest hc.2.1 (by have := hc.2.2.2; omega) (base64_short hd) (.inl rfl)

theorem secretFile_written (priv : Private) : secretFile priv = written b!"signify private key" priv.encode [] := by
  simp [secretFile, written, Private.encode]

theorem publicFile_written (pub : Public) : publicFile pub = written b!"signify public key" pub.encode [] := by
  simp [publicFile, written, Public.encode]

theorem xorArr_bytes (a b : Arr 64) : (xorArr a b).toList = List.zipWith (· ^^^ ·) a.toList b.toList := by
  apply List.ext_getElem
  · simp
  · intro i h1 h2; simp [xorArr]

theorem zipWith_zero (l : Bytes) (h : l.length = 64) : List.zipWith (· ^^^ ·) l (List.replicate 64 0) = l := by
  apply List.ext_getElem
  · simp [h]
  · intro i h1 h2; rw [List.getElem_zipWith, List.getElem_replicate, UInt8.xor_zero]

theorem private_fields (priv : Private) :
    field priv.encode 0 2 = priv.keyAlgo.toList ∧ field priv.encode 2 2 = priv.kdfAlgo.toList ∧
    number (field priv.encode 4 4) = priv.kdfRounds.toNat ∧ copyZ 16 (field priv.encode 8 16) = priv.salt ∧
    field priv.encode 24 8 = priv.checksum.toList ∧ field priv.encode 32 8 = priv.keyNum.toList ∧
    field priv.encode 40 64 = priv.key.toList := by
  have hf : ∀ (a b c : Bytes) (off len : Nat), a.length = off → b.length = len → field (a ++ b ++ c) off len = b := by
    intro a b c off len ha hb
    rw [field, List.append_assoc, List.drop_append_of_le_length (by omega), List.drop_of_length_le (by omega), List.nil_append,
      List.take_append_of_le_length (by omega), List.take_of_length_le (by omega)]
  refine ⟨?_, ?_, C14_rounds_big_endian priv, ?_, ?_, ?_, ?_⟩
  · have := hf [] priv.keyAlgo.toList (priv.kdfAlgo.toList ++ be32 priv.kdfRounds ++ priv.salt.toList ++
      priv.checksum.toList ++ priv.keyNum.toList ++ priv.key.toList) 0 2 rfl (by simp)
    rw [← this]; simp [Private.encode]
  · have := hf priv.keyAlgo.toList priv.kdfAlgo.toList (be32 priv.kdfRounds ++ priv.salt.toList ++
      priv.checksum.toList ++ priv.keyNum.toList ++ priv.key.toList) 2 2 (by simp) (by simp)
    rw [← this]; simp [Private.encode]
  · have := hf (priv.keyAlgo.toList ++ priv.kdfAlgo.toList ++ be32 priv.kdfRounds) priv.salt.toList
      (priv.checksum.toList ++ priv.keyNum.toList ++ priv.key.toList) 8 16 (by simp [be32_length]) (by simp)
    have h2 : field priv.encode 8 16 = priv.salt.toList := by rw [← this]; simp [Private.encode]
    rw [h2]; exact arr_ext (copyZ_toList_eq (by simp))
  · have := hf (priv.keyAlgo.toList ++ priv.kdfAlgo.toList ++ be32 priv.kdfRounds ++ priv.salt.toList) priv.checksum.toList
      (priv.keyNum.toList ++ priv.key.toList) 24 8 (by simp [be32_length]) (by simp)
    rw [← this]; simp [Private.encode]
  · have := hf (priv.keyAlgo.toList ++ priv.kdfAlgo.toList ++ be32 priv.kdfRounds ++ priv.salt.toList ++ priv.checksum.toList)
      priv.keyNum.toList priv.key.toList 32 8 (by simp [be32_length]) (by simp)
    rw [← this]; simp [Private.encode]
  · have := hf (priv.keyAlgo.toList ++ priv.kdfAlgo.toList ++ be32 priv.kdfRounds ++ priv.salt.toList ++ priv.checksum.toList ++
      priv.keyNum.toList) priv.key.toList [] 40 64 (by simp [be32_length]) (by simp)
    rw [← this]; simp [Private.encode]

/-- What signify makes of the structure that psignify writes. -/
theorem unlock_encode (P : Prims) (pw : Bytes) (priv : Private) :
    unlock P pw priv.encode =
      let sk := if priv.kdfRounds = 0 then priv.key else xorArr priv.key (P.bcrypt pw priv.salt priv.kdfRounds.toNat)
      if priv.kdfAlgo.toList = b!"BK" ∧ (P.sha512 sk.toList).toList.take 8 = priv.checksum.toList then some sk.toList else none := by
  obtain ⟨-, h2, h3, h4, h5, -, h7⟩ := private_fields priv
  simp only [unlock, h2, h3, h4, h5, h7]
  have h0 : priv.kdfRounds.toNat = 0 ↔ priv.kdfRounds = 0 := by
    constructor
    · intro h; exact BitVec.eq_of_toNat_eq (by simpa using h)
    · rintro h; rw [h]; rfl
  by_cases hr : priv.kdfRounds = 0
  · rw [if_pos (h0.2 hr), if_pos hr, zipWith_zero _ (by simp)]
  · rw [if_neg (fun h => hr (h0.1 h)), if_neg hr, ← xorArr_bytes]

/-! ### C97 -/

/-- C97: both files that GenerateKey writes are accepted by signify; with the passphrase it gets a secret key that fits the public
key, and the key numbers agree. -/
theorem C97_keys (P : Prims) (base : Path) (pw : Bytes) (opts : Option Int) (w : World)
    (h : (GenerateKey P base pw opts w).1 = .ok ()) :
    ∃ fs fp ds dp sk, (GenerateKey P base pw opts w).2.fs (base ++ b!".sec") = some fs ∧
      (GenerateKey P base pw opts w).2.fs (base ++ b!".pub") = some fp ∧
      Reads 104 fs.data b!"signify private key" ds ∧ Reads 42 fp.data b!"signify public key" dp ∧
      secretNum ds = publicNum dp ∧ unlock P pw ds = some sk ∧ sk.length = 64 ∧ sk.drop 32 = dp.drop 10 ∧
      dp.drop 10 = (P.edPublic (copyZ 32 (sk.take 32))).toList := by
  obtain ⟨priv, pub, m1, m2, gen, h1, h2⟩ := generated_files P base pw opts w h
  have hlay := C13_public_layout pub.encode pub ((C13_public_exact _ _).2 rfl)
  have hpf := private_fields priv
  have hsk : unlock P pw priv.encode = some ((draw w w.rngPos 32).toList ++ (P.edPublic (draw w w.rngPos 32)).toList) := by
    rw [unlock_encode]
    by_cases hp : pw = []
    · have hr : priv.kdfRounds = 0 := by rw [gen.rounds, storedRounds, if_pos hp]
      simp only [if_pos hr, gen.plain hp]
      rw [if_pos ⟨gen.kdf, gen.checksum.symm⟩]
    · have hc := gen.crypt hp
      rw [← gen.saltEq] at hc
      simp only [if_neg (gen.roundsPos hp), hc]
      rw [if_pos ⟨gen.kdf, gen.checksum.symm⟩]
  refine ⟨_, _, priv.encode, pub.encode, _, h1, h2, ?_, ?_, ?_, hsk, by simp, ?_, ?_⟩
  · rw [secretFile_written]
    exact reads_written ⟨by decide, by decide, by decide, by decide⟩ priv.encode_length (by
      have := hpf.1; rw [field, List.drop_zero] at this; rw [this, gen.algo])
  · rw [publicFile_written]
    exact reads_written ⟨by decide, by decide, by decide, by decide⟩ pub.encode_length (by rw [← hlay.1, gen.pubAlgo])
  · rw [secretNum, hpf.2.2.2.2.2.1, publicNum, field, ← hlay.2.1, gen.numEq, gen.pubNum]
  · rw [← hlay.2.2, gen.pubKey]; simp
  · have hseed : ∀ (a b : Arr 32), (copyZ 32 ((a.toList ++ b.toList).take 32) : Arr 32) = a := by
      intro a b
      refine arr_ext ?_
      rw [copyZ_toList_eq (by simp)]; simp
    rw [← hlay.2.2, gen.pubKey, hseed]

example : (GenerateKey toy b!"d/k" b!"pw" none calm).1 = .ok () ∧ (GenerateKey toy b!"d/k" [] none calm).1 = .ok () := ⟨rfl, rfl⟩

theorem signatureFile_written (P : Prims) (priv : Private) (name m : Bytes) :
    signatureFile P priv name m = written (b!"verify with " ++ name)
      (priv.keyAlgo.toList ++ priv.keyNum.toList ++ (P.edSign priv.key m).toList) [] := by
  simp [signatureFile, written]

/-- The parts of a signature structure. -/
theorem sig_fields (num : Bytes) (s : Arr 64) (hn : num.length = 8) :
    publicNum (b!"Ed" ++ num ++ s.toList) = num ∧ copyZ 64 ((b!"Ed" ++ num ++ s.toList).drop 10) = s ∧
    (b!"Ed" ++ num ++ s.toList).length = 74 ∧ (b!"Ed" ++ num ++ s.toList).take 2 = b!"Ed" := by
  refine ⟨?_, ?_, ?_, rfl⟩
  · rw [publicNum, field, List.append_assoc, List.drop_append_of_le_length (by simp)]
    simp [← hn]
  · rw [List.drop_append, List.drop_of_length_le (by simp [hn])]
    refine arr_ext ?_
    rw [copyZ_toList_eq (by simp [hn])]; simp [hn]
  · simp [hn]

/-! ### C98 -/

/-- C98: with a secret key file that signify wrote, and the passphrase with which signify gets the secret key `sk`, Sign succeeds and
writes what signify would write: the key number of the key and the signature by `sk`. -/
theorem C98_sign (P : Prims) (pk mp sp dir name comment ds rest pw sk : Bytes) (hs : Splits pk dir (name ++ b!".sec"))
    (hc : GoodComment comment) (hd : ds.length = 104) (ha : ds.take 2 = b!"Ed") (hu : unlock P pw ds = some sk)
    (w : World) (hq : w.Quiet) (fk fm : File) (hk : w.fs pk = some fk) (hfk : fk.data = written comment ds rest)
    (hm : w.fs mp = some fm) (ht : number (field ds 4 4) ≠ 0 → pw ≠ [] ∧ ∃ r, w.tty = some pw :: r) :
    (Sign P pk mp sp w).1 = .ok () ∧ ∃ f, (Sign P pk mp sp w).2.fs (sigPath mp sp) = some f ∧
      f.data = written (b!"verify with " ++ name ++ b!".pub") (b!"Ed" ++ secretNum ds ++ (P.edSign (copyZ 64 sk) fm.data).toList) [] := by
  obtain ⟨priv, h1, h2⟩ := readPrivateKeyData_ok ds (by omega)
  rw [List.take_append_of_le_length (by omega), List.take_of_length_le (by omega)] at h2
  subst h2
  have hparse : readPrivateKeyFile fk.data = .ok priv := by
    rw [readPrivateKeyFile, hfk, read_written rest hc (by omega), Res.bind_ok, h1]
  obtain ⟨hp1, hp2, hp3, -, -, hp6, -⟩ := private_fields priv
  rw [hp3] at ht
  have halgo : priv.keyAlgo.toList = b!"Ed" := by rw [← hp1, field, List.drop_zero, ha]
  rw [unlock_encode] at hu
  simp only at hu
  have huse : ∃ priv', Usable P w.tty priv priv' ∧ priv'.keyAlgo = priv.keyAlgo ∧ priv'.keyNum = priv.keyNum ∧
      priv'.key.toList = sk := by
    by_cases hr : priv.kdfRounds = 0
    · rw [if_pos hr] at hu
      split at hu
      · exact ⟨priv, .inl ⟨hr, rfl⟩, rfl, rfl, Option.some.inj hu⟩
      · exact absurd hu (by simp)
    · rw [if_neg hr] at hu
      split at hu
      · rename_i hb
        obtain ⟨hpw, r, ht⟩ := ht (fun h => hr (BitVec.eq_of_toNat_eq (by simpa using h)))
        exact ⟨{ priv with key := xorArr priv.key (P.bcrypt pw priv.salt priv.kdfRounds.toNat) },
          .inr ⟨hr, pw, r, ht, ⟨hb.1, hpw, rfl, hb.2⟩⟩, rfl, rfl, Option.some.inj hu⟩
      · exact absurd hu (by simp)
  obtain ⟨priv', hu', e1, e2, e3⟩ := huse
  have hok := Sign_quiet P (sp := sp) hq hk hparse hm hu'
  refine ⟨hok, ?_⟩
  obtain ⟨fk', fm', p1, p2, f, g1, g2, g3, g4, g5, g6⟩ := C24_content P pk mp sp w dir name hs hok
  rw [hk] at g1; cases g1
  rw [hparse] at g2; cases g2
  rw [hm] at g3; cases g3
  have := hu'.unique g4; subst this
  refine ⟨f, g5, ?_⟩
  rw [g6, signatureFile_written, e1, e2, halgo, secretNum, hp6, ← e3, List.append_assoc b!"verify with "]
  rw [show (copyZ 64 priv'.key.toList : Arr 64) = priv'.key from arr_ext (copyZ_toList_eq (by simp))]

/-- There are such keys, with and without a passphrase. -/
example : unlock toy b!"A" lockedKey.encode = some (List.replicate 64 0) ∧ lockedKey.encode.take 2 = b!"Ed" ∧
    number (field lockedKey.encode 4 4) ≠ 0 ∧ GoodComment b!"my key" ∧
    Splits b!"d/k.sec" b!"d/" (b!"k" ++ b!".sec") := by
  refine ⟨by decide +kernel, by decide +kernel, by decide +kernel, ⟨by decide, by decide, by decide, by decide⟩,
    ⟨rfl, .inr rfl, by decide⟩⟩

/-- C98: with a public key file and a signature file that signify wrote, Verify accepts exactly the signatures with the right key
number that Ed25519 accepts. -/
theorem C98_verify (P : Prims) (pp mp sp cp cs dp ds rp rs : Bytes) (hcp : GoodComment cp) (hcs : GoodComment cs)
    (hdp : dp.length = 42) (hds : ds.length = 74) (hap : dp.take 2 = b!"Ed") (has : ds.take 2 = b!"Ed")
    (w : World) (hq : w.Quiet) (fp fm fs : File) (hp : w.fs pp = some fp) (hm : w.fs mp = some fm)
    (hs : w.fs (sigPath mp sp) = some fs) (hfp : fp.data = written cp dp rp) (hfs : fs.data = written cs ds rs) :
    (Verify P pp mp sp w).1 = .ok () ↔
      publicNum dp = publicNum ds ∧ P.edVerify (copyZ 32 (dp.drop 10)) fm.data (copyZ 64 (ds.drop 10)) = true := by
  rw [C19_exact P pp mp sp w hq]
  constructor
  · rintro ⟨fp', fm', fs', h1, h2, h3, d1, d2, h4, h5, -, -, -, -, h6, h7⟩
    rw [hp] at h1; cases h1
    rw [hm] at h2; cases h2
    rw [hs] at h3; cases h3
    rw [hfp, read_written rp hcp (by omega)] at h4; cases h4
    rw [hfs, read_written rs hcs (by omega)] at h5; cases h5
    exact ⟨h6, h7⟩
  · rintro ⟨h6, h7⟩
    exact ⟨fp, fm, fs, hp, hm, hs, ⟨dropCR cp, dp⟩, ⟨dropCR cs, ds⟩, by rw [hfp, read_written rp hcp (by omega)],
      by rw [hfs, read_written rs hcs (by omega)], hdp, by simp only; omega, hap, has, h6, h7⟩

/-! ### C97: signatures -/

/-- C97: the signature file that Sign writes with a generated key is accepted by signify, names the public key file, has the key
number of the public key, and holds a signature that RFC 8032 calls valid. -/
theorem C97_signature (P : Prims) (hP : Signs P) (base dir name : Path) (pw : Bytes) (opts : Option Int)
    (w0 : World) (hgen : (GenerateKey P base pw opts w0).1 = .ok ())
    (hsplit : Splits base dir name) (hnl : 10 ∉ name) (h0 : 0 ∉ name) (hlen : name.length < 1000)
    (mp sp : Path) (fm : File) (w1 : World) (hq1 : w1.Quiet)
    (hsec : w1.fs (base ++ b!".sec") = (GenerateKey P base pw opts w0).2.fs (base ++ b!".sec"))
    (hmsg : w1.fs mp = some fm) (htty : pw ≠ [] → ∃ rest, w1.tty = some pw :: rest) :
    (Sign P (base ++ b!".sec") mp sp w1).1 = .ok () ∧ ∃ fp dp f ds,
      (GenerateKey P base pw opts w0).2.fs (base ++ b!".pub") = some fp ∧ Reads 42 fp.data b!"signify public key" dp ∧
      (Sign P (base ++ b!".sec") mp sp w1).2.fs (sigPath mp sp) = some f ∧
      Reads 74 f.data (b!"verify with " ++ name ++ b!".pub") ds ∧ publicNum ds = publicNum dp ∧
      RfcValid P.sha512 (copyZ 32 (dp.drop 10)) fm.data (copyZ 64 (ds.drop 10)) := by
  obtain ⟨fs, fp, ds, dp, sk, h1, h2, h3, h4, h5, h6, h7, h8, h9⟩ := C97_keys P base pw opts w0 hgen
  obtain ⟨priv, pub, m1, m2, gen, k1, -⟩ := generated_files P base pw opts w0 hgen
  -- the structure that signify reads is the one that was written
  have hds : ds = priv.encode ∧ fs.data = written b!"signify private key" ds [] := by
    rw [h1] at k1; cases k1
    have hr := reads_written (n := 104) (comment := b!"signify private key") (data := priv.encode)
      ⟨by decide, by decide, by decide, by decide⟩ priv.encode_length (by
        have := (private_fields priv).1; rw [field, List.drop_zero] at this; rw [this, gen.algo])
    have hw := secretFile_written priv
    simp only at h3
    rw [← hw] at hr
    have : ds = priv.encode := by
      obtain ⟨l, r, a1, a2, a3⟩ := h3.lines
      obtain ⟨l', r', b1, b2, b3⟩ := hr.lines
      rw [a1] at b1
      simp only [List.append_assoc, List.append_cancel_left_eq, List.singleton_append] at b1
      have hl := (firstLine_unique a2 b2 (List.cons.inj b1).2).1
      have := a3.symm.trans (hl ▸ b3)
      rw [← encode_eq_base64, ← encode_eq_base64] at this
      have h := decodeString_encode ds
      rw [this, decodeString_encode] at h
      cases h; rfl
    exact ⟨this, by rw [this, hw]⟩
  have hs : Splits (base ++ b!".sec") dir (name ++ b!".sec") := splits_sec hsplit
  obtain ⟨hok, f, g1, g2⟩ := C98_sign P (base ++ b!".sec") mp sp dir name b!"signify private key" ds [] pw sk hs
    ⟨by decide, by decide, by decide, by decide⟩ h3.size h3.algo h6 w1 hq1 fs fm (by rw [hsec, h1]) hds.2 hmsg (by
      intro hr
      rw [hds.1, (private_fields priv).2.2.1, gen.rounds, storedRounds] at hr
      by_cases hp : pw = []
      · rw [if_pos hp] at hr; exact absurd rfl hr
      · exact ⟨hp, htty hp⟩)
  have hnum : (secretNum ds).length = 8 := by rw [secretNum, field, List.length_take, List.length_drop, h3.size]; rfl
  obtain ⟨q1, q2, q3, q4⟩ := sig_fields (secretNum ds) (P.edSign (copyZ 64 sk) fm.data) hnum
  refine ⟨hok, fp, dp, f, _, h2, h4, g1, ?_, q1.trans h5, ?_⟩
  · rw [g2]
    refine reads_written ⟨by simp, ?_, ?_, ?_⟩ q3 q4
    · simp only [List.mem_append, not_or]; exact ⟨⟨by decide, hnl⟩, by decide⟩
    · simp only [List.mem_append, not_or]; exact ⟨⟨by decide, h0⟩, by decide⟩
    · simp only [List.length_append, List.length_cons, List.length_nil]; omega
  · rw [q2, h9]
    have hpub : (copyZ 32 (P.edPublic (copyZ 32 (sk.take 32))).toList : Arr 32) = P.edPublic (copyZ 32 (sk.take 32)) :=
      arr_ext (copyZ_toList_eq (by simp))
    have hkey : (copyZ 64 sk : Arr 64).toList = (copyZ 32 (sk.take 32) : Arr 32).toList ++
        (rfcPublic P.sha512 (copyZ 32 (sk.take 32))).toList := by
      rw [← hP.edPublic, ← h9, ← h8, copyZ_toList_eq h7, copyZ_toList_eq (by simp [h7]), List.take_append_drop]
    rw [hpub, hP.edPublic, hP.edSign _ _ _ hkey]
    exact C73_valid _ _ _

/-! ### C99 -/

/-- C99 (false): signify skips white space in the base64 line, psignify does not. -/
theorem C99_space_negation :
    ∃ file comment data, Reads 42 file comment data ∧ readPublicKeyFile file = .err .corruptBase64 := by
  refine ⟨commentTag ++ b!"x" ++ [10] ++ (32 :: B64.encode (b!"Ed" ++ List.replicate 40 7)) ++ [10] ++ [], b!"x",
    b!"Ed" ++ List.replicate 40 7, ⟨⟨32 :: B64.encode (b!"Ed" ++ List.replicate 40 7), [], ?_, by decide +kernel, ?_⟩,
    by decide, by decide, by decide⟩, by decide +kernel⟩
  · decide +kernel
  · rw [← encode_eq_base64]; decide +kernel

/-- C99, the part that holds: if the base64 line has no white space but a carriage return at its end, and the comment line is shorter
than 65000 bytes, psignify reads the same content as signify. Missing: other white space (`C99_space_negation`) and longer comment
lines (C11). -/
theorem C99_reads_partial (n : Nat) (file comment data : Bytes) (h : Reads n file comment data) (hn : n ≤ 200)
    (hc : comment.length < 65000)
    (hl : ∀ line rest, cString file = commentTag ++ comment ++ [10] ++ line ++ [10] ++ rest → 10 ∉ line →
      ∃ line', (line = line' ∨ line = line' ++ [13]) ∧ ∀ c ∈ line', isSpace c = false) :
    readDataFileBytes file = .ok { comment := dropCR comment, data := data } := by
  obtain ⟨line, rest, h1, h2, h3⟩ := h.lines
  obtain ⟨line', h4, h5⟩ := hl line rest h1 h2
  have hf : line'.filter (fun c => !isSpace c) = line' := by
    rw [List.filter_eq_self]; intro c hc; simp [h5 c hc]
  have hline : line' = base64 data := by
    rcases h4 with rfl | rfl
    · rw [← h3, hf]
    · rw [List.filter_append, hf] at h3
      rw [← h3]; simp [isSpace]
  have hfile : ∃ more, file = cString file ++ more := ⟨file.dropWhile (· != 0), (List.takeWhile_append_dropWhile).symm⟩
  obtain ⟨more, hfile⟩ := hfile
  rw [hfile, h1, List.append_assoc]
  have hb := base64_short (l := data) (by rw [h.size]; exact hn)
  have hb2 : (base64 data).length + 1 < 65536 := by
    rw [← encode_eq_base64, encode_length, B64.encodedLen, h.size]; omega
  refine read_lines comment line data (rest ++ more) h.comment.2 hc ?_ ?_
  · rcases h4 with rfl | rfl
    · rw [hline]; exact hb
    · rw [List.length_append, hline]; exact hb2
  · rw [← hline]; exact h4

example : Reads 42 (written b!"x" (b!"Ed" ++ List.replicate 40 7) []) b!"x" (b!"Ed" ++ List.replicate 40 7) :=
  reads_written ⟨by decide, by decide, by decide, by decide⟩ (by decide) (by decide)

end Verif.Props
