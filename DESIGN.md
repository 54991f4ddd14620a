# Formal model of kisom/psignify in Lean 4

## Layout

| Lean module (under `lean/Verif/`) | models |
|---|---|
| `Model/Go.lean` | Go results (value / error / panic / crash / non-termination), actions on an explicit state, byte strings, fixed arrays, `copy` |
| `Model/StdBase64.lean` | `encoding/base64` StdEncoding as used here (library; reading of the Go source) |
| `Model/Coding.lean` | `base64/coding.go` |
| `Model/World.lean` | files, open handles, terminal, entropy, fault and crash schedule (`os`, `ioutil`, `crypto/rand`, `terminal`) |
| `Model/DataFile.lean` | `signify/common.go` |
| `Model/Prims.lean` | external cryptography as parameters (`sha512`, `ed25519`, `bcrypt_pbkdf`, `curve25519`, `salsa20`, `poly1305`, `nacl/auth`) |
| `Model/Keys.lean` | `signify/key.go`, `signify/signature.go` |
| `Model/Field.lean` | `signify/internal/edwards25519/edwards25519.go` lines 13-620: field elements |
| `Model/Group.lean` | the same file, lines 622-843: points |
| `Model/Tables.lean` | `signify/internal/edwards25519/const.go`: constants and precomputed points |
| `Model/ScalarMult.lean` | lines 845-1014: `slide`, `GeDoubleScalarMultVartime`, `selectPoint`, `GeScalarMultBase` |
| `Model/Scalar.lean` | lines 1016-1793: `ScMulAdd`, `ScReduce`, `ScMinimal` |
| `Model/Crypto.lean` | `crypto/crypto.go` |
| `Model/Cli.lean` | `cmd/psignify/main.go` |
| `Model/Flags.lean` | `cmd/psignify/main.go` lines 25-30 and 59-72: flags, with `flag.Parse` of the Go library |
| `Model/Platform.lean` | `crypto/crypto.go` lines 53-157 with an `int` of a given size |
| `Source/Syntax.lean`, `Parse.lean`, `Semantics.lean` | syntax and meaning of the Go subset |
| `Source/Edwards.lean`, `EdConst.lean`, `Text*.lean` | the text of all Go files outside tests |
| `Source/Lib.lean`, `LibBase.lean`, `WorldSys.lean`, `CmdLib.lean` | the Go libraries that the text calls, over the modelled operating system |
| other `Source/*.lean` | proofs that this text computes the functions in `Model/` |
| `Real/*.lean` | executable primitives and tests of the model on real data |
| `Spec/*.lean` | small independent specifications |
| `Lemmas/*.lean` | helper lemmas |
| `Props/*.lean` | the property theorems, one section per property id, with non-vacuity examples |

## Modelling decisions

* **Results.** A Go call is a function `σ → Res α × σ` (`Act σ α`) where `Res` is `ok a`, `err e`, `panic`, `crash` or
  `hang`. The state is returned in every case, so partial effects of failing runs are visible.
* **Faults, short reads, crashes.** The world contains a schedule `Nat → Decision`; every system call consumes one
  decision: succeed, fail (a write may transfer any number of bytes first), return a short read, or crash (again after any
  number of bytes). A theorem that quantifies over the schedule therefore quantifies over every fault and every crash point.
* **Readers and writers** are arbitrary state-passing functions, so results about the encoder, `seal` and `open` hold for
  every `io.Reader`/`io.Writer` over any state type. A joint `(n>0, err)` return is identified with `(0, err)`
  because every caller in the repository discards the data when `err != nil`.
* **Loops without a bound in the code** (byte-wise read loops) take fuel; running out of fuel is the outcome `hang`.
  Theorems quantify over all sufficiently large fuel.
* **Fixed arrays** are `Vector UInt8 n`; slices are lists; Go strings and paths are byte lists.
* **Machine integers**: 32/64-bit wrap-around is explicit (`w32`, `w64`, `w8` on `Int`) in the field, scalar and
  key-generation code. `int` is 64 bits.
* **Cryptography** outside the repository is a structure of functions (`Prims`) with no assumed behaviour. The two facts
  needed by round-trip theorems (Ed25519 correctness, X25519 agreement) are explicit hypotheses. NaCl secretbox is
  built in the model from an arbitrary key stream and an arbitrary one-time MAC, so that "open inverts seal" and
  "what opens is exactly a sealing" are proved, not assumed.

## Plan per property

* C01–C07 (stream codec): model encoder/decoder as state machines over arbitrary writers/readers; induction over the
  list of writes and over the bytes of each write; decoder by induction over the source. C04, C05 are false as
  stated: counterexample plus exact characterisation.
* C08–C12 (data files): scanner and base64 decoder as recursive functions; induction over lines / characters.
* C13–C17 (formats): direct list reasoning, exact acceptance sets. C15, C17 false as stated: negation and the exact set.
* C18–C29 (sign/verify): run the world model symbolically; frame and crash properties by an invariant preserved by
  every action for every schedule. C26, C27 false as stated.
* C30–C35 (key generation, decryption): direct; C34 by induction over histories. C33, C34 false as stated.
* C36–C48 (sealing): loop invariants by induction over the chunk count, generic in reader/writer. C37, C44, C45, C48 false
  as stated: negations with concrete witnesses and the true remainder.
* C49–C51, C53–C55, C60–C62 (ToBox, field arithmetic): limb arithmetic over `Int` with explicit wrap-around; bounds and
  congruence modulo p = 2^255-19; primality of p by a Pratt certificate checked in the kernel; then algebra in `ZMod p`.
* C52: the Edwards curve is proved to be a commutative group, and the ladder of RFC 7748 to compute multiples in it; the
  only hypothesis is that the library functions compute what RFC 8032 and RFC 7748 define (`Conforms`).
* C56–C58 (CLI): the dispatcher as a function over the world model. C57 false as stated.
* C59: direct.
* C63–C67 (points, tables, fixed-base multiplication): each representation gets a predicate "stands for the point P, limbs
  in range"; each function is proved to preserve it. The tables are evaluated completely in the kernel.
* C68, C69 (`slide`, double scalar multiplication): loop invariants over the digit array. False for scalars above 2^255:
  negations with the witness 2^256-1, exact behaviour modulo 2^256, and the true part.
* C70–C72 (scalars): the straight-line code is a list of carry and fold steps on registers; an interval analysis, proved
  sound and evaluated in the kernel on the actual list, shows that nothing overflows; the value is invariant modulo L. The
  order of the base point is proved (primality of L by a Pratt certificate).
* C73, C74: RFC 8032 signing and verification on top of the group; the package functions assembled to Ed25519.
* C75, C76 (command line): `flag.Parse` as a recursive function over the argument list; options as a grammar in
  `Spec/CommandLine.lean`; induction over the list of options. C76 false as stated.
* C77, C79, C80 (entropy, terminal): an invariant kept by every action for every schedule; C77 then by induction over
  histories (`Spec/History.lean`).
* C78 (termination): each function is shown to return from every state; for `Open` the number of unread bytes decreases.
  Runs with more fuel are shown to be the same. False for `Verify`.
* C81–C83 (binding): in the group proved for C52, from the order of the base point; the only hypotheses are that the library
  functions compute what they document. C81, C83 false for keys of small order: negations with those keys.
* C84 (line ends): `Spec/LineEnds.lean` says what conversion is; the scanner drops the CR of each line; for encrypted files the
  number of base64 symbols the decoder gets is too small for one chunk. False for encrypted files.
* C85 (faults): a relational argument (`Lemmas/Masked.lean`): step by step, the run with faults reports one or stays equal to the run
  without. False for `Seal`.
* C86 (truncation): decoding a prefix of a base64 encoding (`Lemmas/Truncate.lean`). False for secret keys and signatures.
* C87 (damaged copies): signing as in RFC 8032 in the proved scalar field; two signatures with equal nonce and different challenges
  give the scalar. False for unencrypted keys.
* C88 (overwriting): the runs of `GenerateKey` evaluated for calm system calls; the true part from C32 and C86. False as stated.
* C89 (cut encrypted files): partial correctness of the readers under any schedule (`Lemmas/CutStream.lean`: `PartSource`), then the
  framing of `Spec/Sealed.lean` decides which cuts can pass.
* C90 (session): composition of the command line theorems (C56, C75) with C18, C31 and C36 over five machines that share only files.
* C91 (interrupted encryption): an invariant of `Seal` under every schedule (`Lemmas/SealAny.lean`: the file is a beginning of the
  comment, or the comment and a beginning of the encoding of the header and the first pieces), then as C89.
* C92 (failing encryption and the previous file): false; the counterexample is a run on the toy primitives, the part that holds
  follows from the order of the calls.
* C93 (footprint): a relation between two worlds that differ in files outside a set (`Spec/Footprint.lean`), shown to be kept by
  every operation (`Lemmas/Footprint.lean`), with equal results.
* C94, C95 (passphrase independence, rounds): from the exact description of the key files (C30) and of signatures (C24); the
  conversion of the rounds to uint32 makes C95 false for large and negative numbers, which is shown by concrete values.
* C96 (io.Reader): the contract of io.Reader with both results in `Spec/Reader.lean`; the count that base64/coding.go:106 discards
  makes the claim false for two kinds of readers (concrete readers), the rest by induction over the loop of `Decoder.Read`.
* C97, C98, C99 (interchange with signify): what signify accepts and writes is specified in `Spec/Signify.lean`, from
  knowledge of OpenBSD's signify.c (`parseb64file`, `writeb64file`, the unlocking of secret keys); that source is not part of /repo and
  was not at hand, so this specification is trusted in these claims. C97 and C98 follow from the exact descriptions of the files (C13, C19, C24, C30). C99 is
  false for white space in the base64 line (concrete file).
* C100 (size of int): `Model/Platform.lean` has `Seal` with a length that wraps to a given number of bits; it is equal to the model
  of `Seal` where the length fits, and a quiet run with a wrapped length writes no chunk.
* C101 (signed means verifiable): C24 describes the signature file of every successful `Sign`, C19 what `Verify` accepts; false for
  keys with a foreign algorithm tag.
* C102 (growing files): the model of `seal` takes any reader; here one whose content may get longer before every call. Induction over
  the sealing loop.
* C103 (the text): the files edwards25519.go and const.go are copied verbatim into `Source/Edwards.lean` and `Source/EdConst.lean`. A parser
  that runs during elaboration makes a syntax tree of them, an interpreter gives it its meaning: memory, places, integers that wrap,
  panics. Straight code is evaluated by the kernel with the inputs as variables; loops by induction; calls through summaries, which
  hold for all places because the interpreter treats places alike (`Source/Local*.lean`).
* C104 (the text of the check): the same for `slide`, `GeDoubleScalarMultVartime` and `ScMinimal`. The digits are computed with wrapping int8;
  that nothing wraps and every table index is in range is part of the proof. `binary.LittleEndian.Uint64` is a definition of our own.
* C105 (the text of base64/coding.go): every function of the file is run symbolically by the interpreter (tactic `seval`, checked by the
  kernel) on a few blocks of memory, loops by induction; locality of the interpreter carries the result to any memory. The libraries called
  are definitions in Verif/Source/Lib.lean and the system (`Sys`) is arbitrary.
* C106 (the text of seal and what it calls): the text is run symbolically up to the loop and in one turn of the loop, the loop by
  induction on the number of chunks; calls of ToBox, Encoder.Write and incrementNonce are replaced by what C105 and the lemmas about them
  say; locality carries the result to any memory.
* C107 (the text of Verify and what it calls): each function's text is run symbolically once per way that its calls can end, with the
  calls replaced by what is already proved of them; the loop of readDataFileBytes by induction on the bytes; locality carries the result to
  any memory. Soundness of the text is then C19 of the model.
* C108 (the text of Sign and what it calls): as C107; the call that Sign defers is run after the symbolic run of its body, with what is proved
  of zero (induction on the length of the slice). The model keeps passphrase buffers in the world and the text keeps them in memory: a
  lemma says that no system call looks at that part of the world.
* C109 (the text of GenerateKey and what it calls): as C107, with the run of GenerateKeypair cut after the key is drawn and after the salt is
  drawn, so that what the library returned can be treated as unknown values in the rest of the run.
* C110 (the text of Seal with its deferred calls): the run of Seal is computed once for each way its calls can end, with the calls given as
  an unknown function (Calls.lean); then the claims about each call (C105, C106, C107) are put in.
* C111 (the text of Open with its deferred calls): as C110; the loop of open is run by induction on the number of chunks (OpenLoop.lean), and
  the model is compared apart from its record of passphrases (OpenSeen.lean).
* C112 (the text of PassphrasePrompt): symbolic run with the deferred zero replaced by what ZeroRun.lean proves of it (PromptText.lean).
* C113 (the text of the command): `main` is cut after the statements that register and parse the options and choose the paths of keys; the last statement is run symbolically for each operation and each end of the call that it makes (CmdLib.lean, CmdMain.lean), and the calls are C107 to C112 in the memory of `main`. The libraries that only `main` calls are defined in CmdLib.lean and trusted like those of Lib.lean.

Not expressible: secrecy and unforgeability in the computational sense (no probabilistic adversary in the model), timing
side channels, real kernel/file-system semantics (symlinks, hard links, permissions, concurrent processes). No property
in the list needs them.

## Trusted base

1. **Lean 4.33.0's kernel.** All theorems are checked by it; `decide +kernel` is used only for complete finite computations
   (tables, literal runs of the model in examples and negations), which the kernel evaluates itself. No `native_decide`, no `bv_decide`,
   no `sorry`, no axioms of this project. From Mathlib only proved material is used (`ZMod`, Lucas primality, tactics).
2. **Axioms.** At most `propext`, `Quot.sound`, `Classical.choice`, as `#print axioms` reports for the theorems in
   `MANIFEST.json`:
   * none: `C04_count_negation`
   * `propext`: `C13_public_error`, `C17_panic_iff`, `C17_length_negation`
   * `propext`, `Quot.sound` (67): `C01_encoder_output`, `C01_split_irrelevant`, `C02_lines`, `C02_strip`, `C02_no_newline_in_base64`, `C04_count_partial`,
`C04_count_eq_iff`, `C06_never_eof`, `C07_prefix`, `C08_roundtrip`, `C08_trailing_cr`, `C09_framing`, `C09_unterminated`,
`C10_only_comments`, `C10_unterminated`, `C11_overlong_after_comment`, `C11_overlong_first`, `C12_exact`, `C12_injective`,
`C14_rounds_big_endian`, `C14_private_injective`, `C15_short_is_error`, `C18_newline_needed`, `C20_read_only`,
`C23_default_paths`, `C24_tags`, `C25_error`, `C26_encrypted_partial`, `C26_toBox_negation`, `C28_loaded`,
`C29_toBox_leaves`, `C34_history_partial`, `C34_damage_negation`, `C35_only_key`, `C35_step`, `C38_chunk`, `C39_chunk`,
`C42_pieces`, `C44_negation`, `C45_file_negation`, `C51_wiped`, `C56_verify`, `C56_sign`, `C56_encrypt`, `C56_decrypt`,
`C56_none`, `C58_single`, `C59_zero`, `C59_zero64`, `C76_negation`, `C76_verify_negation`, `C84_data_partial`,
`C84_files_partial`, `C85_shown_partial`, `C85_session_partial`, `C85_process_partial`, `C85_negation`,
`C92_unchanged_partial`, `C92_negation`, `C93_verify`, `C93_sign`, `C93_generate`, `C96_eof_negation`, `C96_idle_negation`,
`C99_space_negation`, `C99_reads_partial`, `Verif.Src.EdSrc.C103_init`
   * `propext`, `Quot.sound`, `Classical.choice`: the remaining 293.
3. **`Spec/Signify.lean`**, for C97 to C99 only: what OpenBSD's signify accepts and writes, from knowledge of its source.
4. **The reading of the Go source.** Every definition in `Model/` cites file and lines and says what it simplifies. C103 to C113 prove that the
   definitions are what the text of the repository computes: the functions of edwards25519.go that C103 and C104 name with all functions that they
   call, and every function of base64/coding.go, signify/common.go, signify/signature.go, signify/key.go, crypto/crypto.go and
   cmd/psignify/main.go except `init` of main.go, which is not run. `tools/check-text.sh` compares the text in the project with the repository.
   The trust is then in
   * `Source/Parse.lean` and `Source/Semantics.lean`: that they read the subset of Go used here as Go does (memory, places, integers that
     wrap, panics, function values, deferred calls, methods through interfaces);
   * `Source/Ed.lean`, `binaryExt`: `binary.LittleEndian.Uint64`, for C104;
   * `Source/Lib.lean`, `LibBase.lean`: the library calls of coding.go, signify and crypto (`bytes.Buffer`, `bufio.Scanner`, `binary.Read`,
     `strings`, `errors`, `sha512`, `nacl/box` and so on), over an arbitrary system `Sys`, which includes `Sys.ed` for the functions of
     edwards25519 that `Public.ToBox` calls (`edFns`: the functions of `Model/`, which C103 and the lemmas for it tie to the text);
   * `Source/WorldSys.lean`: the system calls, as actions on the modelled operating system of `Model/World.lean`;
   * `Source/CmdLib.lean`: `flag`, `fmt`, `os.Exit`, `os/user`, `filepath.Join` as `main` uses them, for C113.
   The values of `PassphrasePrompt` and `defaultOptions` are those that their declarations give (`vars_signify` in `Source/Repo.lean`); a program that
   assigns another function to `PassphrasePrompt` is outside these claims.

### Tests of the model

`Real/` contains executable primitives (SHA-512, Ed25519 from the modelled functions, X25519, XSalsa20, Poly1305, HMAC, bcrypt_pbkdf).
`Real/Instance.lean` proves that they satisfy `Conforms`, `Signs`, `GoSigns`, `GoVerifies`, `EdCorrect`, `DHAgrees` and `BoxMatches`, so all
these hypotheses can be met at once, by the real thing. `Real/TestData.lean` runs the repository's own tests on the model during
the build (`#guard`), with the key files of its testdata, which OpenBSD's signify made. `lean/Verif/Real/RunTestData.lean` does the same with the
larger files: the model of `Sign` writes testdata/message.txt.sig byte for byte. These are tests; no theorem depends on them.

### Modelled

All functions of the repository outside its tests: `base64/coding.go`; `signify/common.go`, `key.go`, `signature.go`;
`signify/internal/edwards25519/edwards25519.go` and `const.go` (all tables, number by number); `crypto/crypto.go`;
`cmd/psignify/main.go`. `FeCopy`, `NewDecoder` and `init` are assignments and have no definition of their own.

Go library code that the model spells out, from its source: `encoding/base64.StdEncoding` (encode, decode with line ends),
`bufio.Scanner` with its 64 KiB limit, `ioutil.ReadFile`/`WriteFile`, `binary.Read`, `strings.TrimSuffix`, `filepath.Base`, `flag.Parse`,
`nacl/secretbox` (from key stream and MAC), `box.Precompute` (from the two primitives), the argument checks of `bcrypt_pbkdf.Key`.

### Not modelled, left arbitrary

* `sha512`, `ed25519.Sign`/`Verify`/`GenerateKey`, `bcrypt_pbkdf`, `curve25519`, Salsa20, HSalsa20, Poly1305, HMAC: arbitrary functions
  (`Prims`).
  What a theorem needs of them is a hypothesis that it names: `EdCorrect` (signing then verifying succeeds), `DHAgrees`/`BoxMatches`,
  `Signs`, `GoSigns`, `GoVerifies` (the library does what RFC 8032 says, over the curve of `Spec/`), `Conforms` (that and RFC 7748).
  Collision resistance is never assumed: theorems end in "or here is a collision".
* `crypto/rand`: any stream of bytes. Theorems about distinctness say "unless these positions of the stream coincide".
* The kernel and file system: a map from paths to contents and modes, with a schedule of outcomes for each system call. No links, no
  permission checks, no concurrent processes. Data reaches the file when the write call returns.
* Memory: slices are values except for the passphrase buffers, which have identities so that wiping can be stated. The garbage
  collector, copies made by the library and swap are out of scope. Timing is out of scope.
* The text of error values, `os/user`, `filepath.Join`: arbitrary (`CliEnv`).

### Where the code falls short

Claims with status `partial` are false of the code as stated; a `_negation` theorem has the witness and a `_partial` theorem the part
that holds. The findings:

* `Encoder.Write` returns three times the number of groups completed, not the length of its argument (C04); `Decoder.Read` panics unless the buffer length is a multiple of 3 (C05).
* Short reads of the message make `Seal` write a truncated message, and report success (C45); `Seal` ignores errors of `Close` (C44); the
  encryption of the empty message does not open (C37).
* `Open` truncates its destination before anything is authenticated (C48) and ignores what follows the last piece (C47).
* `Sign` does not check the checksum of unencrypted keys (C26); truncated key files are read with zeros (C15, C86); two signatures with an
  intact and a truncated unencrypted key give away the secret scalar (C87).
* `Verify` panics on signature data shorter than 10 bytes (C27, C78).
* `ToBox` leaves the passphrase in memory (C29), and a failed `ToBox` leaves the loaded key damaged (C34). Secret key files are created with
  mode 0644 (C33).
* `-G` without `-p` creates `X.pub.sec` and `X.pub.pub`, which no other default finds (C57); malformed options end with status 0 (C76).
* `slide` drops a carry for scalars at the top of the range (C68).
* Public keys of small order are accepted by `Seal` (C83); the neutral point accepts one signature for all messages (C81).
* Encrypted files do not survive conversion of line ends to CRLF (C84).
* Where `int` has 32 bits, `Seal` of most messages of 2 GiB and more writes a header and nothing else, and reports success (C100).
* `Sign` does not look at the algorithm tag of the secret key and copies it into the signature: with a key of another tag it reports success and writes a file that `Verify` rejects (C101).
* The rounds of the KDF are cut to 32 bits, so that 2^32+1 means one (C95). `Decoder` loses data over readers that return it together with
  `io.EOF`, and gives wrong data over readers that return (0, nil) (C96).
* `GenerateKey` overwrites keys without asking and may leave halves of different pairs (C88).
