{"id": "C01", "title": "Encoder output depends only on the concatenated input", "statement": "After any sequence of Write calls on a base64 Encoder followed by Close, with an underlying writer that does not fail, the bytes received by the underlying writer are the standard base64 of the concatenation of all written buffers, with a newline after every 72 characters of complete groups, the padded last group, and one final newline. How the input was split into Write calls has no effect.", "quantifier": "all byte strings and all ways of cutting them into Write calls", "why_tests_cant": "The number of inputs and of splittings is infinite; the encoder carries up to two bytes between calls, so a test fixes only a few phase/size combinations.", "anchors": ["base64/coding.go:Encoder.Write", "base64/coding.go:Encoder.Close", "base64/coding.go:NewEncoder"]}
{"id": "C02", "title": "Encoder lines never exceed 72 characters", "statement": "Every line in the output of an Encoder (after Write calls and Close) has at most 72 characters, every line break inside the data falls after exactly 72 characters, the output ends with a newline, and removing all newlines leaves exactly the standard base64 of the input.", "quantifier": "all byte strings and all splittings into Write calls", "why_tests_cant": "Line position is state accumulated over the whole history of writes.", "anchors": ["base64/coding.go:Encoder.Write", "base64/coding.go:Encoder.Close"]}
{"id": "C03", "title": "Decoder inverts Encoder", "statement": "Reading back what an Encoder produced through a Decoder, with Read buffers whose sizes are multiples of 3, returns the original bytes in order, each Read filling its buffer until the data runs out; newlines may be placed anywhere in the encoded text without changing the result.", "quantifier": "all byte strings, all write splittings, all newline placements and all sequences of read-buffer sizes divisible by 3", "why_tests_cant": "Infinite inputs, and correctness depends on the alignment of three independent chunkings.", "anchors": ["base64/coding.go:Decoder.Read", "base64/coding.go:Encoder.Write", "base64/coding.go:Encoder.Close"]}
{"id": "C04", "title": "Encoder.Write return count", "statement": "Encoder.Write should return len(p) with a nil error, as io.Writer requires. (False of this code: it returns three times the number of groups completed during the call, which can be smaller or larger than len(p).)", "quantifier": "all encoder states and all buffers", "why_tests_cant": "The existing test uses a single 72-byte write, for which the count happens to be right.", "anchors": ["base64/coding.go:Encoder.Write"]}
{"id": "C05", "title": "Decoder.Read never overruns the caller's buffer", "statement": "Decoder.Read(p) must not panic and must never return more than len(p) bytes. (True whenever len(p) is a multiple of 3, which covers every use in this repository; false otherwise: it requests ceil(len(p)/3) groups and the decode indexes past the end of p.)", "quantifier": "all sources and all buffer sizes", "why_tests_cant": "The panic depends on the residue of the buffer size and on the remaining input length.", "anchors": ["base64/coding.go:Decoder.Read"]}
{"id": "C06", "title": "Decoder end of stream", "statement": "When the source is exhausted (only newlines or nothing left before EOF) Decoder.Read returns 0 bytes and, contrary to the io.Reader convention, a nil error and never io.EOF.", "quantifier": "all exhausted sources and all buffer sizes", "why_tests_cant": "Readers like ioutil.ReadAll loop until io.EOF; no finite test can show it is never returned.", "anchors": ["base64/coding.go:Decoder.Read"]}
{"id": "C07", "title": "Encoder reports write failures and leaves a prefix", "statement": "If every Write call and Close return nil then the underlying writer accepted the complete encoded text; if some call is the first to return an error, the text accepted by the underlying writer so far is a prefix of the complete encoded text (up to a partial piece of the failing underlying write).", "quantifier": "all inputs, all splittings, all points and sizes of underlying write failure", "why_tests_cant": "The failure can strike at any underlying write.", "anchors": ["base64/coding.go:Encoder.Write", "base64/coding.go:Encoder.Close"]}
{"id": "C08", "title": "Data files round-trip", "statement": "Whatever bytes are stored in a data file with a comment line starting with 'untrusted comment: ', reading the file back yields exactly these bytes and the comment text, provided the comment contains no newline and does not end with a carriage return, and every line is shorter than 64 KiB.", "quantifier": "all data byte strings and comments within the stated limits", "why_tests_cant": "Infinite inputs; base64 padding and line scanning interact.", "anchors": ["signify/common.go:writeDataFile", "signify/common.go:readDataFileBytes", "signify/common.go:dataFile.Encode"]}
{"id": "C09", "title": "Comment lines and trailing lines never influence the data", "statement": "Prepending any number of comment lines (each shorter than 64 KiB), appending anything after the data line, or ending lines with CRLF does not change the data read from a data file; the reported comment is the concatenation of the comment lines with their prefixes removed.", "quantifier": "all numbers and contents of comment lines and all trailing content", "why_tests_cant": "Unbounded number of lines.", "anchors": ["signify/common.go:readDataFileBytes"]}
{"id": "C10", "title": "A data file without a data line is rejected", "statement": "A non-empty file consisting only of comment lines never yields data: reading it returns an error.", "quantifier": "all files that consist of comment lines only", "why_tests_cant": "The parser falls through with the last comment line as payload; only a proof over all comments shows that this always fails to decode.", "anchors": ["signify/common.go:readDataFileBytes"]}
{"id": "C11", "title": "Over-long lines end the scan", "statement": "A line of 64 KiB or more ends the scan: if a comment line precedes it the read fails; if it is the first line the file reads as empty data. It is never silently truncated or accepted.", "quantifier": "all files containing such a line", "why_tests_cant": "The threshold is a boundary over lengths; the scanner error is ignored by the code.", "anchors": ["signify/common.go:readDataFileBytes"]}
{"id": "C12", "title": "Base64 payload decoding never panics and is exact", "statement": "Decoding the payload line never panics whatever the line is, and what the writer encodes decodes to exactly the same bytes.", "quantifier": "all byte strings as payload lines", "why_tests_cant": "Infinite inputs including malformed ones.", "anchors": ["signify/common.go:readDataFileBytes", "signify/common.go:writeDataFile"]}
{"id": "C13", "title": "Public key parsing accepts exactly the 42-byte encoding", "statement": "Parsing a public key accepts exactly the payloads of 42 bytes, parse and encode are mutually inverse, and any other length is an error.", "quantifier": "all payloads and all public keys", "why_tests_cant": "Infinite payloads.", "anchors": ["signify/key.go:readPublicKeyData", "signify/key.go:Public.encode"]}
{"id": "C14", "title": "Private key encoding round-trips", "statement": "Parsing the encoding of any private key returns the same private key, including a KDF round count stored big-endian.", "quantifier": "all private keys", "why_tests_cant": "2^832 possible keys.", "anchors": ["signify/key.go:readPrivateKeyData", "signify/key.go:Private.encode"]}
{"id": "C15", "title": "Private key payload length is validated", "statement": "Parsing a private key should accept only the 104-byte encoding. (False of this code: exactly the payloads of at least 41 bytes are accepted; a short key field is filled with zeros and bytes beyond 104 are ignored.)", "quantifier": "all payloads", "why_tests_cant": "The accepted set is infinite and the boundary comes from the short-read behaviour of each field.", "anchors": ["signify/key.go:readPrivateKeyData"]}
{"id": "C16", "title": "Signature encoding round-trips", "statement": "Parsing the encoding of any signature returns the same signature, and distinct 74-byte payloads parse to distinct signatures.", "quantifier": "all signatures", "why_tests_cant": "2^592 possible signatures.", "anchors": ["signify/signature.go:readSignatureData", "signify/signature.go:Signature.encode"]}
{"id": "C17", "title": "Signature payload length is validated", "statement": "Parsing a signature should return an error for payloads of the wrong length. (False of this code: payloads shorter than 10 bytes panic, payloads of 10 to 73 bytes are zero-filled, longer ones are cut.)", "quantifier": "all payloads", "why_tests_cant": "Boundary behaviour over all lengths, including a runtime panic.", "anchors": ["signify/signature.go:readSignatureData"]}
{"id": "C18", "title": "Sign then Verify succeeds", "statement": "For every key pair made by GenerateKey with any passphrase (empty or not), every message file, and every signature path, Sign with the same passphrase returns nil and Verify with the matching public key on the unchanged message returns nil, when no I/O fails and the key file name contains no newline.", "quantifier": "all entropy, passphrases, round counts, messages and paths", "why_tests_cant": "Infinite messages and keys; tests cover one key.", "anchors": ["signify/key.go:Sign", "signify/key.go:Verify", "signify/key.go:GenerateKey"]}
{"id": "C19", "title": "Verify accepts exactly what Ed25519 accepts under the right key number", "statement": "Verify returns nil exactly when the three files can be read, the public key payload has 42 bytes, both algorithm tags are 'Ed', the key numbers are equal and Ed25519 accepts the signature on exactly the bytes of the message file. In every other case it does not return nil.", "quantifier": "all file contents", "why_tests_cant": "Adversarial files range over an infinite set; acceptance is a security decision.", "anchors": ["signify/key.go:Verify", "signify/key.go:Public.verify", "signify/key.go:Public.verifyEd25519"]}
{"id": "C20", "title": "Verify is read-only", "statement": "Verify never changes any file, whatever the files contain and whatever I/O failure, panic or crash happens.", "quantifier": "all filesystem states, all fault and crash schedules", "why_tests_cant": "All schedules.", "anchors": ["signify/key.go:Verify"]}
{"id": "C21", "title": "Sign changes only the signature file", "statement": "Sign changes no file other than the signature path, under any fault or crash schedule; and if it fails before the signature is computed (unreadable or malformed key, prompt failure, wrong passphrase, unreadable message) no file changes at all.", "quantifier": "all filesystem states, prompts, fault and crash schedules", "why_tests_cant": "All schedules and crash points.", "anchors": ["signify/key.go:Sign", "signify/common.go:writeDataFile"]}
{"id": "C22", "title": "A crash or write failure while signing leaves a prefix of the signature file", "statement": "After Sign, the signature path holds either its old content or a prefix of the complete signature file; and if Sign returns nil it holds the complete file.", "quantifier": "all fault and crash schedules", "why_tests_cant": "Every crash point.", "anchors": ["signify/key.go:Sign", "signify/common.go:writeDataFile"]}
{"id": "C23", "title": "Default output paths", "statement": "With an empty signature path, Sign and Verify behave exactly as with message path + '.sig'; with an empty encrypted path Seal behaves exactly as with message path + '.enc'.", "quantifier": "all paths and world states", "why_tests_cant": "Equality of behaviours over all states.", "anchors": ["signify/key.go:Sign", "signify/key.go:Verify", "crypto/crypto.go:Seal"]}
{"id": "C24", "title": "Content of a signature file", "statement": "On success Sign writes the comment 'untrusted comment: verify with <base name of the key path with .sec replaced by .pub>' and the signature made over exactly the message file's bytes, carrying the key's algorithm tag and key number.", "quantifier": "all keys, messages and paths", "why_tests_cant": "Infinite inputs.", "anchors": ["signify/key.go:Sign", "signify/key.go:Private.sign"]}
{"id": "C25", "title": "A passphrase-protected key signs only if the checksum verifies", "statement": "With an encrypted private key, Sign writes a signature only if the key decrypted under the given passphrase matches the stored checksum and the KDF tag is 'BK'; otherwise it returns an error and writes nothing.", "quantifier": "all keys, passphrases and messages", "why_tests_cant": "Infinite passphrases.", "anchors": ["signify/key.go:Sign", "signify/key.go:Private.decrypt", "signify/key.go:Private.Check"]}
{"id": "C26", "title": "Corrupted keys are never used", "statement": "Sign and Private.ToBox should refuse a private key whose checksum does not match. (False of this code for unencrypted keys: Sign never checks the checksum, and ToBox prompts, skips decryption and returns a key.)", "quantifier": "all unencrypted private keys with a wrong checksum", "why_tests_cant": "The existing tests use only intact keys.", "anchors": ["signify/key.go:Sign", "signify/key.go:Private.ToBox", "signify/key.go:Private.Check"]}
{"id": "C27", "title": "Malformed signature files are reported as errors", "statement": "Verify should return an error, not panic, on every malformed signature file. (False of this code: exactly the decodable signature payloads shorter than 10 bytes, for instance an empty file, make Verify panic.)", "quantifier": "all signature files", "why_tests_cant": "Infinite malformed inputs.", "anchors": ["signify/key.go:Verify", "signify/signature.go:readSignatureData"]}
{"id": "C28", "title": "Prompting discipline", "statement": "Sign asks for a passphrase exactly once, without confirmation, if and only if the loaded key is encrypted.", "quantifier": "all keys and world states", "why_tests_cant": "All key files.", "anchors": ["signify/key.go:Sign", "signify/key.go:PassphrasePrompt"]}
{"id": "C29", "title": "Passphrases are wiped after signing", "statement": "Whenever Sign returns (with or without error, or by panic) after it obtained a passphrase, the buffer that held the passphrase contains only zeros. (Not so for Private.ToBox, which leaves it in memory.)", "quantifier": "all keys, passphrases, messages, fault schedules", "why_tests_cant": "Every exit path.", "anchors": ["signify/key.go:Sign", "signify/common.go:zero", "signify/key.go:Private.ToBox"]}
{"id": "C30", "title": "Encrypted iff a passphrase was given", "statement": "If GenerateKeypair succeeds, the private key is encrypted exactly when the passphrase is non-empty, its round count is the requested one reduced to 32 bits (42 by default) and positive in that case; a round count that reduces to 0 together with a passphrase is an error, never an unencrypted key.", "quantifier": "all passphrases, options (including negative and huge round counts) and entropy", "why_tests_cant": "Integer wrap-around boundary over all option values.", "anchors": ["signify/key.go:GenerateKeypair", "signify/key.go:Private.IsEncrypted"]}
{"id": "C31", "title": "Generated keys decrypt to a working key pair", "statement": "Decrypting a generated private key with the same passphrase succeeds, and gives an Ed25519 key whose second half is the generated public key, whose checksum verifies, and whose algorithm tag and key number equal those of the public key.", "quantifier": "all passphrases, options and entropy", "why_tests_cant": "All keys.", "anchors": ["signify/key.go:GenerateKeypair", "signify/key.go:Private.decrypt"]}
{"id": "C32", "title": "GenerateKey writes only its two files, secret first", "statement": "GenerateKey changes no file other than keypath.sec and keypath.pub; keypath.pub is touched only after keypath.sec was completely written; if it returns nil both files are complete and parse back to the generated pair.", "quantifier": "all paths, all fault and crash schedules", "why_tests_cant": "All crash points.", "anchors": ["signify/key.go:GenerateKey", "signify/common.go:writeDataFile"]}
{"id": "C33", "title": "The secret key file is private", "statement": "A freshly created secret key file should not be readable by other users. (False of this code: it is created with mode 0644.)", "quantifier": "all key generations creating a new file", "why_tests_cant": "Holds or fails for every run; the tests never look at the mode.", "anchors": ["signify/key.go:GenerateKey", "signify/common.go:writeDataFile"]}
{"id": "C34", "title": "Wrong passphrase attempts do not damage a loaded key", "statement": "After a failed ToBox with a wrong passphrase, a later ToBox with the right passphrase should succeed. (False of this code: a failed decryption leaves the key field XORed with the wrong pad; after any history of failed attempts the key field is the stored one XORed with all pads so far.)", "quantifier": "all histories of passphrase attempts", "why_tests_cant": "Histories are unbounded.", "anchors": ["signify/key.go:Private.decrypt", "signify/key.go:Private.ToBox"]}
{"id": "C35", "title": "Decryption is an involution", "statement": "Running the decryption step twice with the same passphrase restores the stored key bytes, and nothing but the key field ever changes.", "quantifier": "all keys and passphrases", "why_tests_cant": "All inputs.", "anchors": ["signify/key.go:Private.decrypt"]}
{"id": "C36", "title": "Seal then Open recovers the message", "statement": "For every generated key pair and every non-empty message file, Seal returns nil and Open with the matching private key returns nil and recreates exactly the message, when no I/O fails and the paths differ.", "quantifier": "all keys, ephemeral entropy, passphrases and message lengths", "why_tests_cant": "Message length ranges over every chunk boundary; the chunk, base64 group and line sizes interact.", "anchors": ["crypto/crypto.go:Seal", "crypto/crypto.go:Open", "crypto/crypto.go:seal", "crypto/crypto.go:open"]}
{"id": "C37", "title": "Empty messages survive Seal and Open", "statement": "Sealing an empty file and opening the result should give back an empty file. (False of this code: Seal succeeds but writes no header, so Open always fails.)", "quantifier": "all keys", "why_tests_cant": "No test covers the empty message.", "anchors": ["crypto/crypto.go:seal", "crypto/crypto.go:open"]}
{"id": "C38", "title": "Open outputs only what the key holder's peer sealed", "statement": "If open returns nil then the stream it read begins with a header carrying a chunk count and an ephemeral key authenticated under the shared secret, followed by exactly that many chunks, the i-th being byte for byte the sealing of the i-th output piece under nonce i; the output is the concatenation of these pieces.", "quantifier": "all streams, all read schedules, all keys", "why_tests_cant": "Adversarial inputs.", "anchors": ["crypto/crypto.go:open"]}
{"id": "C39", "title": "Truncation, reordering and substitution of chunks are detected", "statement": "A stream with fewer chunks than the authenticated count never opens successfully, and a chunk is accepted only if it is the sealing of its plaintext under the nonce of its own position.", "quantifier": "all streams and all keys", "why_tests_cant": "Adversarial inputs of unbounded length.", "anchors": ["crypto/crypto.go:open", "crypto/crypto.go:incrementNonce"]}
{"id": "C40", "title": "Open never emits unauthenticated data", "statement": "At every point of every run, including failures and crashes, what open has written is the concatenation of plaintexts of an authenticated prefix of the chunks (up to a partial last write).", "quantifier": "all streams, fault and crash schedules", "why_tests_cant": "Every failure and crash point.", "anchors": ["crypto/crypto.go:open"]}
{"id": "C41", "title": "Nonces within a message never repeat", "statement": "The i-th chunk of a message is sealed under the 24-byte big-endian encoding of i; distinct chunks use distinct nonces, and the increment reports an error exactly when it would wrap to zero.", "quantifier": "all chunk indices and all nonces", "why_tests_cant": "2^192 nonces; no run reaches the carry boundaries.", "anchors": ["crypto/crypto.go:incrementNonce", "crypto/crypto.go:seal"]}
{"id": "C42", "title": "Layout and size of sealed data", "statement": "On success, with a source that fills every read, seal emits a 72-byte header with the big-endian number ceil(len/16385) of chunks, the ephemeral public key and the MAC, followed by one sealed chunk per 16385 message bytes (the last possibly shorter); the total is 72 + len + 16*chunks bytes.", "quantifier": "all messages", "why_tests_cant": "All lengths around chunk boundaries.", "anchors": ["crypto/crypto.go:seal"]}
{"id": "C43", "title": "Seal changes only the encrypted file and leaves the message intact", "statement": "Seal changes no file other than the encrypted path, under any fault or crash schedule, hence not the message unless the paths are equal. (If they are equal the message is destroyed even though Seal may return nil.)", "quantifier": "all filesystem states, fault and crash schedules", "why_tests_cant": "All schedules; aliasing.", "anchors": ["crypto/crypto.go:Seal"]}
{"id": "C44", "title": "A nil result from Seal means the encrypted file is complete", "statement": "If Seal returns nil the encrypted file should contain the complete encoding. (False of this code: the error of the final encoder Close is discarded.)", "quantifier": "all fault schedules", "why_tests_cant": "The fault must hit the last write.", "anchors": ["crypto/crypto.go:Seal", "base64/coding.go:Encoder.Close"]}
{"id": "C45", "title": "Sealing covers the whole message", "statement": "If seal returns nil everything in the message should have been sealed. (False of this code for sources that return short reads: the number of reads is fixed by the length, so the tail is silently dropped; what is sealed is exactly the sequence of pieces read.)", "quantifier": "all read schedules", "why_tests_cant": "Short reads do not occur with test files.", "anchors": ["crypto/crypto.go:seal"]}
{"id": "C46", "title": "Open skips exactly one line", "statement": "Open ignores everything up to and including the first newline of the encrypted file whatever it says, fails if there is no newline, and ignores newlines elsewhere.", "quantifier": "all first lines", "why_tests_cant": "Infinite inputs.", "anchors": ["crypto/crypto.go:skipComment", "crypto/crypto.go:Open"]}
{"id": "C47", "title": "Data after the last chunk", "statement": "Bytes that follow a full-size last chunk never affect the result of open (they are not covered by any authentication); bytes appended to a shorter last chunk make open fail unless the extended chunk itself authenticates.", "quantifier": "all trailing data", "why_tests_cant": "Infinite inputs.", "anchors": ["crypto/crypto.go:open"]}
{"id": "C48", "title": "A failing Open leaves the destination untouched", "statement": "If Open fails the destination file should be unchanged. (False of this code once the encrypted file has a first line: the destination is created or truncated before anything is authenticated. What remains true: Open changes no other file.)", "quantifier": "all filesystem states and schedules", "why_tests_cant": "All failure points.", "anchors": ["crypto/crypto.go:Open"]}
{"id": "C49", "title": "Public.ToBox computes the Montgomery u-coordinate", "statement": "For every public key whose 255-bit y encodes a point of the curve -x^2+y^2=1+d x^2 y^2 over GF(2^255-19), ToBox returns the canonical little-endian encoding of (1+y)/(1-y); for y = 1 it returns 0; the result is always below 2^255-19.", "quantifier": "all 2^256 public key strings", "why_tests_cant": "2^256 inputs, with limb arithmetic whose carries and overflows depend on the value.", "anchors": ["signify/key.go:Public.ToBox", "signify/internal/edwards25519/edwards25519.go:ExtendedGroupElement.FromBytes", "signify/internal/edwards25519/edwards25519.go:FeInvert", "signify/internal/edwards25519/edwards25519.go:FeToBytes"]}
{"id": "C50", "title": "Public.ToBox rejects exactly the strings that encode no curve point", "statement": "ToBox fails exactly when (y^2-1)/(d y^2+1) is not a square modulo 2^255-19.", "quantifier": "all 2^256 public key strings", "why_tests_cant": "2^256 inputs.", "anchors": ["signify/key.go:Public.ToBox", "signify/internal/edwards25519/edwards25519.go:ExtendedGroupElement.FromBytes"]}
{"id": "C51", "title": "Private.ToBox returns a clamped scalar", "statement": "For every key, the returned scalar is the first half of SHA-512 of the seed with the low three bits cleared, the top bit cleared and the second-highest bit set; the digest buffer is wiped and the result does not alias it.", "quantifier": "all private keys", "why_tests_cant": "All digests.", "anchors": ["signify/key.go:Private.ToBox", "signify/common.go:zero64"]}
{"id": "C52", "title": "Both halves of a generated key pair convert to matching box keys", "statement": "For every generated pair, the box public key from Public.ToBox is the X25519 public key of the box private key from Private.ToBox, so both sides of an exchange compute the same shared key.", "quantifier": "all seeds", "why_tests_cant": "2^256 seeds; requires the birational equivalence between the Edwards and Montgomery curves.", "anchors": ["signify/key.go:Public.ToBox", "signify/key.go:Private.ToBox", "crypto/crypto.go:seal", "crypto/crypto.go:open"]}
{"id": "C53", "title": "Field multiplication and squaring are exact and do not overflow", "statement": "For all field elements within the documented limb bounds, FeMul, FeSquare and FeSquare2 return, in wrapping 32- and 64-bit arithmetic, limbs within the documented output bounds that represent exactly the product (square, doubled square) modulo 2^255-19: no overflow corrupts a result.", "quantifier": "all limb vectors within bounds", "why_tests_cant": "About 2^520 inputs; overflow cases are rare.", "anchors": ["signify/internal/edwards25519/edwards25519.go:FeMul", "signify/internal/edwards25519/edwards25519.go:FeSquare", "signify/internal/edwards25519/edwards25519.go:FeSquare2", "signify/internal/edwards25519/edwards25519.go:FeCombine"]}
{"id": "C54", "title": "Field inversion", "statement": "FeInvert returns the multiplicative inverse modulo 2^255-19 of every non-zero element and 0 for 0; fePow22523 returns z^(2^252-3).", "quantifier": "all limb vectors within bounds", "why_tests_cant": "2^255 field elements.", "anchors": ["signify/internal/edwards25519/edwards25519.go:FeInvert", "signify/internal/edwards25519/edwards25519.go:fePow22523"]}
{"id": "C55", "title": "Field serialisation is canonical", "statement": "FeToBytes returns the unique little-endian encoding below 2^255-19 of the represented residue, for every representation within bounds; FeFromBytes followed by FeToBytes reduces the 255-bit integer modulo 2^255-19; FeIsNegative and FeIsNonZero report parity and non-zeroness of the canonical residue.", "quantifier": "all limb vectors and all 32-byte strings", "why_tests_cant": "2^256 strings and many representations of each residue.", "anchors": ["signify/internal/edwards25519/edwards25519.go:FeToBytes", "signify/internal/edwards25519/edwards25519.go:FeFromBytes", "signify/internal/edwards25519/edwards25519.go:FeIsNegative", "signify/internal/edwards25519/edwards25519.go:FeIsNonZero"]}
{"id": "C56", "title": "Command-line dispatch and exit status", "statement": "The tool performs at most one operation, chosen in the order generate, sign, verify, encrypt, decrypt; it exits with status 0 exactly when the chosen operation returned nil, and for verification prints '<message>: OK' exactly in that case.", "quantifier": "all flag combinations and world states", "why_tests_cant": "All combinations and all operation results.", "anchors": ["cmd/psignify/main.go:main"]}
{"id": "C57", "title": "Default key paths are usable together", "statement": "Generating a key pair with default paths and then signing with default paths should use the same key. (False of this code: -G without -p uses <base>.pub as key name and writes <base>.pub.sec and <base>.pub.pub, while -S looks for <base>.sec.)", "quantifier": "all default key bases", "why_tests_cant": "Depends on the environment; untested.", "anchors": ["cmd/psignify/main.go:main", "cmd/psignify/main.go:defaultKeyBase"]}
{"id": "C58", "title": "Passphrase confirmation", "statement": "With confirmation, the passphrase prompt returns a passphrase only if both entries are equal, and then exactly that entry; otherwise it returns an error; without confirmation it reads exactly one entry. The confirmation copy is wiped.", "quantifier": "all pairs of entries", "why_tests_cant": "Infinite entries.", "anchors": ["signify/key.go:PassphrasePrompt"]}
{"id": "C59", "title": "Wiping", "statement": "zero and zero64 set every byte of the buffer to 0, keep its length and accept nil.", "quantifier": "all buffers", "why_tests_cant": "All contents and lengths.", "anchors": ["signify/common.go:zero", "signify/common.go:zero64"]}
{"id": "C60", "title": "Decoding of curve points", "statement": "Whenever ExtendedGroupElement.FromBytes succeeds, the element is the affine point (x, y, 1, xy) on the curve with the encoded y, and x has the encoded sign unless it is 0; conversely a point of the curve with the encoded y and sign is the one decoded.", "quantifier": "all 2^256 strings", "why_tests_cant": "2^256 inputs; square roots modulo 2^255-19.", "anchors": ["signify/internal/edwards25519/edwards25519.go:ExtendedGroupElement.FromBytes"]}
{"id": "C61", "title": "Field addition, subtraction and negation are exact", "statement": "For limbs within the documented bounds FeAdd, FeSub and FeNeg represent the sum, difference and negation modulo 2^255-19, within the documented output bounds.", "quantifier": "all limb vectors within bounds", "why_tests_cant": "About 2^500 inputs.", "anchors": ["signify/internal/edwards25519/edwards25519.go:FeAdd", "signify/internal/edwards25519/edwards25519.go:FeSub", "signify/internal/edwards25519/edwards25519.go:FeNeg"]}
{"id": "C62", "title": "Conditional move selects", "statement": "FeCMove(f, g, b) leaves f unchanged for b = 0 and sets it to g for b = 1, for all int32 limbs.", "quantifier": "all limb vectors", "why_tests_cant": "2^640 inputs.", "anchors": ["signify/internal/edwards25519/edwards25519.go:FeCMove"]}
{"id": "C63", "title": "Point formulas", "statement": "Doubling, addition, subtraction, the mixed variants, the zero elements and all conversions between the five representations compute the group operations of the curve, with no exceptional cases and no overflow, and keep the limbs in a range that the next operation accepts.", "quantifier": "all points and all bounded representations of them", "why_tests_cant": "About 2^1000 representations; exceptional cases of addition formulas are rare.", "anchors": ["signify/internal/edwards25519/edwards25519.go:ProjectiveGroupElement.Double", "signify/internal/edwards25519/edwards25519.go:geAdd", "signify/internal/edwards25519/edwards25519.go:geSub", "signify/internal/edwards25519/edwards25519.go:geMixedAdd", "signify/internal/edwards25519/edwards25519.go:geMixedSub", "signify/internal/edwards25519/edwards25519.go:ToCached", "signify/internal/edwards25519/edwards25519.go:ToExtended", "signify/internal/edwards25519/edwards25519.go:ToProjective"]}
{"id": "C64", "title": "Serialisation of points", "statement": "ToBytes writes the RFC 8032 encoding; FromBytes restores the point; equal encodings mean equal points; FromBytes followed by ToBytes is the identity exactly on encodings of points.", "quantifier": "all points and all 32-byte strings", "why_tests_cant": "2^255 points.", "anchors": ["signify/internal/edwards25519/edwards25519.go:ExtendedGroupElement.ToBytes", "signify/internal/edwards25519/edwards25519.go:ProjectiveGroupElement.ToBytes", "signify/internal/edwards25519/edwards25519.go:ExtendedGroupElement.FromBytes"]}
{"id": "C65", "title": "Precomputed tables", "statement": "Entry (i, j) of base is (j+1)*256^i times the base point, entry j of bi is (2j+1) times the base point, and d, d2, SqrtM1 have their defining values.", "quantifier": "all 264 entries", "why_tests_cant": "Unit tests use only what a few scalars touch; one wrong limb shows for 1 in 16 scalars or fewer.", "anchors": ["signify/internal/edwards25519/const.go:base", "signify/internal/edwards25519/const.go:bi"]}
{"id": "C66", "title": "Table lookup", "statement": "selectPoint(pos, b) is b*256^pos times the base point for -8 <= b <= 8.", "quantifier": "all positions and digits", "why_tests_cant": "Composition with all table entries and signs, and bit tricks on int32.", "anchors": ["signify/internal/edwards25519/edwards25519.go:selectPoint", "signify/internal/edwards25519/edwards25519.go:equal", "signify/internal/edwards25519/edwards25519.go:negative", "signify/internal/edwards25519/edwards25519.go:PreComputedGroupElementCMove"]}
{"id": "C67", "title": "Fixed-base scalar multiplication", "statement": "GeScalarMultBase(a) is a times the base point for every a with a[31] <= 127; the results for two scalars agree exactly if the scalars are congruent modulo the group order, which is prime.", "quantifier": "all 2^255 scalars", "why_tests_cant": "2^255 scalars.", "anchors": ["signify/internal/edwards25519/edwards25519.go:GeScalarMultBase"]}
{"id": "C68", "title": "Signed digits of a scalar", "statement": "slide returns digits that are zero or odd between -15 and 15 and that stand for the scalar. (The second part is false above 2^255: for 2^256-1 the digits stand for -1.)", "quantifier": "all 2^256 scalars", "why_tests_cant": "2^256 scalars; the lost carry needs a scalar of a special form.", "anchors": ["signify/internal/edwards25519/edwards25519.go:slide"]}
{"id": "C69", "title": "Double scalar multiplication", "statement": "GeDoubleScalarMultVartime(a, A, b) is a*A + b*B for all scalars a, b and points A, and never indexes outside its tables. (The first part is false for scalars above 2^255.)", "quantifier": "all scalars and points", "why_tests_cant": "2^767 inputs.", "anchors": ["signify/internal/edwards25519/edwards25519.go:GeDoubleScalarMultVartime"]}
{"id": "C70", "title": "ScMulAdd", "statement": "ScMulAdd writes (a*b + c) mod L in reduced form, L being the group order; no intermediate value overflows int64.", "quantifier": "all triples of 32-byte strings", "why_tests_cant": "2^768 inputs; carry errors show only on rare inputs.", "anchors": ["signify/internal/edwards25519/edwards25519.go:ScMulAdd"]}
{"id": "C71", "title": "ScReduce", "statement": "ScReduce writes s mod L in reduced form; no intermediate value overflows int64.", "quantifier": "all 64-byte strings", "why_tests_cant": "2^512 inputs; carry errors show only on rare inputs.", "anchors": ["signify/internal/edwards25519/edwards25519.go:ScReduce"]}
{"id": "C72", "title": "ScMinimal", "statement": "ScMinimal accepts exactly the numbers below L, so a residue has exactly one accepted encoding.", "quantifier": "all 32-byte strings", "why_tests_cant": "2^256 inputs; equality of leading words is rare.", "anchors": ["signify/internal/edwards25519/edwards25519.go:ScMinimal"]}
{"id": "C73", "title": "RFC 8032 signatures verify", "statement": "A signature made by the procedure of RFC 8032 is valid by its verification equation, for every hash function, seed and message; so Sign followed by Verify succeeds for any Ed25519 implementation that follows the RFC.", "quantifier": "all hash functions, seeds, messages", "why_tests_cant": "Infinite messages; group theory of the curve.", "anchors": ["signify/key.go:Sign", "signify/key.go:Verify"]}
{"id": "C74", "title": "The edwards25519 functions assemble to Ed25519", "statement": "Key derivation, signing and verification put together from the functions of internal/edwards25519 agree with RFC 8032: the same public keys and signatures, and verification accepts exactly if the key decodes, S < L and the first half is the encoding of S*B - k*A.", "quantifier": "all hash functions, seeds, keys, messages, signatures", "why_tests_cant": "2^768 key and signature pairs.", "anchors": ["signify/internal/edwards25519/edwards25519.go:GeScalarMultBase", "signify/internal/edwards25519/edwards25519.go:GeDoubleScalarMultVartime", "signify/internal/edwards25519/edwards25519.go:ScMulAdd", "signify/internal/edwards25519/edwards25519.go:ScReduce", "signify/internal/edwards25519/edwards25519.go:ScMinimal"]}
{"id": "C75", "title": "Command-line options mean what the usage says", "statement": "Whatever the order, repetition and notation (-m x, -m=x, --m x, --m=x) of the options, the process runs with exactly the settings they denote: the last value given for each path, a switch on exactly if it was given; values may start with a dash; arguments after the options have no effect.", "quantifier": "all sequences of options, values and trailing arguments", "why_tests_cant": "Unbounded number of argument lists.", "anchors": ["cmd/psignify/main.go:main"]}
{"id": "C76", "title": "Status 0 means the requested operation succeeded", "statement": "If psignify -V ... ends with status 0 then the signature was accepted. (False of this code: the usage function that flag parsing calls on a malformed command line ends the process with status 0, so a forgotten or misspelled option makes a script believe that verification succeeded. True for well-formed command lines.)", "quantifier": "all command lines and all states of the machine", "why_tests_cant": "Unbounded command lines; the tests of the repository do not run the command.", "anchors": ["cmd/psignify/main.go:init", "cmd/psignify/main.go:main"]}
{"id": "C77", "title": "Entropy is never reused", "statement": "In every history of calls no byte of the system's entropy is used by two calls. Seal uses 32 bytes, GenerateKey 56, Sign, Verify and Open none; so two files sealed for the same recipient have secrets from disjoint parts of the stream.", "quantifier": "all histories of calls with arbitrary other activity in between, all schedules of failures", "why_tests_cant": "Unbounded histories; a reused secret shows only in the secret.", "anchors": ["crypto/crypto.go:Seal", "crypto/crypto.go:seal", "signify/key.go:GenerateKey", "signify/key.go:GenerateKeypair", "signify/key.go:Sign", "signify/key.go:Verify", "crypto/crypto.go:Open"]}
{"id": "C78", "title": "No call panics or runs forever", "statement": "Each call of the library ends with nil or an error, and the process with status 0 or 1, unless it is killed. (False of Verify, which panics on a signature file with fewer than 10 bytes of data; true of everything else.)", "quantifier": "all states, contents of files, terminal entries and schedules of failures and short reads", "why_tests_cant": "Infinite inputs and schedules; termination of the byte-wise read loops cannot be observed.", "anchors": ["crypto/crypto.go:Seal", "crypto/crypto.go:Open", "crypto/crypto.go:skipComment", "signify/key.go:GenerateKey", "signify/key.go:Sign", "signify/key.go:Verify", "base64/coding.go:Decoder.Read", "cmd/psignify/main.go:main"]}
{"id": "C79", "title": "Use of the terminal", "statement": "GenerateKey, Verify and Seal neither ask nor print. Sign and Open ask at most once, without confirmation, print only fixed texts, take at most one entry, and write nothing to standard error.", "quantifier": "all states, contents of files, terminal entries and schedules", "why_tests_cant": "Absence of output over infinitely many inputs and failure points.", "anchors": ["signify/key.go:PassphrasePrompt", "signify/key.go:Sign", "crypto/crypto.go:Open", "crypto/crypto.go:Seal", "signify/key.go:Verify", "signify/key.go:GenerateKey"]}
{"id": "C80", "title": "Output of the process", "statement": "What psignify writes to standard output is one of five fixed prompt texts followed, exactly if it ends with status 0, by the line naming the file (for -V, -E, -D). Neither passphrases nor keys nor messages appear there, and OK is never shown for a failed operation.", "quantifier": "all flags, states and schedules", "why_tests_cant": "Absence of output over infinitely many inputs and failure points.", "anchors": ["cmd/psignify/main.go:main", "signify/key.go:PassphrasePrompt"]}
{"id": "C81", "title": "A signature is good for one message only", "statement": "If one signature is accepted with the same public key for two messages, the two messages collide under the hash, modulo the group order, after the common prefix R and public key. (False for all public keys: under the key that encodes the neutral point one fixed signature is accepted for every message, and psignify reads such a key file without complaint. True for every key generated from a seed.)", "quantifier": "all seeds, messages, signatures and signature files", "why_tests_cant": "Infinitely many messages; a test cannot exclude a second message.", "anchors": ["signify/key.go:Verify", "signify/key.go:Public.verify", "signify/key.go:LoadPublicKey"]}
{"id": "C82", "title": "Signatures cannot be altered", "statement": "For a given public key (also a malformed one), message and first half R there is at most one signature that is accepted; two accepted signature files with the same R hold the same signature.", "quantifier": "all public keys, messages and signatures", "why_tests_cant": "2^256 second halves for each signature.", "anchors": ["signify/key.go:Verify", "signify/key.go:Public.verify"]}
{"id": "C83", "title": "The secret shared with the recipient depends on the sender's secret", "statement": "The key that protects an encrypted file is determined by the sender's one-time secret: for a recipient's key generated from a seed different scalars give different X25519 results, except for the pairs that add up to 8L. (False for all public keys: for a point of small order, for instance the key of all zeros, Seal succeeds and protects the file with one fixed key that everybody knows.)", "quantifier": "all seeds, all secrets", "why_tests_cant": "2^251 secrets; needs the group structure.", "anchors": ["crypto/crypto.go:Seal", "crypto/crypto.go:seal", "signify/key.go:Public.ToBox"]}
{"id": "C84", "title": "Files survive conversion of line ends", "statement": "A key or signature file whose line ends were converted from LF to CRLF (mail, Windows checkouts) is read as the original, in particular every file that psignify wrote itself. (False for encrypted files: the decoder counts the carriage returns, so no converted encrypted file can be opened; Open fails and writes no byte of plaintext.)", "quantifier": "all contents of files without CR and with lines below 64 KiB; all sealed messages, keys and states when opening", "why_tests_cant": "Unbounded contents; tests use LF files.", "anchors": ["signify/common.go:readDataFileBytes", "signify/key.go:LoadPublicKey", "signify/key.go:LoadPrivateKey", "signify/signature.go:readSignatureData", "crypto/crypto.go:Open", "base64/coding.go:Decoder.Read"]}
{"id": "C85", "title": "Failures of the system are reported", "statement": "Whatever the system does during a call (failing, short or crashing system calls at any point), the call returns an I/O error or the process dies, or the call returns and leaves exactly what it returns and leaves on a machine on which nothing fails. The same holds for sequences of calls that stop at the first error and for the exit status of the command. (False for Seal, which ignores the error of closing the encrypted file and takes a short read for the end of the message; true for everything else.)", "quantifier": "all calls, sequences of calls, command lines, states and schedules of failures", "why_tests_cant": "Infinitely many schedules; the number of system calls is unbounded.", "anchors": ["signify/key.go:GenerateKey", "signify/key.go:Sign", "signify/key.go:Verify", "crypto/crypto.go:Seal", "crypto/crypto.go:Open", "cmd/psignify/main.go:main"]}
{"id": "C86", "title": "Truncated files are not taken for complete ones", "statement": "If a key or signature file that psignify wrote is cut short at any byte, reading it fails or returns what the complete file holds. (False for secret key and signature files: a file cut at a multiple of four symbols after the fixed header is read as a key or signature whose missing bytes are zero. True for public keys; a signature cut within its second half is not accepted by Verify unless it is the same signature.)", "quantifier": "all keys and signatures, all lengths of the cut file", "why_tests_cant": "All keys and cut positions; tests only read complete files.", "anchors": ["signify/common.go:readDataFileBytes", "signify/key.go:LoadPublicKey", "signify/key.go:LoadPrivateKey", "signify/signature.go:readSignatureData", "signify/key.go:Verify"]}
{"id": "C87", "title": "Signatures do not give away the secret key", "statement": "Signatures made with a secret key file and with a damaged copy of it do not allow anyone to compute the secret scalar. (False for unencrypted keys: Sign checks no checksum for them, so a copy cut inside the public half is used for signing; the signatures of one message by the file and by the copy determine the secret scalar, with which everybody can make accepted signatures of any message. True for encrypted keys as far as the checksum goes: a copy is used only if its decrypted key has the stored checksum.)", "quantifier": "all keys, messages, states and system schedules; hypothesis: the library signs as RFC 8032 defines", "why_tests_cant": "A property of pairs of runs over all keys; the attack needs algebra on the outputs.", "anchors": ["signify/key.go:Sign", "signify/key.go:Private.decrypt", "signify/key.go:LoadPrivateKey"]}
{"id": "C88", "title": "Key generation does not damage existing keys", "statement": "GenerateKey never leaves a secret key and a public key of different pairs and does not destroy existing keys. (False: it overwrites existing files and reports success; if the process dies between the files, the new secret key lies beside the old public key. True if there was no public key file: at every point a readable public key file lies beside the complete secret key of the same pair.)", "quantifier": "all previous contents, passphrases, options, entropy, and schedules of failures and crashes", "why_tests_cant": "All crash points and previous contents.", "anchors": ["signify/key.go:GenerateKey", "signify/key.go:GenerateKeypair"]}
{"id": "C89", "title": "A truncated encrypted file does not open as a shorter message", "statement": "If only a beginning of a file that Seal wrote is left, of whatever length, and Open returns nil for it with the key for which it was sealed, then Open has written the complete message, unless the authentication tag of the last piece is also the tag of a shorter beginning of that piece. In particular files cut between two pieces are not taken for complete ones.", "quantifier": "all messages, keys, lengths of what is left, and schedules of failures, short reads and crashes while opening", "why_tests_cant": "All cut positions of all files and all system schedules.", "anchors": ["crypto/crypto.go:Seal", "crypto/crypto.go:Open", "crypto/crypto.go:seal", "crypto/crypto.go:open"]}
{"id": "C90", "title": "The documented session works from the command line", "statement": "Whoever runs psignify -G (with or without -n), -S, -V, -E and -D with the command lines of the usage text, on machines without faults and typing the same passphrase each time, gets exit status 0 from all five runs, '<message>: OK' from the check, and a decrypted file equal to the message; no files but the two key files, the signature, the encrypted file and the output are touched.", "quantifier": "all key names, messages, passphrases, file systems, contents of the random source and of the terminal, with five separate processes", "why_tests_cant": "Five processes over all file systems, names and passphrases; unit tests call the library functions on a few files.", "anchors": ["cmd/psignify/main.go:main", "signify/key.go:GenerateKey", "signify/key.go:Sign", "signify/key.go:Verify", "crypto/crypto.go:Seal", "crypto/crypto.go:Open"]}
{"id": "C91", "title": "Interrupted encryption does not leave a file that opens as a shorter message", "statement": "However Seal ends (nil, error, death of the process at any time), as long as reads of the message are not cut short, the encrypted path is as it was before, or holds a file for which Open, with the key it was sealed for, on whatever machine, does not return nil unless it has written the complete message (or the authentication tag of the last piece is also the tag of a shorter beginning of that piece).", "quantifier": "all messages, keys, paths and schedules of failures and crashes while sealing, and all schedules while opening", "why_tests_cant": "All points at which the process may die or a write may fail, combined with all schedules of the run that opens the file.", "anchors": ["crypto/crypto.go:Seal", "crypto/crypto.go:seal", "base64/coding.go:Encoder.Write", "base64/coding.go:Encoder.Close", "crypto/crypto.go:Open"]}
{"id": "C92", "title": "A failing Seal leaves the previous encrypted file alone", "statement": "If Seal returns an error, the file at the encrypted path is the one that was there before.", "quantifier": "all public key files, messages, paths, file systems and schedules", "why_tests_cant": "All reasons for a failure at all steps.", "anchors": ["crypto/crypto.go:Seal", "crypto/crypto.go:seal", "signify/internal/edwards25519/edwards25519.go:ExtendedGroupElement.FromBytes"]}
{"id": "C93", "title": "Operations depend only on the files they are given", "statement": "Sign, Verify, Seal, Open and GenerateKeypair, and a whole run of psignify, return the same, print the same and leave the same contents in the files they are given, on any two machines that agree on these files and on everything but the file system; no other file has an influence.", "quantifier": "all file systems, arguments and schedules of failures and crashes", "why_tests_cant": "All pairs of file systems; a test runs on one directory.", "anchors": ["signify/key.go:Sign", "signify/key.go:Verify", "crypto/crypto.go:Seal", "crypto/crypto.go:Open", "signify/key.go:GenerateKey", "cmd/psignify/main.go:main"]}
{"id": "C94", "title": "Public keys and signatures do not depend on the passphrase", "statement": "With the same key material from the random source, GenerateKey writes the same public key file whatever the passphrase, the number of rounds and the salt; and Sign with any of the resulting secret key files writes the same signature file for the same message, so that nothing about the passphrase can be learned from files that are published.", "quantifier": "all passphrases, rounds, salts, key material, messages and file systems", "why_tests_cant": "All pairs of passphrases; a test compares none.", "anchors": ["signify/key.go:GenerateKey", "signify/key.go:Sign"]}
{"id": "C95", "title": "The key is stretched with the number of rounds asked for", "statement": "GenerateKey with a passphrase and rounds n > 0 derives the key mask with n rounds of the KDF; a negative number is not accepted as a number of rounds.", "quantifier": "all numbers of rounds, passphrases and states of the random source", "why_tests_cant": "All values of a 64-bit int; the wraparound is beyond what a test could ever run.", "anchors": ["signify/key.go:GenerateKey", "signify/key.go:GenerateKeypair"]}
{"id": "C96", "title": "The decoder works over every io.Reader", "statement": "Decoder.Read over any reader that keeps the contract of io.Reader (including readers that return (0, nil) and readers that return the last bytes together with io.EOF) gives exactly the data of the base64 text that the reader gives.", "quantifier": "all readers that keep the contract, all texts, all sequences of read sizes divisible by three", "why_tests_cant": "All readers: tests use a bytes.Buffer, which never returns (0, nil) and reports io.EOF by itself.", "anchors": ["base64/coding.go:Decoder.Read"]}
{"id": "C97", "title": "Files written by psignify are usable with signify", "statement": "OpenBSD's signify accepts the secret and public key files that GenerateKey writes: it parses both, gets with the passphrase a secret key that fits the public key, and finds the same key number in both. It accepts the signature file that Sign writes with such a key, finds in the comment the name of the public key file, and the signature is valid according to RFC 8032.", "quantifier": "all passphrases, rounds, random sources, messages and key paths whose last element has no newline or NUL and fewer than 1000 bytes", "why_tests_cant": "All keys and messages; the tests of the repository hold a few files written by signify and none read by it.", "anchors": ["signify/key.go:GenerateKey", "signify/key.go:Sign"]}
{"id": "C98", "title": "Files written by signify are usable with psignify", "statement": "With a secret key file written by signify, and the passphrase with which signify unlocks it, Sign succeeds and writes the file that signify would write (comment, key number and Ed25519 signature by the same secret key). With a public key file and a signature file written by signify, Verify returns nil exactly if the key numbers agree and the signature is valid.", "quantifier": "all files signify can write: all comments, keys, salts, rounds, signatures and trailing content", "why_tests_cant": "All files that another program can write; a test holds a few of them.", "anchors": ["signify/key.go:Sign", "signify/key.go:Verify"]}
{"id": "C99", "title": "psignify reads every data file that signify accepts", "statement": "If signify accepts a file as one of n bytes of data with a comment, psignify reads the same data and comment from it.", "quantifier": "all files accepted by the parser of signify", "why_tests_cant": "All files: the two parsers differ on inputs that nobody thought of testing.", "anchors": ["signify/common.go:readDataFileBytes"]}
{"id": "C100", "title": "Large messages are encrypted whole", "statement": "Seal that returns nil has sealed the whole message, whatever its size and whatever the size of int on the platform.", "quantifier": "all messages, keys and schedules; int of 32 and of 64 bits", "why_tests_cant": "Needs files above 2 GiB and a 32-bit machine.", "anchors": ["crypto/crypto.go:Seal", "crypto/crypto.go:seal"]}
{"id": "C101", "title": "What Sign reports as written can be verified", "statement": "If Sign returns nil, Verify with the public key that belongs to the secret key accepts the signature file it wrote, for any secret key file, also one that was not made by GenerateKey.", "quantifier": "all secret key files, passphrases, messages and schedules of the system", "why_tests_cant": "All key files; tests sign with a few good ones.", "anchors": ["signify/key.go:Sign", "signify/key.go:Verify", "signify/key.go:sign"]}
{"id": "C102", "title": "Encrypting a file that grows keeps what was there", "statement": "If other processes append to the message while seal reads it, what is sealed is a beginning of the file as it is at the end, with everything that was there when its size was taken, and it is framed so that it opens.", "quantifier": "all messages, all histories of appending between any two calls of the system", "why_tests_cant": "All interleavings with another process; a test has one.", "anchors": ["crypto/crypto.go:seal"]}
{"id": "C103", "title": "The text of edwards25519 computes the functions that all this is about", "statement": "GeScalarMultBase, ToBytes, FromBytes, ScMulAdd, ScReduce and FeNeg, as the text of edwards25519.go and const.go says and with the package variables as declared, return without a panic for all arguments, overwrite nothing but the place of the result, and leave there what the functions of the model give.", "quantifier": "all arguments, all memories, all places of the arguments in memory", "why_tests_cant": "All inputs and all contents of memory, and no aliasing or stray write anywhere; tests compare a few vectors.", "anchors": ["signify/internal/edwards25519/edwards25519.go:GeScalarMultBase", "signify/internal/edwards25519/edwards25519.go:ExtendedGroupElement.ToBytes", "signify/internal/edwards25519/edwards25519.go:ProjectiveGroupElement.ToBytes", "signify/internal/edwards25519/edwards25519.go:ExtendedGroupElement.FromBytes", "signify/internal/edwards25519/edwards25519.go:ScMulAdd", "signify/internal/edwards25519/edwards25519.go:ScReduce", "signify/internal/edwards25519/edwards25519.go:FeNeg"]}
{"id": "C104", "title": "The text of edwards25519 checks signatures as specified", "statement": "slide, GeDoubleScalarMultVartime and ScMinimal, as the text of edwards25519.go and const.go says and with the package variables as declared, return without a panic for all arguments. slide and GeDoubleScalarMultVartime overwrite nothing but the place of the result and leave there what the functions of the model give, ScMinimal writes nothing and says whether the number is below the order of the group. For scalars up to 2^255, GeDoubleScalarMultVartime followed by ToBytes stores the bytes of a*A + b*B.", "quantifier": "all arguments, all memories, all places of the arguments in memory", "why_tests_cant": "All inputs and all contents of memory; table accesses with computed digits stay in range for all scalars; tests compare a few vectors.", "anchors": ["signify/internal/edwards25519/edwards25519.go:slide", "signify/internal/edwards25519/edwards25519.go:GeDoubleScalarMultVartime", "signify/internal/edwards25519/edwards25519.go:ScMinimal", "signify/internal/edwards25519/edwards25519.go:ProjectiveGroupElement.ToBytes"]}
{"id": "C105", "title": "The text of base64/coding.go does what the model of it does", "statement": "NewEncoder, Encoder.Write, Encoder.Close, NewDecoder, Decoder.Read and Decoder.Close, as the text of coding.go says, make the calls of the file underneath that the model makes, return what the model returns, panic or end the process where the model does, leave the encoder as the model leaves it, put the decoded bytes at the start of the slice given, and change nothing else in memory. Consequently a session of the text (NewEncoder, any Writes, Close) on a file that accepts everything leaves there the base64 of all the data in lines of 72 characters.", "quantifier": "all data, all memories, all places of encoders, decoders and slices in memory, all behaviours of the file underneath", "why_tests_cant": "All contents of memory and all behaviours of the file, including failures at any point; tests run a few buffers.", "anchors": ["base64/coding.go:NewEncoder", "base64/coding.go:Encoder.Write", "base64/coding.go:Encoder.Close", "base64/coding.go:NewDecoder", "base64/coding.go:Decoder.Read", "base64/coding.go:Decoder.Close"]}
{"id": "C106", "title": "The text of seal, incrementNonce, skipComment and Public.ToBox does what the models of them do", "statement": "Run as Go text, incrementNonce adds one to the 24-byte number or returns the error; skipComment reads the file byte by byte as the model does; Public.ToBox returns a new array with the converted key or the error; and seal, whatever the random source, the message file and the destination do, draws the random bytes, reads the message and writes to the encoder in exactly the order and with exactly the contents of the model, returns what the model returns, panics or ends the process where the model does, and changes nothing else in memory. Consequently, where reads are full and writes succeed, the text of seal has given the encoder the specified stream: header, then the sealed pieces of 16385 bytes under the nonces 0, 1, 2 and so on.", "quantifier": "all keys, all messages shorter than 2^62, all memories, all places of keys and encoders in memory, all behaviours of the files and of the random source", "why_tests_cant": "All contents of memory, all message sizes and all failures at any point of any file; tests run a few messages.", "anchors": ["crypto/crypto.go:seal", "crypto/crypto.go:incrementNonce", "crypto/crypto.go:skipComment", "signify/key.go:Public.ToBox"]}
{"id": "C107", "title": "The text of Verify, LoadPublicKey, readSignaturePath and Public.verify does what the models of them do", "statement": "Run as Go text on the modelled operating system, under every schedule of faults and in every memory, LoadPublicKey, readSignaturePath, readDataFileBytes, Public.verify and Verify end as the model says: the same result or an error with the text that the source gives for it, the same panic, the same end of the process, and the same world; Verify leaves memory as it was. Consequently, if the text of Verify returns nil at all, the three files exist and their contents are a well-formed public key, a message and a signature that verifies, as specified; with no faults it returns nil exactly then.", "quantifier": "all paths, all file contents, all memories, all schedules of faults, all behaviours of the primitives", "why_tests_cant": "All contents of three files and all failures at any read; tests run a few key pairs and never a file that another program wrote.", "anchors": ["signify/key.go:Verify", "signify/key.go:LoadPublicKey", "signify/key.go:Public.verify", "signify/signature.go:readSignaturePath", "signify/common.go:readDataFileBytes"]}
{"id": "C108", "title": "The text of Sign, LoadPrivateKey, Private.Check, Private.decrypt and zero does what the models of them do", "statement": "Run as Go text on the modelled operating system, under every schedule of faults, for every passphrase typed and in every memory, LoadPrivateKey, Private.Check, Private.decrypt, Private.sign, Signature.encode, writeDataFile, zero and Sign end as the model says: the same result or an error with the text that the source gives for it, the same end of the process, and the same files, output and input. Consequently, of the text: however a run of Sign ends, no file but the signature file has changed; with an encrypted key no file changes unless the passphrase typed opens the key; a nil result means that the signature file names the public key and carries the signature over the bytes of the message; and the text of Verify accepts it. zero leaves only zero bytes in the slice.", "quantifier": "all paths, all file contents, all passphrases, all memories, all schedules of faults, all behaviours of the primitives", "why_tests_cant": "All key files, passphrases and failures at any read or write; tests sign with one fresh key.", "anchors": ["signify/key.go:Sign", "signify/key.go:LoadPrivateKey", "signify/key.go:Private.Check", "signify/key.go:Private.decrypt", "signify/key.go:Private.sign", "signify/signature.go:Signature.encode", "signify/common.go:writeDataFile", "signify/common.go:zero"]}
{"id": "C109", "title": "The text of GenerateKey, GenerateKeypair and the encode methods does what the models of them do", "statement": "Run as Go text on the modelled operating system, under every schedule of faults, with a nil or non-nil passphrase and nil or non-nil options anywhere in memory, Private.encode, Public.encode, GenerateKeypair and GenerateKey end as the model says: the same keys or the same error, the same end of the process, and the same files. Consequently, of the text: however a run of GenerateKey ends, no file but the two key files has changed; the public key file changes only once the secret key file is complete; a nil result means that both files are complete and parse back to one pair; and the text of Sign, with the files that the text of GenerateKey wrote, writes a signature that the text of Verify accepts.", "quantifier": "all paths, passphrases, round counts, bytes of entropy, memories, schedules of faults and behaviours of the primitives", "why_tests_cant": "All passphrases and round counts, all bytes of entropy, and failures at every read of entropy and every write; tests generate one key without faults.", "anchors": ["signify/key.go:GenerateKey", "signify/key.go:GenerateKeypair", "signify/key.go:Private.encode", "signify/key.go:Public.encode", "signify/common.go:writeDataFile"]}
{"id": "C110", "title": "The text of Seal, with its deferred calls, does what the model of it does", "statement": "Run as Go text on the modelled operating system, under every schedule of faults, Seal (with LoadPublicKey, os.Open, Stat, os.Create, the comment line, NewEncoder, seal and the deferred Close calls) ends as the model says: the same error or nil, the same end of the process, the same files and the same use of entropy, and memory as it was. Consequently, of the text: however a run of Seal ends, no file but the encrypted one has changed; it draws 32 bytes of entropy or none; when it returns nil, the encrypted file holds the comment line and the encoding of an authentic stream of the message for the key in the public key file, of which at most the last five bytes are missing (the error of the deferred Close is discarded); and with no faults nothing is missing.", "quantifier": "all paths, messages of less than 2^62 bytes, bytes of entropy, memories, schedules of faults and behaviours of the primitives", "why_tests_cant": "All messages, and failures at every open, read, write and read of entropy; tests seal a few messages without faults.", "anchors": ["crypto/crypto.go:Seal", "crypto/crypto.go:seal", "signify/key.go:LoadPublicKey", "base64/coding.go:NewEncoder", "base64/coding.go:Encoder.Close"]}
{"id": "C111", "title": "The text of Open, with its deferred calls, does what the model of it does", "statement": "Run as Go text on the modelled operating system, under every schedule of faults and whatever the user types, Open (with LoadPrivateKey, os.Open, skipComment, NewDecoder, os.Create, open, Private.ToBox with its prompt, and the deferred Close calls) ends as the model says: the same error or nil, the same end of the process, the same files and terminal, and memory as it was; it always ends, never in a panic. Consequently, of the text: however a run of Open ends, no file but the destination has changed, no entropy has been drawn, and the destination holds nothing but a beginning of plaintexts of authentic chunks; when it returns nil, it holds all plaintexts of an authentic stream for the key in the private key file; and what the text of Seal wrote for a key pair that the text of GenerateKey wrote, the text of Open gives back. Private.ToBox leaves the digest of the seed zeroed in memory.", "quantifier": "all paths, contents of files, typed passphrases, memories, schedules of faults and behaviours of the primitives (for the round trip: primitives with matching key conversions, such as those of the RFCs, and no faults)", "why_tests_cant": "All contents of the two files, and failures at every open, read and write; tests open a few files without faults.", "anchors": ["crypto/crypto.go:Open", "crypto/crypto.go:open", "crypto/crypto.go:skipComment", "signify/key.go:LoadPrivateKey", "signify/key.go:Private.ToBox", "base64/coding.go:NewDecoder", "base64/coding.go:Decoder.Read"]}
{"id": "C112", "title": "The text of PassphrasePrompt does what the model of it does", "statement": "Run as Go text on the modelled operating system, whatever is typed, PassphrasePrompt, with or without confirmation, ends as the model says: the same error or passphrase, the same terminal. The slice it returns is of a new block that holds exactly the passphrase, no other block that it has made holds a byte other than zero (the confirmation is wiped), and what was in memory before is unchanged. With confirmation, two equal entries give that entry, two different ones give the error \"passphrases don't match\". Consequently, when the text of PassphrasePrompt(true), and then that of GenerateKey on the slice it returned, succeed, as in psignify -G, the user typed one passphrase twice, and the two files hold a pair generated for that passphrase.", "quantifier": "all typed entries, memories, paths, schedules of faults and behaviours of the primitives", "why_tests_cant": "All entries, of all lengths, and the memory that the function leaves behind; a test does not type on a terminal or look at unreachable memory.", "anchors": ["signify/key.go:PassphrasePrompt", "signify/common.go:zero", "signify/key.go:GenerateKey", "cmd/psignify/main.go:main"]}
{"id": "C113", "title": "The text of the command psignify does what the model of it does", "statement": "Run as Go text on the modelled operating system, with the texts of the packages for what it calls, main ends the process as the model says for the same options: the same exit status, the same bytes on standard output and standard error, the same files, whatever fails. The text of an error that is printed is the text of an error value that stands for the error of the model. Consequently, with no faults, the text with -V ends with status 0 exactly if the three files hold a signature that is to be accepted, prints the name of the message and OK exactly then, and changes no file; and the text with -G and without -n ends with status 0 only if the user typed one passphrase twice, and changes no file unless the user did.", "quantifier": "all option values, users, home directories, program names, texts of errors, worlds, schedules of faults and behaviours of the primitives; messages to encrypt of less than 2^62 bytes", "why_tests_cant": "The repository has no test of the command, and a test runs single command lines; this is about every combination of the options and every failure of a system call.", "anchors": ["cmd/psignify/main.go:main", "cmd/psignify/main.go:defaultKeyBase", "cmd/psignify/main.go:usage"]}
