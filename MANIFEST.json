{
 "claims": [
  {
   "property": "C01",
   "status": "proved",
   "theorems": [
    "Verif.Props.C01_encoder_output",
    "Verif.Props.C01_split_irrelevant"
   ],
   "note": "Every writer that never fails, every list of writes."
  },
  {
   "property": "C02",
   "status": "proved",
   "theorems": [
    "Verif.Props.C02_lines",
    "Verif.Props.C02_strip",
    "Verif.Props.C02_no_newline_in_base64"
   ],
   "note": ""
  },
  {
   "property": "C03",
   "status": "proved",
   "theorems": [
    "Verif.Props.C03_decode_text",
    "Verif.Props.C03_roundtrip",
    "Verif.Props.C03_cut_flatten"
   ],
   "note": ""
  },
  {
   "property": "C04",
   "status": "partial",
   "theorems": [
    "Verif.Props.C04_count_partial",
    "Verif.Props.C04_count_eq_iff",
    "Verif.Props.C04_count_negation"
   ],
   "note": "False as stated (C04_count_negation); the exact count is proved."
  },
  {
   "property": "C05",
   "status": "partial",
   "theorems": [
    "Verif.Props.C05_no_overrun_partial",
    "Verif.Props.C05_overrun_negation"
   ],
   "note": "True exactly for buffer sizes that are multiples of 3; C05_overrun_negation gives a panicking source for every other size."
  },
  {
   "property": "C06",
   "status": "proved",
   "theorems": [
    "Verif.Props.C06_exhausted",
    "Verif.Props.C06_never_eof"
   ],
   "note": ""
  },
  {
   "property": "C07",
   "status": "proved",
   "theorems": [
    "Verif.Props.C07_prefix"
   ],
   "note": ""
  },
  {
   "property": "C08",
   "status": "proved",
   "theorems": [
    "Verif.Props.C08_roundtrip",
    "Verif.Props.C08_trailing_cr"
   ],
   "note": "C08_trailing_cr covers comment text ending in a carriage return: the payload still round-trips, the text loses the CR."
  },
  {
   "property": "C09",
   "status": "proved",
   "theorems": [
    "Verif.Props.C09_framing",
    "Verif.Props.C09_unterminated"
   ],
   "note": ""
  },
  {
   "property": "C10",
   "status": "proved",
   "theorems": [
    "Verif.Props.C10_only_comments",
    "Verif.Props.C10_unterminated"
   ],
   "note": ""
  },
  {
   "property": "C11",
   "status": "proved",
   "theorems": [
    "Verif.Props.C11_overlong_after_comment",
    "Verif.Props.C11_overlong_first"
   ],
   "note": ""
  },
  {
   "property": "C12",
   "status": "proved",
   "theorems": [
    "Verif.Props.C12_no_panic",
    "Verif.Props.C12_total",
    "Verif.Props.C12_exact",
    "Verif.Props.C12_injective"
   ],
   "note": ""
  },
  {
   "property": "C13",
   "status": "proved",
   "theorems": [
    "Verif.Props.C13_public_exact",
    "Verif.Props.C13_public_length",
    "Verif.Props.C13_public_error",
    "Verif.Props.C13_public_layout"
   ],
   "note": ""
  },
  {
   "property": "C14",
   "status": "proved",
   "theorems": [
    "Verif.Props.C14_private_roundtrip",
    "Verif.Props.C14_rounds_big_endian",
    "Verif.Props.C14_private_injective"
   ],
   "note": ""
  },
  {
   "property": "C15",
   "status": "partial",
   "theorems": [
    "Verif.Props.C15_length_partial",
    "Verif.Props.C15_fill",
    "Verif.Props.C15_short_is_error",
    "Verif.Props.C15_length_negation"
   ],
   "note": "False as stated (C15_length_negation: every length of at least 41 is accepted). C15_length_partial and C15_fill give the exact accepted set and the parsed value."
  },
  {
   "property": "C16",
   "status": "proved",
   "theorems": [
    "Verif.Props.C16_signature_roundtrip",
    "Verif.Props.C16_signature_injective"
   ],
   "note": ""
  },
  {
   "property": "C17",
   "status": "partial",
   "theorems": [
    "Verif.Props.C17_fill_partial",
    "Verif.Props.C17_panic_iff",
    "Verif.Props.C17_length_negation"
   ],
   "note": "False as stated (C17_length_negation: no error is ever returned). C17_panic_iff and C17_fill_partial give the exact behaviour for all lengths."
  },
  {
   "property": "C18",
   "status": "proved",
   "theorems": [
    "Verif.Props.C18_rfc",
    "Verif.Props.C18_sign_verify",
    "Verif.Props.C18_newline_needed"
   ],
   "note": "Assumes only EdCorrect (Ed25519 accepts its own signatures); base name shorter than 64000 bytes. C18_newline_needed shows that the newline condition is necessary."
  },
  {
   "property": "C19",
   "status": "proved",
   "theorems": [
    "Verif.Props.C19_sound",
    "Verif.Props.C19_exact"
   ],
   "note": "Soundness under every fault schedule; exact with no faults."
  },
  {
   "property": "C20",
   "status": "proved",
   "theorems": [
    "Verif.Props.C20_read_only"
   ],
   "note": ""
  },
  {
   "property": "C21",
   "status": "proved",
   "theorems": [
    "Verif.Props.C21_frame",
    "Verif.Props.C21_nothing_before",
    "Verif.Props.C21_nothing_on_read_failure"
   ],
   "note": ""
  },
  {
   "property": "C22",
   "status": "proved",
   "theorems": [
    "Verif.Props.C22_prefix"
   ],
   "note": ""
  },
  {
   "property": "C23",
   "status": "proved",
   "theorems": [
    "Verif.Props.C23_default_paths"
   ],
   "note": ""
  },
  {
   "property": "C24",
   "status": "proved",
   "theorems": [
    "Verif.Props.C24_content",
    "Verif.Props.C24_content_other",
    "Verif.Props.C24_tags"
   ],
   "note": ""
  },
  {
   "property": "C25",
   "status": "proved",
   "theorems": [
    "Verif.Props.C25_checked",
    "Verif.Props.C25_error"
   ],
   "note": ""
  },
  {
   "property": "C26",
   "status": "partial",
   "theorems": [
    "Verif.Props.C26_encrypted_partial",
    "Verif.Props.C26_sign_negation",
    "Verif.Props.C26_toBox_negation"
   ],
   "note": "False for unencrypted keys (C26_sign_negation, C26_toBox_negation, for all such keys). True for encrypted keys: C25_checked for Sign, C26_encrypted_partial for ToBox."
  },
  {
   "property": "C27",
   "status": "partial",
   "theorems": [
    "Verif.Props.C27_panic_iff_partial",
    "Verif.Props.C27_empty_negation"
   ],
   "note": "False (C27_empty_negation). C27_panic_iff_partial gives the exact set of panicking signature files; all others return normally."
  },
  {
   "property": "C28",
   "status": "proved",
   "theorems": [
    "Verif.Props.C28_prompt_once",
    "Verif.Props.C28_no_prompt",
    "Verif.Props.C28_loaded"
   ],
   "note": ""
  },
  {
   "property": "C29",
   "status": "proved",
   "theorems": [
    "Verif.Props.C29_wiped",
    "Verif.Props.C29_one_buffer",
    "Verif.Props.C29_returns",
    "Verif.Props.C29_toBox_leaves"
   ],
   "note": "The exception for ToBox is C29_toBox_leaves."
  },
  {
   "property": "C30",
   "status": "proved",
   "theorems": [
    "Verif.Props.C30_encrypted_iff",
    "Verif.Props.C30_zero_rounds_refused",
    "Verif.Props.C30_succeeds"
   ],
   "note": ""
  },
  {
   "property": "C31",
   "status": "proved",
   "theorems": [
    "Verif.Props.C31_decrypts",
    "Verif.Props.C31_fresh"
   ],
   "note": ""
  },
  {
   "property": "C32",
   "status": "proved",
   "theorems": [
    "Verif.Props.C32_frame",
    "Verif.Props.C32_secret_first",
    "Verif.Props.C32_complete",
    "Verif.Props.C32_secret_prefix"
   ],
   "note": ""
  },
  {
   "property": "C33",
   "status": "partial",
   "theorems": [
    "Verif.Props.C33_mode_partial",
    "Verif.Props.C33_readable_negation"
   ],
   "note": "False (C33_readable_negation: mode 0644 under umask 022). C33_mode_partial gives the exact mode."
  },
  {
   "property": "C34",
   "status": "partial",
   "theorems": [
    "Verif.Props.C34_history_partial",
    "Verif.Props.C34_damage_negation",
    "Verif.Props.C34_collision"
   ],
   "note": "False (C34_damage_negation). C34_history_partial gives the exact key field after any history; C34_collision: for all primitives recovery would need a checksum collision."
  },
  {
   "property": "C35",
   "status": "proved",
   "theorems": [
    "Verif.Props.C35_only_key",
    "Verif.Props.C35_involution",
    "Verif.Props.C35_step"
   ],
   "note": ""
  },
  {
   "property": "C36",
   "status": "proved",
   "theorems": [
    "Verif.Props.C36_roundtrip_rfc",
    "Verif.Props.C36_roundtrip"
   ],
   "note": "C36_roundtrip assumes X25519 agreement (DHAgrees) and matching conversions (BoxMatches); C36_roundtrip_rfc derives both from the RFC definitions. Message below 2^63 bytes; for passphrase-protected keys the encrypted key bytes must not collide with the stored 64-bit checksum."
  },
  {
   "property": "C37",
   "status": "partial",
   "theorems": [
    "Verif.Props.C37_negation"
   ],
   "note": "False as stated: C37_negation shows for every key that Seal of an empty message returns nil and no Open of the result ever succeeds."
  },
  {
   "property": "C38",
   "status": "proved",
   "theorems": [
    "Verif.Props.C38_file",
    "Verif.Props.C38_authentic",
    "Verif.Props.C38_chunk"
   ],
   "note": "Generic in reader, writer and schedule (C38_authentic), and for Open on files under every schedule (C38_file)."
  },
  {
   "property": "C39",
   "status": "proved",
   "theorems": [
    "Verif.Props.C39_count",
    "Verif.Props.C39_chunk",
    "Verif.Props.C39_reject",
    "Verif.Props.C39_truncated"
   ],
   "note": ""
  },
  {
   "property": "C40",
   "status": "proved",
   "theorems": [
    "Verif.Props.C40_file",
    "Verif.Props.C40_authentic"
   ],
   "note": ""
  },
  {
   "property": "C41",
   "status": "proved",
   "theorems": [
    "Verif.Props.C41_increment",
    "Verif.Props.C41_distinct",
    "Verif.Props.C41_value",
    "Verif.Props.C41_sealed"
   ],
   "note": ""
  },
  {
   "property": "C42",
   "status": "proved",
   "theorems": [
    "Verif.Props.C42_file",
    "Verif.Props.C42_layout",
    "Verif.Props.C42_pieces",
    "Verif.Props.C42_size"
   ],
   "note": ""
  },
  {
   "property": "C43",
   "status": "proved",
   "theorems": [
    "Verif.Props.C43_frame",
    "Verif.Props.C43_message",
    "Verif.Props.C43_destroyed"
   ],
   "note": "C43_destroyed states what happens with equal paths."
  },
  {
   "property": "C44",
   "status": "partial",
   "theorems": [
    "Verif.Props.C44_nearly_complete_partial",
    "Verif.Props.C44_negation"
   ],
   "note": "False as stated (C44_negation: a run returning nil with the last group missing). C44_nearly_complete_partial: at most the last group and the newline can be missing, under every schedule."
  },
  {
   "property": "C45",
   "status": "partial",
   "theorems": [
    "Verif.Props.C45_file_negation",
    "Verif.Props.C45_pieces_partial",
    "Verif.Props.C45_negation"
   ],
   "note": "False as stated (C45_negation for every message of two or more bytes, C45_file_negation for files). C45_pieces_partial gives what is sealed under every read schedule; C42_layout/C42_file give completeness when reads are filled."
  },
  {
   "property": "C46",
   "status": "proved",
   "theorems": [
    "Verif.Props.C46_no_newline",
    "Verif.Props.C46_first_line_and_newlines"
   ],
   "note": ""
  },
  {
   "property": "C47",
   "status": "proved",
   "theorems": [
    "Verif.Props.C47_full_last",
    "Verif.Props.C47_short_last"
   ],
   "note": ""
  },
  {
   "property": "C48",
   "status": "partial",
   "theorems": [
    "Verif.Props.C48_frame_partial",
    "Verif.Props.C48_negation",
    "Verif.Props.C48_same_path"
   ],
   "note": "False as stated (C48_negation for every key and every encrypted file without data; C48_same_path for equal paths). C48_frame_partial: no other file changes, and the destination only if there is a usable key file and a first line."
  },
  {
   "property": "C49",
   "status": "proved",
   "theorems": [
    "Verif.Props.C49_montgomery",
    "Verif.Props.C49_one",
    "Verif.Props.C49_base"
   ],
   "note": "For every public key: the bytes returned are the encoding below 2^255-19 of (1+y)/(1-y); y = 1 gives 0; the base point gives 9."
  },
  {
   "property": "C50",
   "status": "proved",
   "theorems": [
    "Verif.Props.C50_rejects"
   ],
   "note": "Failure exactly when no x satisfies the curve equation, equivalently when (y^2-1)/(dy^2+1) is no square; no other outcome."
  },
  {
   "property": "C51",
   "status": "proved",
   "theorems": [
    "Verif.Props.C51_scalar",
    "Verif.Props.C51_clamped",
    "Verif.Props.C51_bits",
    "Verif.Props.C51_wiped"
   ],
   "note": "For every returned scalar; the digest is wiped. Go aliasing is not modelled: the scalar is a separate array in the model as in the code (copy)."
  },
  {
   "property": "C52",
   "status": "proved",
   "theorems": [
    "Verif.Props.C52_exchange",
    "Verif.Props.C52_matching",
    "Verif.Props.C52_generated"
   ],
   "note": "For every seed, under the hypothesis Conforms: the library functions compute Ed25519 public keys as RFC 8032 and X25519 as RFC 7748 define them (both written out in Verif/Spec/X25519.lean). The group law of the curve and the Montgomery ladder are proved, not assumed. C52_generated: for a passphrase-protected key the encrypted bytes must not collide with the stored checksum."
  },
  {
   "property": "C53",
   "status": "proved",
   "theorems": [
    "Verif.Props.C53_mul",
    "Verif.Props.C53_square",
    "Verif.Props.C53_square2"
   ],
   "note": "Documented input and output bounds (1.1 and 1.65 times powers of two); congruence modulo 2^255-19 of the represented integers."
  },
  {
   "property": "C54",
   "status": "proved",
   "theorems": [
    "Verif.Props.C54_invert",
    "Verif.Props.C54_invert_zero",
    "Verif.Props.C54_pow"
   ],
   "note": "2^255-19 is proved prime (Lucas certificates)."
  },
  {
   "property": "C55",
   "status": "proved",
   "theorems": [
    "Verif.Props.C55_toBytes",
    "Verif.Props.C55_canonical",
    "Verif.Props.C55_fromBytes",
    "Verif.Props.C55_roundtrip",
    "Verif.Props.C55_isNegative",
    "Verif.Props.C55_isNonZero"
   ],
   "note": "Holds for limbs up to 2^27, 2^26, four times the documented bound, which FromBytes needs for its check value."
  },
  {
   "property": "C56",
   "status": "proved",
   "theorems": [
    "Verif.Props.C56_verify",
    "Verif.Props.C56_verify_exact",
    "Verif.Props.C56_sign",
    "Verif.Props.C56_encrypt",
    "Verif.Props.C56_decrypt",
    "Verif.Props.C56_none",
    "Verif.Props.C56_generate"
   ],
   "note": "One theorem per operation, for every flag combination and every state; C56_verify_exact is end to end."
  },
  {
   "property": "C57",
   "status": "partial",
   "theorems": [
    "Verif.Props.C57_negation",
    "Verif.Props.C57_explicit_partial"
   ],
   "note": "False of this code (C57_negation, for every default base). True part: with the base name given to -G explicitly, signing and verifying with default paths work (C57_explicit_partial)."
  },
  {
   "property": "C58",
   "status": "proved",
   "theorems": [
    "Verif.Props.C58_confirmed",
    "Verif.Props.C58_only",
    "Verif.Props.C58_single"
   ],
   "note": "Every state of the terminal. The first entry is not wiped on a mismatch (visible in C58_confirmed)."
  },
  {
   "property": "C59",
   "status": "proved",
   "theorems": [
    "Verif.Props.C59_zero",
    "Verif.Props.C59_zero64"
   ],
   "note": ""
  },
  {
   "property": "C60",
   "status": "proved",
   "theorems": [
    "Verif.Props.C60_decode",
    "Verif.Props.C60_unique"
   ],
   "note": "FromBytes accepts non-canonical y and the sign bit 1 for x = 0, so it accepts more than RFC 8032; the theorem says what it returns for them."
  },
  {
   "property": "C61",
   "status": "proved",
   "theorems": [
    "Verif.Props.C61_add",
    "Verif.Props.C61_sub",
    "Verif.Props.C61_neg"
   ],
   "note": ""
  },
  {
   "property": "C62",
   "status": "proved",
   "theorems": [
    "Verif.Props.C62_cmove"
   ],
   "note": ""
  },
  {
   "property": "C63",
   "status": "proved",
   "theorems": [
    "Verif.Props.C63_zero",
    "Verif.Props.C63_neutral",
    "Verif.Props.C63_law",
    "Verif.Props.C63_double",
    "Verif.Props.C63_add",
    "Verif.Props.C63_mixed",
    "Verif.Props.C63_convert"
   ],
   "note": "The limb ranges that the group operations produce exceed the bounds documented at FeMul (1.1*2^26); multiplication is proved exact for a wider range, so the code is right and the comment too narrow."
  },
  {
   "property": "C64",
   "status": "proved",
   "theorems": [
    "Verif.Props.C64_toBytes",
    "Verif.Props.C64_roundtrip",
    "Verif.Props.C64_injective",
    "Verif.Props.C64_canonical"
   ],
   "note": ""
  },
  {
   "property": "C65",
   "status": "proved",
   "theorems": [
    "Verif.Props.C65_base",
    "Verif.Props.C65_bi",
    "Verif.Props.C65_constants",
    "Verif.Props.C65_basePoint"
   ],
   "note": "The table entries are checked by kernel evaluation of all 264 entries (the complete tables), then lifted to the group."
  },
  {
   "property": "C66",
   "status": "proved",
   "theorems": [
    "Verif.Props.C66_selectPoint"
   ],
   "note": ""
  },
  {
   "property": "C67",
   "status": "proved",
   "theorems": [
    "Verif.Props.C67_scalarMultBase",
    "Verif.Props.C67_bytes",
    "Verif.Props.C67_congruent",
    "Verif.Props.C67_order"
   ],
   "note": ""
  },
  {
   "property": "C68",
   "status": "partial",
   "theorems": [
    "Verif.Props.C68_digits",
    "Verif.Props.C68_value_partial",
    "Verif.Props.C68_mod",
    "Verif.Props.C68_negation"
   ],
   "note": "Digit range: proved for all scalars. Value: proved up to 2^255 (C68_value_partial) and modulo 2^256 for all; false above (C68_negation: 2^256-1)."
  },
  {
   "property": "C69",
   "status": "partial",
   "theorems": [
    "Verif.Props.C69_doubleScalarMult_partial",
    "Verif.Props.C69_total",
    "Verif.Props.C69_negation",
    "Verif.Props.C69_bytes_partial"
   ],
   "note": "Proved for scalars up to 2^255, which covers all reduced ones; false above (C69_negation). No panic: proved for all scalars."
  },
  {
   "property": "C70",
   "status": "proved",
   "theorems": [
    "Verif.Props.C70_mulAdd",
    "Verif.Props.C70_minimal"
   ],
   "note": ""
  },
  {
   "property": "C71",
   "status": "proved",
   "theorems": [
    "Verif.Props.C71_reduce",
    "Verif.Props.C71_minimal"
   ],
   "note": ""
  },
  {
   "property": "C72",
   "status": "proved",
   "theorems": [
    "Verif.Props.C72_minimal",
    "Verif.Props.C72_unique",
    "Verif.Props.C72_top"
   ],
   "note": ""
  },
  {
   "property": "C73",
   "status": "proved",
   "theorems": [
    "Verif.Props.C73_valid",
    "Verif.Props.C73_correct"
   ],
   "note": "Signs is a hypothesis about the library functions only; its verification part asks only that valid signatures by honest keys are accepted."
  },
  {
   "property": "C74",
   "status": "proved",
   "theorems": [
    "Verif.Props.C74_public",
    "Verif.Props.C74_sign",
    "Verif.Props.C74_verify",
    "Verif.Props.C74_roundtrip"
   ],
   "note": "The assembly (Spec/Assembled.lean) is not code of the repository; it states what fitting together means."
  },
  {
   "property": "C75",
   "status": "proved",
   "theorems": [
    "Verif.Props.C75_options",
    "Verif.Props.C75_verify"
   ],
   "note": "flag.Parse is library code, written down in Model/Flags.lean."
  },
  {
   "property": "C76",
   "status": "partial",
   "theorems": [
    "Verif.Props.C76_negation",
    "Verif.Props.C76_verify_negation",
    "Verif.Props.C76_verified_partial"
   ],
   "note": "False (C76_negation: every malformed command line ends with status 0; C76_verify_negation). C76_verified_partial: true for well-formed command lines, under every schedule."
  },
  {
   "property": "C77",
   "status": "proved",
   "theorems": [
    "Verif.Props.C77_none",
    "Verif.Props.C77_seal",
    "Verif.Props.C77_generate",
    "Verif.Props.C77_history",
    "Verif.Props.C77_two_seals"
   ],
   "note": ""
  },
  {
   "property": "C78",
   "status": "partial",
   "theorems": [
    "Verif.Props.C78_negation",
    "Verif.Props.C78_returns_partial",
    "Verif.Props.C78_fuel",
    "Verif.Props.C78_process_partial"
   ],
   "note": "False for Verify (C78_negation). C78_returns_partial and C78_process_partial exclude exactly that case; C78_fuel shows that the fuel of the model is no restriction."
  },
  {
   "property": "C79",
   "status": "proved",
   "theorems": [
    "Verif.Props.C79_silent",
    "Verif.Props.C79_one_prompt"
   ],
   "note": ""
  },
  {
   "property": "C80",
   "status": "proved",
   "theorems": [
    "Verif.Props.C80_stdout"
   ],
   "note": ""
  },
  {
   "property": "C81",
   "status": "partial",
   "theorems": [
    "Verif.Props.C81_binding_partial",
    "Verif.Props.C81_files_partial",
    "Verif.Props.C81_key_negation",
    "Verif.Props.C81_negation"
   ],
   "note": "False for arbitrary public keys (C81_key_negation, C81_negation: neutral point). True for keys that have a seed. GoVerifies says that edVerify is the check of crypto/ed25519 (library code)."
  },
  {
   "property": "C82",
   "status": "proved",
   "theorems": [
    "Verif.Props.C82_unique",
    "Verif.Props.C82_files"
   ],
   "note": "GoVerifies says that edVerify is the check of crypto/ed25519 (library code), including S < L."
  },
  {
   "property": "C83",
   "status": "partial",
   "theorems": [
    "Verif.Props.C83_secrets_partial",
    "Verif.Props.C83_negation",
    "Verif.Props.C83_file_negation"
   ],
   "note": "False for points of small order (C83_negation, C83_file_negation). C83_secrets_partial: true for keys that have a seed."
  },
  {
   "property": "C84",
   "status": "partial",
   "theorems": [
    "Verif.Props.C84_data_partial",
    "Verif.Props.C84_files_partial",
    "Verif.Props.C84_own_files_partial",
    "Verif.Props.C84_negation"
   ],
   "note": "False for encrypted files (C84_negation: every nonempty sealed message). True for key and signature files."
  },
  {
   "property": "C85",
   "status": "partial",
   "theorems": [
    "Verif.Props.C85_shown_partial",
    "Verif.Props.C85_session_partial",
    "Verif.Props.C85_process_partial",
    "Verif.Props.C85_negation"
   ],
   "note": "False for Seal (C85_negation). C85_shown_partial: every other call; C85_session_partial: sequences; C85_process_partial: the command."
  },
  {
   "property": "C86",
   "status": "partial",
   "theorems": [
    "Verif.Props.C86_public_partial",
    "Verif.Props.C86_secret_negation",
    "Verif.Props.C86_signature_negation",
    "Verif.Props.C86_signature_partial"
   ],
   "note": "False for secret key files (C86_secret_negation) and signature files (C86_signature_negation). C86_public_partial: public keys; C86_signature_partial: what Verify accepts."
  },
  {
   "property": "C87",
   "status": "partial",
   "theorems": [
    "Verif.Props.C87_two_signatures",
    "Verif.Props.C87_scalar",
    "Verif.Props.C87_negation",
    "Verif.Props.C87_encrypted_partial"
   ],
   "note": "False for unencrypted keys (C87_negation, with C87_two_signatures and C87_scalar; hypothesis GoSigns). C87_encrypted_partial: encrypted keys are used only if the checksum matches."
  },
  {
   "property": "C88",
   "status": "partial",
   "theorems": [
    "Verif.Props.C88_negation",
    "Verif.Props.C88_mixed_negation",
    "Verif.Props.C88_fresh_partial"
   ],
   "note": "False: C88_negation (both files replaced, success), C88_mixed_negation (crash between the files). C88_fresh_partial: true if there was no public key file."
  },
  {
   "property": "C89",
   "status": "proved",
   "theorems": [
    "Verif.Props.C89_truncated",
    "Verif.Props.C89_generated"
   ],
   "note": "C89_truncated: any cut, any schedule while opening, up to a collision of the one-time MAC on beginnings of the last piece (TagCollides). C89_generated: for generated keys with Conforms."
  },
  {
   "property": "C90",
   "status": "proved",
   "theorems": [
    "Verif.Props.C90_session",
    "Verif.Props.C90_example"
   ],
   "note": "C90_session under Signs and Conforms (the libraries implement the RFCs); C90_example shows that sessions exist."
  },
  {
   "property": "C91",
   "status": "proved",
   "theorems": [
    "Verif.Props.C91_interrupted",
    "Verif.Props.C91_generated"
   ],
   "note": "C91_interrupted: any schedule without short reads while sealing (with them the claim is false, C45_file_negation), any schedule while opening, up to TagCollides. C91_generated: for generated keys with Conforms."
  },
  {
   "property": "C92",
   "status": "partial",
   "theorems": [
    "Verif.Props.C92_unchanged_partial",
    "Verif.Props.C92_negation"
   ],
   "note": "False: C92_negation (a key file that is not a curve point). C92_unchanged_partial: nothing changes if the public key file is unusable or there is no message."
  },
  {
   "property": "C93",
   "status": "proved",
   "theorems": [
    "Verif.Props.C93_verify",
    "Verif.Props.C93_sign",
    "Verif.Props.C93_seal",
    "Verif.Props.C93_open",
    "Verif.Props.C93_generate",
    "Verif.Props.C93_process"
   ],
   "note": "For every schedule and all primitives; one theorem per operation and C93_process for the command."
  },
  {
   "property": "C94",
   "status": "proved",
   "theorems": [
    "Verif.Props.C94_public",
    "Verif.Props.C94_signature"
   ],
   "note": "C94_public needs no hypothesis on the primitives; C94_signature compares quiet runs."
  },
  {
   "property": "C95",
   "status": "partial",
   "theorems": [
    "Verif.Props.C95_rounds_partial",
    "Verif.Props.C95_negation",
    "Verif.Props.C95_negative_negation"
   ],
   "note": "False for rounds above 2^32-1 and for negative rounds: C95_negation, C95_negative_negation. C95_rounds_partial: true for 1 to 2^32-1."
  },
  {
   "property": "C96",
   "status": "partial",
   "theorems": [
    "Verif.Props.C96_eof_negation",
    "Verif.Props.C96_idle_negation",
    "Verif.Props.C96_apart_partial",
    "Verif.Props.C96_newline_partial",
    "Verif.Props.C96_encoded_partial"
   ],
   "note": "False: C96_eof_negation (data with io.EOF is lost), C96_idle_negation ((0, nil) gives wrong data with a nil error). True for readers that are never idle and either report EOF by itself (C96_apart_partial) or give a text that ends with a newline, as all output of Encoder does (C96_newline_partial, C96_encoded_partial)."
  },
  {
   "property": "C97",
   "status": "proved",
   "theorems": [
    "Verif.Props.C97_keys",
    "Verif.Props.C97_signature"
   ],
   "note": "The behaviour of signify is the specification Spec/Signify.lean, written from knowledge of its source, which was not at hand. C97_signature under the hypothesis Signs P (proved for the executable primitives)."
  },
  {
   "property": "C98",
   "status": "proved",
   "theorems": [
    "Verif.Props.C98_sign",
    "Verif.Props.C98_verify"
   ],
   "note": "For quiet runs. The passphrase must not be empty, because Sign refuses an empty one; signify does too."
  },
  {
   "property": "C99",
   "status": "partial",
   "theorems": [
    "Verif.Props.C99_space_negation",
    "Verif.Props.C99_reads_partial"
   ],
   "note": "False: C99_space_negation (signify skips white space in the base64 line). C99_reads_partial: true without white space in the line, but for a carriage return at its end, and for comments shorter than 65000 bytes."
  },
  {
   "property": "C100",
   "status": "partial",
   "theorems": [
    "Verif.Props.C100_wide",
    "Verif.Props.C100_narrow_partial",
    "Verif.Props.C100_narrow_negation"
   ],
   "note": "True where int has 64 bits (C100_wide). False where it has 32: C100_narrow_negation, int(fi.Size()) wraps. C100_narrow_partial: true below 2 GiB."
  },
  {
   "property": "C101",
   "status": "partial",
   "theorems": [
    "Verif.Props.C101_verifies_partial",
    "Verif.Props.C101_algo_negation"
   ],
   "note": "False: C101_algo_negation (Sign ignores the algorithm tag; Verify does not). C101_verifies_partial: true for the tag Ed and keys whose halves fit, under EdCorrect."
  },
  {
   "property": "C102",
   "status": "proved",
   "theorems": [
    "Verif.Props.C102_growing",
    "Verif.Props.C102_file"
   ],
   "note": "C102_growing for any source that only grows, C102_file for a file given as a content for each moment."
  },
  {
   "property": "C103",
   "status": "proved",
   "theorems": [
    "Verif.Src.EdSrc.C103_GeScalarMultBase",
    "Verif.Src.EdSrc.C103_ToBytes",
    "Verif.Src.EdSrc.C103_ToBytes_projective",
    "Verif.Src.EdSrc.C103_FromBytes",
    "Verif.Src.EdSrc.C103_FromBytes_fails",
    "Verif.Src.EdSrc.C103_ScMulAdd",
    "Verif.Src.EdSrc.C103_ScReduce",
    "Verif.Src.EdSrc.C103_FeNeg",
    "Verif.Src.EdSrc.C103_init"
   ],
   "note": "The Go text is in the project, is parsed during the build and run by an interpreter defined in Verif/Source/Semantics.lean. C103_init: the declarations of the package variables. The trust is in the parser and the interpreter instead of the hand translation."
  },
  {
   "property": "C104",
   "status": "proved",
   "theorems": [
    "Verif.Src.EdSrc.C104_slide",
    "Verif.Src.EdSrc.C104_GeDoubleScalarMultVartime",
    "Verif.Src.EdSrc.C104_ScMinimal",
    "Verif.Src.EdSrc.C104_combination"
   ],
   "note": "About the Go text as C103. The library function binary.LittleEndian.Uint64 is a definition in Verif/Source/Ed.lean. With C103 every function of the package that signing or checking reaches is covered."
  },
  {
   "property": "C105",
   "status": "proved",
   "theorems": [
    "Verif.Src.C105_NewEncoder",
    "Verif.Src.C105_Write",
    "Verif.Src.C105_Close",
    "Verif.Src.C105_NewDecoder",
    "Verif.Src.C105_Read",
    "Verif.Src.C105_DecoderClose",
    "Verif.Src.C105_encoder_session"
   ],
   "note": "About the Go text, run by the interpreter of Verif/Source/Semantics.lean with the libraries as defined in Verif/Source/Lib.lean. Files are open files of an arbitrary system. Slices are shorter than 2^61. Decoder.Read assumes that Read of the file returns at most the byte asked for. Nothing is said where the model hangs."
  },
  {
   "property": "C106",
   "status": "proved",
   "theorems": [
    "Verif.Src.C106_incrementNonce",
    "Verif.Src.C106_incrementNonce_value",
    "Verif.Src.C106_skipComment",
    "Verif.Src.C106_ToBox",
    "Verif.Src.C106_seal",
    "Verif.Src.C106_sealed"
   ],
   "note": "About the Go text, run by the interpreter of Verif/Source/Semantics.lean with the libraries as defined in Verif/Source/Lib.lean. The functions of internal/edwards25519 are those of C103 and C104. The destination of seal is an Encoder of package base64, as in Seal. Read returns at most as much as asked for. Nothing is said where the model hangs."
  },
  {
   "property": "C107",
   "status": "proved",
   "theorems": [
    "Verif.Src.C107_readDataFileBytes",
    "Verif.Src.C107_verify",
    "Verif.Src.C107_LoadPublicKey",
    "Verif.Src.C107_readSignaturePath",
    "Verif.Src.C107_Verify",
    "Verif.Src.C107_sound",
    "Verif.Src.C107_exact"
   ],
   "note": "About the Go text, run by the interpreter of Verif/Source/Semantics.lean with the libraries as defined in Verif/Source/Lib.lean, on the system of Verif/Source/WorldSys.lean, whose calls are those of Verif/Model/World.lean."
  },
  {
   "property": "C108",
   "status": "proved",
   "theorems": [
    "Verif.Src.C108_zero",
    "Verif.Src.C108_Check",
    "Verif.Src.C108_decrypt",
    "Verif.Src.C108_LoadPrivateKey",
    "Verif.Src.C108_Sign",
    "Verif.Src.C108_frame",
    "Verif.Src.C108_content",
    "Verif.Src.C108_checked",
    "Verif.Src.C108_sign_verify"
   ],
   "note": "About the Go text, run by the interpreter of Verif/Source/Semantics.lean with the libraries as defined in Verif/Source/Lib.lean, on the system of Verif/Source/WorldSys.lean. PassphrasePrompt is the function that the variable holds at the start."
  },
  {
   "property": "C109",
   "status": "proved",
   "theorems": [
    "Verif.Src.C109_encode",
    "Verif.Src.C109_public_encode",
    "Verif.Src.C109_GenerateKeypair",
    "Verif.Src.C109_GenerateKey",
    "Verif.Src.C109_frame",
    "Verif.Src.C109_secret_first",
    "Verif.Src.C109_complete",
    "Verif.Src.C109_generate_sign_verify"
   ],
   "note": "About the Go text, run by the interpreter of Verif/Source/Semantics.lean with the libraries as defined in Verif/Source/Lib.lean, on the system of Verif/Source/WorldSys.lean. The passphrase is nil or a slice that begins at the start of an array of exactly its length; the variable defaultOpts has the value that the source gives it."
  },
  {
   "property": "C110",
   "status": "proved",
   "theorems": [
    "Verif.Src.C110_Seal",
    "Verif.Src.C110_frame",
    "Verif.Src.C110_entropy",
    "Verif.Src.C110_content",
    "Verif.Src.C110_complete"
   ],
   "note": "About the Go text, run by the interpreter of Verif/Source/Semantics.lean with the libraries as defined in Verif/Source/Lib.lean (where Close of a file does nothing and returns nil), on the system of Verif/Source/WorldSys.lean. Messages of less than 2^62 bytes."
  },
  {
   "property": "C111",
   "status": "proved",
   "theorems": [
    "Verif.Src.C111_ToBox",
    "Verif.Src.C111_open",
    "Verif.Src.C111_Open",
    "Verif.Src.C111_returns",
    "Verif.Src.C111_frame",
    "Verif.Src.C111_authentic",
    "Verif.Src.C111_content",
    "Verif.Src.C111_roundtrip",
    "Verif.Src.C111_conforms",
    "Verif.Src.C111_same_path"
   ],
   "note": "About the Go text, run by the interpreter of Verif/Source/Semantics.lean with the libraries as defined in Verif/Source/Lib.lean (where Close of a file does nothing and returns nil), on the system of Verif/Source/WorldSys.lean. What a world of the model records of passphrases is kept by the model of the program, not by the text (recordOf)."
  },
  {
   "property": "C112",
   "status": "proved",
   "theorems": [
    "Verif.Src.C112_prompt",
    "Verif.Src.C112_typed",
    "Verif.Src.C112_generate"
   ],
   "note": "About the Go text, run by the interpreter of Verif/Source/Semantics.lean with the libraries as defined in Verif/Source/Lib.lean, on the system of Verif/Source/WorldSys.lean. The sequence of the two calls in main (cmd/psignify/main.go:92-100) is not run as text here."
  },
  {
   "property": "C113",
   "status": "proved",
   "theorems": [
    "Verif.Src.C113_main",
    "Verif.Src.C113_ends",
    "Verif.Src.C113_options",
    "Verif.Src.C113_verify",
    "Verif.Src.C113_verify_output",
    "Verif.Src.C113_generate"
   ],
   "note": "About the Go text, run by the interpreter of Verif/Source/Semantics.lean; the libraries that only main calls (flag, fmt, os.Exit, os/user, path/filepath) are defined in Verif/Source/CmdLib.lean, those of the packages in Verif/Source/Lib.lean, the system in Verif/Source/WorldSys.lean. flag.Parse gives the variables the values of the options, which are a parameter; C113_options takes them from a command line with the model of the flag package (Verif/Model/Flags.lean). init (main.go:25-30) is not run. Printing succeeds."
  }
 ]
}