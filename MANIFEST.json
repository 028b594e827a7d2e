{
 "claims": [
  {
   "property": "C01",
   "status": "proved",
   "theorems": [
    "Nat20.C01_stream_contents"
   ],
   "note": ""
  },
  {
   "property": "C02",
   "status": "proved",
   "theorems": [
    "Nat20.C02_sizing_exact",
    "Nat20.C02_two_pass",
    "Nat20.C02_null_size_ignored"
   ],
   "note": ""
  },
  {
   "property": "C03",
   "status": "proved",
   "theorems": [
    "Nat20.C03_flags_exact",
    "Nat20.C03_flags_sticky"
   ],
   "note": ""
  },
  {
   "property": "C04",
   "status": "proved",
   "theorems": [
    "Nat20.C04_stays_inside",
    "Nat20.C04_committed_bytes_stay",
    "Nat20.C04_all_or_nothing"
   ],
   "note": ""
  },
  {
   "property": "C05",
   "status": "proved",
   "theorems": [
    "Nat20.C05_null_stream",
    "Nat20.C05_renderers",
    "Nat20.C05_sequences"
   ],
   "note": ""
  },
  {
   "property": "C06",
   "status": "proved",
   "theorems": [
    "Nat20.C06_base128"
   ],
   "note": ""
  },
  {
   "property": "C07",
   "status": "proved",
   "theorems": [
    "Nat20.C07_header",
    "Nat20.C07_header_canonical"
   ],
   "note": ""
  },
  {
   "property": "C08",
   "status": "proved",
   "theorems": [
    "Nat20.C08_header_with_content",
    "Nat20.C08_null_callback",
    "Nat20.C08_sequence",
    "Nat20.C08_nesting"
   ],
   "note": ""
  },
  {
   "property": "C09",
   "status": "proved",
   "theorems": [
    "Nat20.C09_tag_overrides",
    "Nat20.C09_tag_info_helpers"
   ],
   "note": "Arguments that are replaced by NULL ignore tag overrides, see C15."
  },
  {
   "property": "C10",
   "status": "partial",
   "theorems": [
    "Nat20.C10_integer_partial"
   ],
   "note": "Values 0 and -1 need the adjacent byte to be readable (defect shown in C12_reads_outside)."
  },
  {
   "property": "C11",
   "status": "partial",
   "theorems": [
    "Nat20.C11_uint64_partial",
    "Nat20.C11_int64_partial",
    "Nat20.C11_reads_outside"
   ],
   "note": "Same restriction as C10; the negation is proved for the excluded numbers, so the restriction is exact."
  },
  {
   "property": "C12",
   "status": "partial",
   "theorems": [
    "Nat20.C12_slice_only_partial",
    "Nat20.C12_reads_outside",
    "Nat20.C12_reads_outside_witness",
    "Nat20.C12_output_depends_on_surroundings",
    "Nat20.C12_empty"
   ],
   "note": "The code violates the property; the negation is proved for every slice with value 0 or -1 and the remaining cases are proved."
  },
  {
   "property": "C13",
   "status": "partial",
   "theorems": [
    "Nat20.C13_bitstring_partial",
    "Nat20.C13_bitstring_null",
    "Nat20.C13_wraps"
   ],
   "note": "bits + 7 wraps for the last 7 values of size_t."
  },
  {
   "property": "C14",
   "status": "partial",
   "theorems": [
    "Nat20.C14_oid_partial",
    "Nat20.C14_oid_injective_partial",
    "Nat20.C14_standard_content_partial",
    "Nat20.C14_large_second_arc",
    "Nat20.C14_exact"
   ],
   "note": "The arcs can be recovered exactly if the first two fit into one octet without continuation bit (C14_exact); the code truncates otherwise."
  },
  {
   "property": "C15",
   "status": "proved",
   "theorems": [
    "Nat20.C15_null_fallback"
   ],
   "note": ""
  },
  {
   "property": "C16",
   "status": "proved",
   "theorems": [
    "Nat20.C16_strings",
    "Nat20.C16_bytes"
   ],
   "note": ""
  },
  {
   "property": "C17",
   "status": "proved",
   "theorems": [
    "Nat20.C17_boolean_null",
    "Nat20.C17_boolean_null_overrides"
   ],
   "note": ""
  },
  {
   "property": "C18",
   "status": "proved",
   "theorems": [
    "Nat20.C18_oid_equals",
    "Nat20.C18_equivalence",
    "Nat20.C18_unchecked_count"
   ],
   "note": "C18_unchecked_count shows what happens outside of the documented precondition elem_count <= 10."
  },
  {
   "property": "C19",
   "status": "partial",
   "theorems": [
    "Nat20.C19_header_partial",
    "Nat20.C19_reserved_simple"
   ],
   "note": "Simple values 24..31 are written malformed (negation proved)."
  },
  {
   "property": "C20",
   "status": "proved",
   "theorems": [
    "Nat20.C20_invalid_type"
   ],
   "note": ""
  },
  {
   "property": "C21",
   "status": "partial",
   "theorems": [
    "Nat20.C21_uint",
    "Nat20.C21_int_partial",
    "Nat20.C21_int_min_undefined"
   ],
   "note": "INT64_MIN is a signed overflow (negation proved)."
  },
  {
   "property": "C22",
   "status": "partial",
   "theorems": [
    "Nat20.C22_strings_partial",
    "Nat20.C22_null_string",
    "Nat20.C22_null_bool",
    "Nat20.C22_empty_null_string"
   ],
   "note": "An empty NULL slice passes NULL to memcpy (negation proved)."
  },
  {
   "property": "C23",
   "status": "proved",
   "theorems": [
    "Nat20.C23_structures",
    "Nat20.C23_injective"
   ],
   "note": ""
  },
  {
   "property": "C24",
   "status": "proved",
   "theorems": [
    "Nat20.C24_name",
    "Nat20.C24_attribute_value",
    "Nat20.C24_null_name"
   ],
   "note": "Contents octets of OIDs are as in C14. The placeholder is a SEQUENCE around the NULL (30 02 05 00), not the bare NULL of the header comment."
  },
  {
   "property": "C25",
   "status": "proved",
   "theorems": [
    "Nat20.C25_serial_hex",
    "Nat20.C25_digits",
    "Nat20.C25_distinct"
   ],
   "note": ""
  },
  {
   "property": "C26",
   "status": "proved",
   "theorems": [
    "Nat20.C26_extensions",
    "Nat20.C26_none"
   ],
   "note": "Callbacks are writers that prepend fixed bytes to any stream."
  },
  {
   "property": "C27",
   "status": "partial",
   "theorems": [
    "Nat20.C27_basic_constraints_partial",
    "Nat20.C27_null",
    "Nat20.C27_reads_outside"
   ],
   "note": "Path length 0 reads a byte outside of a local variable (negation proved in every stream state, so the restriction is exact)."
  },
  {
   "property": "C28",
   "status": "proved",
   "theorems": [
    "Nat20.C28_key_usage",
    "Nat20.C28_null",
    "Nat20.C28_distinct"
   ],
   "note": ""
  },
  {
   "property": "C29",
   "status": "proved",
   "theorems": [
    "Nat20.C29_algorithm",
    "Nat20.C29_null",
    "Nat20.C29_public_key"
   ],
   "note": "Key bits + 7 must not wrap, see C13."
  },
  {
   "property": "C30",
   "status": "proved",
   "theorems": [
    "Nat20.C30_validity"
   ],
   "note": ""
  },
  {
   "property": "C31",
   "status": "partial",
   "theorems": [
    "Nat20.C31_tbs_partial",
    "Nat20.C31_serial",
    "Nat20.C31_reads_outside"
   ],
   "note": "Serial number 0 reads outside of the number (negation proved whatever the other fields are, so the restriction is exact)."
  },
  {
   "property": "C32",
   "status": "proved",
   "theorems": [
    "Nat20.C32_tbs_embedded",
    "Nat20.C32_tbs_recovered"
   ],
   "note": ""
  },
  {
   "property": "C33",
   "status": "partial",
   "theorems": [
    "Nat20.C33_certificate_partial",
    "Nat20.C33_unambiguous_partial",
    "Nat20.C33_reads_outside"
   ],
   "note": "Serial number 0 as in C31; unambiguity for OIDs as in C14."
  },
  {
   "property": "C34",
   "status": "partial",
   "theorems": [
    "Nat20.C34_open_dice_input_partial",
    "Nat20.C34_unambiguous_partial",
    "Nat20.C34_null",
    "Nat20.C34_reads_outside"
   ],
   "note": "Mode 0 reads a byte outside of a local variable (negation proved); full if that byte is readable."
  },
  {
   "property": "C35",
   "status": "partial",
   "theorems": [
    "Nat20.C35_tcb_info_partial",
    "Nat20.C35_unambiguous_partial",
    "Nat20.C35_null",
    "Nat20.C35_reads_outside"
   ],
   "note": "svn, layer, index 0 or -1 read a byte outside of a local variable (negation proved); unambiguity for OIDs as in C14."
  },
  {
   "property": "C36",
   "status": "partial",
   "theorems": [
    "Nat20.C36_multi_tcb_info_partial",
    "Nat20.C36_ueid",
    "Nat20.C36_freshness",
    "Nat20.C36_null",
    "Nat20.C36_reads_outside"
   ],
   "note": "Numbers 0 and -1 as in C35."
  },
  {
   "property": "C50",
   "status": "proved",
   "theorems": [
    "Nat20.C50_constants",
    "Nat20.C50_distinct"
   ],
   "note": ""
  },
  {
   "property": "C51",
   "status": "proved",
   "theorems": [
    "Nat20.C51_operational_flags"
   ],
   "note": ""
  },
  {
   "property": "C37",
   "status": "proved",
   "theorems": [
    "Nat20.C37_sha256",
    "Nat20.C37_sha224",
    "Nat20.C37_chunking",
    "Nat20.C37_null"
   ],
   "note": "Every chunking of every message below 2^61 octets; the specification is FIPS 180-4 written independently in Spec/Sha2.lean."
  },
  {
   "property": "C38",
   "status": "proved",
   "theorems": [
    "Nat20.C38_sha512",
    "Nat20.C38_sha384",
    "Nat20.C38_chunking",
    "Nat20.C37_null"
   ],
   "note": "As C37 for the 64-bit family."
  },
  {
   "property": "C39",
   "status": "proved",
   "theorems": [
    "Nat20.C39_constants"
   ],
   "note": "All 160 constants, by integer roots of the first 80 primes."
  },
  {
   "property": "C40",
   "status": "proved",
   "theorems": [
    "Nat20.C40_digest",
    "Nat20.C40_split"
   ],
   "note": ""
  },
  {
   "property": "C41",
   "status": "partial",
   "theorems": [
    "Nat20.C41_digest_contract_partial",
    "Nat20.C41_later_null_list"
   ],
   "note": "The code violates the documented contract for a NULL list other than the first: it dereferences NULL (proved). All other argument combinations are proved."
  },
  {
   "property": "C42",
   "status": "partial",
   "theorems": [
    "Nat20.C42_hmac_partial",
    "Nat20.C42_empty_null_key"
   ],
   "note": "An empty key at NULL is passed to memcpy (proved); everything else is proved."
  },
  {
   "property": "C43",
   "status": "partial",
   "theorems": [
    "Nat20.C43_hmac_contract_partial",
    "Nat20.C42_empty_null_key"
   ],
   "note": "Same exception as C42."
  },
  {
   "property": "C44",
   "status": "partial",
   "theorems": [
    "Nat20.C44_extract_partial",
    "Nat20.C44_expand_partial",
    "Nat20.C44_hkdf_partial",
    "Nat20.C44_prefix",
    "Nat20.C44_too_long",
    "Nat20.C44_null_salt"
   ],
   "note": "Lengths above 255 digests are not rejected and the counter wraps (proved); an empty salt at NULL is passed to memcpy (proved)."
  },
  {
   "property": "C45",
   "status": "partial",
   "theorems": [
    "Nat20.C45_extract_contract_partial",
    "Nat20.C45_expand_contract_partial",
    "Nat20.C45_hkdf_contract_partial"
   ],
   "note": "Same exception as C42."
  },
  {
   "property": "C52",
   "status": "partial",
   "theorems": [
    "Nat20.C52_hmac_propagates",
    "Nat20.C52_extract_propagates",
    "Nat20.C52_hkdf_propagates",
    "Nat20.C52_expand_ignores_errors",
    "Nat20.C52_hmac_failing_call",
    "Nat20.C52_expand_last_block_partial",
    "Nat20.C52_hkdf_expand_result"
   ],
   "note": "hkdf_expand ignores errors of hmac for whole blocks (proved); the other operations propagate."
  },
  {
   "property": "C53",
   "status": "proved",
   "theorems": [
    "Nat20.C53_open_close",
    "Nat20.C53_bssl_open_close"
   ],
   "note": "Both contexts."
  },
  {
   "property": "C54",
   "status": "proved",
   "theorems": [
    "Nat20.C54_render_once_render_everywhere",
    "Nat20.C54_context_free"
   ],
   "note": ""
  },
  {
   "property": "C55",
   "status": "proved",
   "theorems": [
    "Nat20.C55_rendering_stays_inside"
   ],
   "note": "Absence of undefined behaviour itself is part of the theorems of the individual renderers."
  },
  {
   "property": "C46",
   "status": "proved",
   "theorems": [
    "Nat20.C46_digest",
    "Nat20.C46_hmac",
    "Nat20.C46_extract",
    "Nat20.C46_expand",
    "Nat20.C46_hkdf"
   ],
   "note": "Stated from the native side: whatever the native function accepts is answered identically by the reference context, unless a library call fails; HKDF outputs above 255 digests, which the native context accepts, are rejected by the reference context. The standards are assumed for the library itself."
  },
  {
   "property": "C56",
   "status": "partial",
   "theorems": [
    "Nat20.C56_digest_partial",
    "Nat20.C56_digest_unchecked_allocation",
    "Nat20.C56_digest_later_null_list",
    "Nat20.C56_hmac",
    "Nat20.C56_extract",
    "Nat20.C56_expand",
    "Nat20.C56_hkdf"
   ],
   "note": "digest: a failed EVP_MD_CTX_new is not reported but dereferenced, and NULL lists after the first are skipped (both proved). hmac reports a NULL size before an unknown algorithm."
  },
  {
   "property": "C47",
   "status": "proved",
   "theorems": [
    "Nat20.C47_ecdsa_format",
    "Nat20.sigUnwrap_ok"
   ],
   "note": "For every r, s below the order of the curve; that the library returns the DER encoding of such a pair is assumed (Lib.Standard)."
  },
  {
   "property": "C48",
   "status": "proved",
   "theorems": [
    "Nat20.C48_nonce",
    "Nat20.C48_deterministic",
    "Nat20.C48_curve_orders"
   ],
   "note": "C48_curve_orders: the numbers q taken for the orders of the curves (EC_GROUP_get0_order) are orders of the base points of the standard curves. A fuel parameter (patience) bounds the number of rounds followed; running out of it is possible only if that many candidates are to be rejected."
  },
  {
   "property": "C49",
   "status": "proved",
   "theorems": [
    "Nat20.C49_kdf",
    "Nat20.C49_sign",
    "Nat20.C49_sign_failure_size",
    "Nat20.C49_public_key",
    "Nat20.C49_free",
    "Nat20.C49_secret"
   ],
   "note": "Finding: after a failed EVP_DigestSignFinal the size output is 104 (C49_sign_failure_size)."
  },
  {
   "property": "C57",
   "status": "proved",
   "theorems": [
    "Nat20.C57_histories",
    "Nat20.C57_step"
   ],
   "note": ""
  },
  {
   "property": "C58",
   "status": "proved",
   "theorems": [
    "Nat20.C58_kdf_deterministic"
   ],
   "note": ""
  },
  {
   "property": "C59",
   "status": "proved",
   "theorems": [
    "Nat20.C59_ecdsa_der"
   ],
   "note": ""
  },
  {
   "property": "C60",
   "status": "proved",
   "theorems": [
    "Nat20.C60_issue",
    "Nat20.C60_succeeds",
    "Nat20.C60_chain"
   ],
   "note": "That the signatures of the library are valid under its public keys is an assumption about the library (Verifier.Accepts). The TBS arguments are legal in the sense of C31."
  },
  {
   "property": "C61",
   "status": "proved",
   "theorems": [
    "Nat20.C61_parse",
    "Nat20.C61_hex"
   ],
   "note": ""
  },
  {
   "property": "C62",
   "status": "partial",
   "theorems": [
    "Nat20.C62_rejects_partial",
    "Nat20.C62_accepts_other_characters"
   ],
   "note": "The code accepts a digit followed by a character that is not one (proved); all other malformed strings are rejected."
  },
  {
   "property": "C63",
   "status": "proved",
   "theorems": [
    "Nat20.C63_vectors",
    "Nat20.C63_errors",
    "Nat20.C63_every_file",
    "Nat20.C63_no_file",
    "Nat20.filePairs_unique"
   ],
   "note": ""
  },
  {
   "property": "C64",
   "status": "partial",
   "theorems": [
    "Nat20.C64_nothing_lost_partial",
    "Nat20.C64_incomplete_accepted",
    "Nat20.C64_no_fields"
   ],
   "note": "The code drops an incomplete vector at the end of the file, and a reader without fields does not terminate (both proved); nothing else is lost."
  },
  {
   "property": "C65",
   "status": "proved",
   "theorems": [
    "Nat20.C65_hexdump",
    "Nat20.C65_content"
   ],
   "note": ""
  },
  {
   "property": "C66",
   "status": "proved",
   "theorems": [
    "Nat20.C66_oid",
    "Nat20.C66_string",
    "Nat20.C66_name"
   ],
   "note": "The first two arcs of rendered OIDs as in C14."
  },
  {
   "property": "C67",
   "status": "proved",
   "theorems": [
    "Nat20.C67_restart"
   ],
   "note": "Relative to the assumptions on the elliptic curve operations of the library (Lib.Standard, Verifier.Accepts), as in C60."
  },
  {
   "property": "C68",
   "status": "partial",
   "theorems": [
    "Nat20.C68_partial",
    "Nat20.C68_ec_partial",
    "Nat20.C68_ed25519_is_cdi",
    "Nat20.C68_ec_from_cdi",
    "Nat20.C68_zero_padding",
    "Nat20.C68_long_secret"
   ],
   "note": "Proved for keys of one type and secrets of one length up to 128 octets, up to explicit collisions of SHA-512. Not true for different types (the Ed25519 seed is the CDI of the same context; EC keys are computed from it) nor for secrets of different lengths (padding with zeros, hashing of long secrets); these negations are proved."
  },
  {
   "property": "C69",
   "status": "proved",
   "theorems": [
    "Nat20.C69_interleaving"
   ],
   "note": "Interleaving at the granularity of calls; the functions have no state other than the object they are given."
  },
  {
   "property": "C70",
   "status": "partial",
   "theorems": [
    "Nat20.C70_digest",
    "Nat20.C70_digest_all",
    "Nat20.C70_hmac",
    "Nat20.C70_hmac_all",
    "Nat20.C70_extract",
    "Nat20.C70_expand_partial",
    "Nat20.C70_one_block",
    "Nat20.C70_hkdf_partial",
    "Nat20.C70_expand_in_place",
    "Nat20.C70_expand_in_place_wrong",
    "Nat20.C70_expand_exact",
    "Nat20.C70_hkdf_exact",
    "Nat20.C70_exact_right"
   ],
   "note": "Violated for hkdf_expand and hkdf with more than one block: C70_expand_exact and C70_hkdf_exact give the exact result for every overlap and every length (each block is made of what is in the place of the key and the info after the blocks before), C70_expand_in_place gives the exact wrong result (the second block is keyed with the first), C70_expand_in_place_wrong a concrete case. Everything else is proved for every overlap."
  },
  {
   "property": "C71",
   "status": "proved",
   "theorems": [
    "Nat20.C71_digest",
    "Nat20.C71_hmac",
    "Nat20.C71_extract",
    "Nat20.C71_expand",
    "Nat20.C71_hkdf"
   ],
   "note": "Undefined behaviour (invalid memory, see C70 and C46) is the only exception."
  },
  {
   "property": "C72",
   "status": "proved",
   "theorems": [
    "Nat20.C72_digest",
    "Nat20.C72_hmac",
    "Nat20.C72_extract",
    "Nat20.C72_expand",
    "Nat20.C72_hkdf",
    "Nat20.C72_variables",
    "Nat20.C72_threads"
   ],
   "note": "About the variables of the source code; copies a compiler makes in registers or spill slots are outside of the model."
  },
  {
   "property": "C73",
   "status": "proved",
   "theorems": [
    "Nat20.C73_footprint",
    "Nat20.C73_alone",
    "Nat20.C73_any_schedule",
    "Nat20.C73_output",
    "Nat20.C73_digest",
    "Nat20.C73_hkdf",
    "Nat20.C73_shared_output"
   ],
   "note": "Sequentially consistent memory with atomic octets; every thread has its own stack. As the threads do not share written memory there is no data race, so that C11 gives exactly these executions. The hash state is a value of the thread (no pointer to it leaves the call)."
  },
  {
   "property": "C74",
   "status": "proved",
   "theorems": [
    "Nat20.C74_trace",
    "Nat20.C74_reply"
   ],
   "note": "A statement about the source code: branches, addresses and indices. What a compiler makes of it, and instructions whose time depends on operands (the code uses only additions, shifts and logical operations on data), are outside of the model."
  },
  {
   "property": "C75",
   "status": "proved",
   "theorems": [
    "Nat20.C75_like_copies",
    "Nat20.C75_prepends",
    "Nat20.C75_memory",
    "Nat20.C75_new_stream",
    "Nat20.C75_too_small",
    "Nat20.C75_sizing",
    "Nat20.C75_init",
    "Nat20.C75_null_buffer",
    "Nat20.C75_certificate",
    "Nat20.C75_footprint",
    "Nat20.C75_overlap_undefined"
   ],
   "note": "The structs that describe what to render are passed by value; only octets are in memory. 'On copies' means exactly the octets of each slice, so that the integers 0 and -1, for which the code reads the octet next to the slice (C12, C31), are excluded. Theorems of C06-C36 give the hypothesis Prepends."
  },
  {
   "property": "C76",
   "status": "proved",
   "theorems": [
    "Nat20.C76_any_schedule",
    "Nat20.C76_render"
   ],
   "note": "As in C73: sequentially consistent memory with atomic octets, stacks are private. The unwritten part of a thread's buffer and the octets next to its integers count as accessed even if the run does not touch them."
  },
  {
   "property": "C77",
   "status": "proved",
   "theorems": [
    "Nat20.C77_certificate",
    "Nat20.C77_tbs",
    "Nat20.C77_fits",
    "Nat20.C77_signature",
    "Nat20.C77_basic_constraints",
    "Nat20.C77_key_usage",
    "Nat20.C77_dice"
   ],
   "note": "Hypotheses as in C31-C36: announced octets are there, and the byte next to a zero serial number is accessible."
  },
  {
   "property": "C78",
   "status": "proved",
   "theorems": [
    "Nat20.C78_calls",
    "Nat20.C78_histories",
    "Nat20.C78_no_leak",
    "Nat20.C78_legal_calls"
   ],
   "note": "Memory of the C++ runtime (std::vector, the new of key objects) is not counted as library objects; the key objects are the heap of Model/Boringssl. EVP_PKEY_assign_EC_KEY, whose result the code ignores, is assumed to succeed."
  },
  {
   "property": "C79",
   "status": "proved",
   "theorems": [
    "Nat20.C79_chain",
    "Nat20.C79_leaf",
    "Nat20.C79_exists"
   ],
   "note": "Validity periods, policies and constraints of RFC 5280 6.1 are left out: the library fills in what the caller asks for. The verification algorithms are any that accept the signatures of the library (C60)."
  },
  {
   "property": "C80",
   "status": "proved",
   "theorems": [
    "Nat20.C80_numbers",
    "Nat20.C80_certificates"
   ],
   "note": "The rest of the library does not look at object representations of numbers: SHA-2 uses shifts, everything else is arrays of octets."
  },
  {
   "property": "C81",
   "status": "proved",
   "theorems": [
    "Nat20.C81_one_after_the_other",
    "Nat20.C81_undefined",
    "Nat20.C81_keys",
    "Nat20.prog_alone"
   ],
   "note": "Assumed: the library (BoringSSL) and new/delete may be used by several threads; a library call is one step. The caller's buffers are not shared between calls in progress."
  },
  {
   "property": "C82",
   "status": "proved",
   "theorems": [
    "Nat20.C82_once",
    "Nat20.C82_rendering",
    "Nat20.C82_certificate",
    "Nat20.C82_digest",
    "Nat20.C82_hkdf",
    "Nat20.C82_calls"
   ],
   "note": "An interruption loses the program and the stacks and keeps the memory; writes take effect in program order (caches and write buffers are not modelled)."
  },
  {
   "property": "C83",
   "status": "partial",
   "theorems": [
    "Nat20.Sized.C83_stream",
    "Nat20.Sized.C83_write",
    "Nat20.Sized.C83_then",
    "Nat20.Sized.C83_contents",
    "Nat20.Sized.C83_asn1",
    "Nat20.Sized.C83_bitstring_partial",
    "Nat20.Sized.C83_wraps",
    "Nat20.Sized.C83_cbor",
    "Nat20.Sized.C83_x509",
    "Nat20.Sized.C83_dice",
    "Nat20.Sized.C83_certificate_partial"
   ],
   "note": "Violated by the code for bit strings with one of the last seven numbers of bits of size_t (with 32 bits: 512 MiB), which are rendered as malformed bit strings (C83_wraps); therefore public keys and signatures of that size are excluded. int has at least 32 bits, as the code assumes it elsewhere. For the native crypto functions see C84."
  },
  {
   "property": "C84",
   "status": "proved",
   "theorems": [
    "Nat20.Sized.C84_states",
    "Nat20.Sized.C84_context",
    "Nat20.Sized.C84_members",
    "Nat20.Sized.C84_no_context",
    "Nat20.Sized.C84_sha2"
   ],
   "note": "C84_members says the same for the functions of crypto.c with the members of another context, where HKDF expand needs that hmac leaves the size at the size of the digest."
  },
  {
   "property": "C85",
   "status": "proved",
   "theorems": [
    "Nat20.Sized.C85_call",
    "Nat20.Sized.C85_history"
   ],
   "note": "Ed25519 signatures and public keys of the library have fewer than 65536 octets (they have 64 and 32). BoringSSL itself is a parameter of the model and does the same on both platforms."
  },
  {
   "property": "C86",
   "status": "proved",
   "theorems": [
    "Nat20.C86_call",
    "Nat20.C86_effect",
    "Nat20.C86_history",
    "Nat20.C86_kept",
    "Nat20.C86_safe",
    "Nat20.C86_threads",
    "Nat20.C86_threads_undefined"
   ],
   "note": "A handle that is used after key_free may be that of another key (shown beside the theorems); that is outside the rules. operator new does not fail."
  },
  {
   "property": "C87",
   "status": "partial",
   "theorems": [
    "Nat20.C87_calls_partial",
    "Nat20.C87_enough",
    "Nat20.C87_histories_partial",
    "Nat20.C87_legal_calls_partial",
    "Nat20.C87_exception",
    "Nat20.C87_leak"
   ],
   "note": "Violated by the code: operator new and std::vector throw, nothing catches the exception, and it leaves the C functions instead of an error code (C87_exception; the checks for null in lines 649 and 1064 have no effect). make_secret loses the key object if there is no memory for its contents (C87_leak). Proved of everything else: an exception leaves the variables of the caller, the library objects and all keys as they were, and no call does anything undefined."
  },
  {
   "property": "C88",
   "status": "proved",
   "theorems": [
    "Nat20.C88_calls",
    "Nat20.C88_rendering",
    "Nat20.C88_alone",
    "Nat20.C88_wait_free",
    "Nat20.C88_result"
   ],
   "note": "A step of the digest functions is an access to memory, the evaluation of a condition, an access to an array of words, or the beginning or end of the lifetime of a local array; for the rendering functions a step is an access to memory. The budgets bound these from above; they are linear but not the exact numbers."
  },
  {
   "property": "C89",
   "status": "proved",
   "theorems": [
    "Nat20.C89_no_race",
    "Nat20.C89_weak_memory"
   ],
   "note": "A thread sees its own stores in program order. An example beside the theorems shows that the machine has executions that no sequentially consistent machine has, and that there are executions under every schedule."
  },
  {
   "property": "C90",
   "status": "proved",
   "theorems": [
    "Nat20.C90_calls",
    "Nat20.C90_defined",
    "Nat20.C90_results",
    "Nat20.C90_any_memory"
   ],
   "note": "Local arrays count as known: the code initialises all of them with {0}. Remains of ended functions on the stack are not inputs of any call."
  },
  {
   "property": "C91",
   "status": "partial",
   "theorems": [
    "Nat20.C91_extension_partial",
    "Nat20.C91_signed_partial",
    "Nat20.C91_certificate_partial",
    "Nat20.C91_hash_algorithm"
   ],
   "note": "False for OIDs that C14 excludes (C91_hash_algorithm: two TcbInfo naming different hash algorithms are rendered as the same octets; for the OIDs of other fields C14_large_second_arc); undefined where numbers 0 and -1 are read beyond their end (C13). Everything else is proved."
  },
  {
   "property": "C92",
   "status": "partial",
   "theorems": [
    "Nat20.C92_prepend",
    "Nat20.C92_big_endian",
    "Nat20.C92_little_endian_partial",
    "Nat20.C92_little_endian",
    "Nat20.C92_data",
    "Nat20.C92_data_overflow",
    "Nat20.C92_expand"
   ],
   "note": "False in two places (proved): every little-endian INTEGER, so every n20_asn1_uint64 and n20_asn1_int64 on little-endian hosts, computes the pointer before the number (C92_little_endian); n20_stream_data computes pointers outside of the buffer for streams without buffer or with an overflow (C92_data_overflow)."
  },
  {
   "property": "C93",
   "status": "partial",
   "theorems": [
    "Nat20.C93_profile_partial",
    "Nat20.C93_any_time_partial",
    "Nat20.C93_default_start",
    "Nat20.C93_before_2050",
    "Nat20.C93_no_tbs"
   ],
   "note": "False for times before 2050 (proved): the code renders them as GeneralizedTime, where RFC 5280 4.1.2.5 demands UTCTime (C93_before_2050), so every certificate with the default start time violates the profile (C93_default_start). With GeneralizedTime allowed for all years, the property holds exactly for the documented arguments (C93_any_time_partial). Missing: serial number 0 and OIDs as in C33."
  },
  {
   "property": "C94",
   "status": "proved",
   "theorems": [
    "Nat20.C94_header_with_content",
    "Nat20.C94_certificate",
    "Nat20.C94_twice",
    "Nat20.C94_without_memory",
    "Nat20.C94_growing"
   ],
   "note": "With callbacks whose output grows from call to call, a size learnt from a first rendering is too small for the second one (C94_growing)."
  }
 ]
}