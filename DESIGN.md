# Formal model of libnat20 in Lean 4

## Layout

* `lean/Verif/Model/*`: the model, one Lean definition per C function (or per piece of a long function), each with the file and the lines it models.
* `lean/Verif/Spec/*`: small specifications written from the standards (X.690 DER, RFC 8949 CBOR, RFC 5280, Open DICE, TCG DICE,
  FIPS 180-4, RFC 2104, RFC 5869, RFC 6979) and from the header comments (error contracts). They do not mention helper definitions of the model;
  `Spec/KeyApi.lean` refers to the types of the model's API (handles, replies).
* `lean/Verif/Lemmas/*`: helper lemmas.
* `lean/Verif/Props/*`: the property theorems (named `Cnn_...`), each with an `example` that shows that its
  hypotheses can be met, and the negations where the code violates the property.
* `properties.jsonl`: the properties in English. `MANIFEST.json`: which theorems prove which property. `seeded/LOG.jsonl`: wrong programs tried.
* `axioms.txt`: `#print axioms` for every theorem of the manifest.

## Trusted base

* Lean 4.33.0's kernel. No `native_decide`, `bv_decide`, `sorry` or own axioms; `decide +kernel` is used for examples, witnesses, finite tables
  (constants, digits) only, and is checked by the kernel.
* Axioms: only `propext`, `Classical.choice`, `Quot.sound`, see `axioms.txt`. Mathlib is not used.
* That the model says what the C code does. Nothing was compiled or run; the model was written by reading the code, and every
  definition cites the lines it stands for.
* That the specifications in `Spec/` say what the standards say. Spec/Sha2.lean is checked indirectly: its constants are proved to
  be the roots of primes (C39); its functions were evaluated on test vectors of FIPS 180-4 and
  compared with another implementation (Python's hashlib and hmac) outside of the kernel while writing it.
* `Tests/RepoVectors.lean` is no proof but a check of the model against the code: all test vectors of the repository's unit tests for the stream, ASN.1, OID,
  CBOR, X.509 and DICE extension functions are reproduced by the model (evaluated by the kernel).
* `Tests/Rfc6979.lean` checks the specification and the model of RFC 6979 with vectors of the repository (one with rejected candidates), `Tests/DerivedKey.lean` derives the P-256 key of the repository's test CDI; the kernel computes all steps (Lemmas/Eval).
* `Tests/InstancesCore.lean`, `Tests/InstancesPki.lean` and `Tests/InstancesDigest.lean` apply the theorems about the stream, ASN.1, CBOR, X.509, DICE, SHA-2, HMAC, HKDF and the BoringSSL digests to concrete data, with no hypothesis left open. The other theorems have such cases in the modules they are in.
* `Tests/DigestVectors.lean` evaluates HMAC and HKDF vectors of the repository in the model, in the kernel. `Vectors.run` in that module evaluates a whole vector file with compiled code; all 1275 vectors of `hmac_test_vectors.txt` and all 1512 of `hkdf_test_vectors.txt` agree (run by hand, part of no proof; `sha2_test_vectors.txt` is not in the repository).
* For the reference context (`crypto_boringssl.cpp`): the assumptions about BoringSSL stated under *Modelling decisions*.

## Modelling decisions

* **Platform.** LP64: `size_t` is `UInt64`, `int` is 32 bit; the byte order of the host is a parameter (`Frame.bigEndian`) of the functions in which it matters, see C80; everything but the test support library is also modelled with another width of `size_t` (`Model/Sized`, `Model/SizedDigest`, `Model/SizedBssl`), see C83, C84 and C85. All arithmetic wraps as in C; signed overflow is UB.
* **Undefined behaviour is an outcome.** Everything that touches memory returns `Except UB α`; `UB` lists
  out-of-bounds read/write, NULL dereference, signed overflow, NULL or overlapping objects passed to memcpy, use after free, access through a pointer of the wrong type; and
  `diverges`, which is not UB, for a loop that makes no progress. Theorems of the form `f x = .ok ...` therefore include absence of all of these.
* **Pointers to constant data.** `Ptr` = accessible memory in front of the pointer and from the pointer on; a
  read outside both is `UB.oobRead`. With no memory in front and exactly `size` bytes behind this is the strict C view (the
  pointed-to object is all there is). NULL is `none`.
* **Locals whose address is taken** (`n20_asn1_uint64`) sit between arbitrary accessible stack bytes
  (`Frame`); the strict view is the empty frame.
* **Streams.** The stream struct plus the memory `begin` points to. Rendering functions are
  `StateT (Option Stream) (Except UB)`, `none` being a NULL `n20_stream_t*`.
* **Callbacks.** A content callback with its `void *` context is a writer closed over its context. Theorems about functions that
  take callbacks quantify over all writers that satisfy `Prepends` (or over all writers, where that is possible).
* **Aliasing.** In the first models of the rendering functions and of the digest functions source data, the stream buffer and output buffers do not overlap. Both are modelled a second
  time with all octets in one memory: `Model/Arena.lean` repeats `crypto.c` (C70), and `Model/Writers.lean` repeats the rendering functions with every octet read and written where and
  when the code does so (C75). `C75_like_copies` carries every property of the rendering functions over, and says under which condition. Overlap in `memcpy` is UB (`UB.overlap`). Still by
  value in all models: the structs that describe what to render, and the stream struct itself.
* **Clearing of local buffers** (`n20_memzero`) is modelled in `Model/Arena.lean` (C72) and left out of `Model/Digest.lean`, as a caller cannot observe it. The erasure of `R` and `t1`
  at the end of `n20_sha256_main` and `n20_sha512_main` is modelled in `Model/Steps.lean`. Copies of secrets that a compiler makes in registers or spill slots are not modelled.
* **Steps and threads** (`Model/Steps.lean`, `Model/Writers.lean`). A call is a program of single octet accesses, branches and accesses to arrays of words; `C73_alone` proves that run alone it is the function of
  `Model/Arena.lean`. Threads interleave at single steps (sequential consistency), share the memory of the callers and have private stacks. The hash state and `R`, `t1` are
  values of the program, and what they hold at the end of their lifetime goes to the stack memory; `a && b` and `a || b` are one branch. An observer sees addresses, branches and indices, not values (C74).
* **Objects of BoringSSL** (`Model/Resources.lean`). Unique pointers are scopes: the object is destroyed when the function is left, by whichever `return`, unless it was handed over. Objects have numbers
  that are not reused; using or destroying one that does not exist is undefined behaviour. Uses in a row with no destruction in between are one use. `EVP_PKEY_assign_EC_KEY` is assumed to succeed (the code
  does not check it). A key object destroys its member through the virtual destructor.
* **BoringSSL** (`Model/Boringssl.lean`, `Lib`). Assumed: its hashes, HMAC, HKDF and big number functions compute the standards; every call whose result is
  checked may fail at any time, chosen by an arbitrary function; a failed call may leave anything in its output. The elliptic curve
  operations are arbitrary functions; `Lib.Standard` (Spec/KeyApi.lean), used where needed, says that ECDSA signatures are pairs below the
  order, coordinates fit, and Ed25519 outputs have 64/32 octets. Not modelled: results that the code does not check are assumed good (`HMAC_Update`, `EVP_DigestUpdate`,
  `EVP_DigestFinal`); `operator new` and `std::vector` succeed, except in `Model/OutOfMemory.lean` (C87). Key objects have numbers that are never used again; `Model/Alloc.lean` has them at
  addresses that an arbitrary allocator chooses, and C86 proves that this makes no difference. `Model/Concurrent.lean` has threads that share the context (C81).
* **Fuel.** `rfcLoop`, `expandLoop` and `readLoop` are potentially infinite loops; they take a bound and return `diverges` when it is
  exhausted. For `expandLoop` the bound is enough for every `hmac` that leaves the size alone (proved: the theorems about it end in `.ok`); for RFC 6979 the
  theorems quantify over the bound.

## What is modelled

| source | model | coverage |
|---|---|---|
| `src/core/stream.c` | Model/Stream, Model/Writers, Model/Sized | all functions; in Model/Writers those that render, with addresses |
| `src/core/asn1.c`, `include/nat20/asn1.h` | Model/Asn1, Model/Writers, Model/Sized | all functions, twice: on separate objects, and as programs of single memory accesses in one memory; and with `size_t` of any width |
| `src/core/oid.c`, `oid.h` | Model/Asn1, Model/Oid | comparison, all exported constants |
| `src/core/cbor.c` | Model/Cbor, Model/Writers, Model/Sized | all functions, twice |
| `src/core/x509.c`, `x509.h` | Model/X509, Model/Writers, Model/Sized | all functions, twice; key usage macros |
| `src/core/x509_ext_*.c`, `.h` | Model/Dice, Model/Writers, Model/Sized | all functions, twice; operational flag macros |
| `src/crypto/nat20/sha256.c`, `sha512.c` | Model/Sha2, Model/Steps, Model/SizedDigest | all functions; in Model/Steps as programs of single memory accesses |
| `src/crypto/nat20/crypto.c` | Model/Digest, Model/Arena, Model/Steps, Model/SizedDigest | all functions, three times: on separate buffers, on one memory with overlaps and erasure, and as programs of single memory accesses; and with `size_t` of any width |
| `src/crypto/crypto_boringssl.cpp` | Model/Boringssl, Model/Resources, Model/SizedBssl | all functions, on top of `Lib`, also with `size_t` of any width; in Model/Resources a second time with the library objects that they create, use, hand over and destroy; in Model/OutOfMemory the functions that allocate (`kdf`, `sign`, `make_secret`) with exceptions |
| `include/nat20/error.h` | Model/Digest | as an enumeration |
| `src/testing/*`, `include/nat20/testing/*` | Model/Testing | all functions; one value type for all fields in place of a tuple type; no I/O errors on an open file |
| `src/core/test/x509.cpp` (616-760) | Model/Issue | the steps of the certificate test as a client program, generalised to two keys |
| other `src/*/test/*` | - | not modelled: unit tests; vectors of theirs are in Tests |
| `CMakeLists.txt` | - | not modelled |

## Central notions

* `Prepends w bs` (Spec/Stream.lean): writer `w`, started in any well-formed stream, has no UB, and its observable effect is
  that of prepending `bs` (byte count, both flags, data region, untouched memory). It composes, so each renderer is proved to
  prepend the bytes the standard prescribes, for every input, every stream state and every buffer size.
* `Der.Tree` with `encode` and a strict parser (Spec/Der.lean): the standard's side of ASN.1. `Cbor` items with a decoder (Spec/Cbor.lean).
* `sha2`, `hmac`, `hkdfExtract`, `hkdfExpand` (Spec/Sha2, Spec/Digest), RFC 6979 candidates (Spec/Keys).
* `Prog.Within` (which memory a program uses, whatever it reads), `Prog.trace` (what is seen of it), `Machine.exec` (threads under a schedule) (Spec/Steps).
* `documented...Error` (Spec/Digest, Spec/KeyApi): the error contract of the headers as a decision list.

## Findings: where the code does not have the property

Each of these is a theorem with a witness (or for a whole class of inputs), next to a `_partial` theorem for the rest.

* `n20_asn1_integer` reads the byte next to the slice when the value is 0 or -1 (C12_reads_outside; consequences in C27, C31, C34, C35).
* Every little-endian `n20_asn1_integer` computes the pointer one before the number, hence every `n20_asn1_uint64` and `n20_asn1_int64` on little-endian hosts (C92_little_endian); `n20_stream_data`
  computes pointers outside of the buffer for streams without buffer or with an overflow (C92_data_overflow). Both are undefined by C11 6.5.6p8 although nothing is accessed.
* Validity times are always rendered as GeneralizedTime; RFC 5280 4.1.2.5 demands UTCTime through 2049, so every certificate with the default start time or with a time before 2050 violates the profile (C93_default_start,
  C93_before_2050). `x509.h` 694 and 704 ask for "a generalized time string of the form described in N20_ASN1_TAG_UTC_TIME", which is another form. The rest of the profile holds exactly for the arguments listed in
  `Profile.Documented` (C93_any_time_partial); the code checks none of them: characters and lengths of names, sign and length of the serial number, equality of the two algorithm identifiers, repeated extensions.
* `n20_asn1_bitstring`: `bits + 7` wraps for the last seven values of `size_t` (C13_wraps); with a `size_t` of 32 bits these are bit strings of 512 MiB (C83_wraps).
* `n20_asn1_object_identifier`: the first two arcs are put into one byte, which truncates `2.48` and above (C14_large_second_arc); `{a}` and `{a, 0}` collide.
* `n20_asn1_oid_equals` does not check the count against the array (C18_unchecked_count).
* NULL replacements of OIDs, integers and times ignore the tag override (C15).
* `n20_cbor_write_int(INT64_MIN)` is a signed overflow (C21_int_min_undefined); `n20_cbor_write_header` writes malformed heads for the simple values 24..31 (C19_reserved_simple);
  an empty string at NULL is passed to memcpy (C22_empty_null_string).
* `n20_x509_name(NULL)` or with more than 8 elements: documented as `05 00`, rendered as `30 02 05 00` (C24_null_name).
* `digest` of the native context dereferences NULL for a NULL list other than the first one (C41_later_null_list); it reads `msg_in[0]` even for `msg_count == 0`.
* `hmac` with an empty key at NULL, and `hkdf` without salt at NULL, pass NULL to memcpy (C42_empty_null_key, C44_null_salt).
* Key derivation does not depend on the key type: the Ed25519 private key derived in a context is octet for octet the CDI derived in that context, and EC private keys are computed from it (C68_ed25519_is_cdi, C68_ec_from_cdi). Secrets of up to 128 octets that differ only in zeros at the end derive the same keys, and so do a longer secret and its hash (C68_zero_padding, C68_long_secret).
* The rendering functions do not check where their inputs are. Inputs in the part of the buffer that is still to be written are undefined behaviour when a copy overlaps (C75_overlap_undefined), and integers and bit strings there are rendered wrongly without any error (example below it in Props/Writers).
* `hkdf_expand` reads the pseudorandom key and the info again for every block. If more than one block is derived in place, it reports success and the second block is keyed with the first one (C70_expand_in_place, C70_expand_in_place_wrong). Neither the header nor the code excludes overlapping buffers; `digest`, `hmac` and `hkdf_extract` are safe in place (C70_digest, C70_hmac, C70_extract).
* `hkdf_expand` of the native context does not reject more than 255 digests; the counter wraps and the output repeats (C44_too_long). It ignores errors of `hmac` for whole blocks (C52_expand_ignores_errors).
* SHA-2: the message length in bits is taken modulo 2^64, hence the bound of 2^61 octets in C37, C38 (also for the 64-bit family, where the standard allows 2^128 bits).
* Reference context: `EVP_MD_CTX_new` is used unchecked (C56_digest_unchecked_allocation); NULL lists after the first are skipped (C56_digest_later_null_list); `hmac` reports a NULL size
  before an unknown algorithm; a failing `EVP_DigestSignFinal` leaves 104 in `*signature_size` (C49_sign_failure_size).
* Reference context: `operator new` and `std::vector` throw when memory runs out, and nothing catches the exception: it leaves the C functions, which should return `n20_error_crypto_no_resources_e`
  (C87_exception). `make_secret` then loses the key object if its contents cannot be allocated (C87_leak). All unique pointers are released correctly.
* Test support: the hex parser accepts a digit followed by any other character (C62_accepts_other_characters); the vector reader drops an incomplete vector at the end of a file
  and never ends without fields (C64_incomplete_accepted, C64_no_fields).
* Documentation only: `sign` lists `null_data` for a parameter that does not exist; errors of `make_secret` are not documented; key usage with only
  `decipherOnly` has 9 bits; TcbInfo flags are always 32 bits.

## Testing the theorems

`seeded/LOG.jsonl` lists the wrong programs tried: the model was edited in a scratch copy and everything rebuilt. `failed` lists the
first theorems and lemmas that no longer compile, and the manifest theorems that depend on these. Theorems added because a wrong program survived or was caught for a wrong reason:
`C02_null_size_ignored`, `C52_expand_last_block_partial`, `C52_hmac_failing_call`, `C09_tag_info_helpers`.

## Status per property

| id | property | status | how it is modelled and proved | theorems | missing or remarks |
|---|---|---|---|---|---|
| C01 | Stream holds exactly the prepended bytes | proved | stream.c over UInt64 with its memory; invariant and refinement to a list of octets by induction over the sequence of calls | `C01_stream_contents` |  |
| C02 | Sizing pass is exact | proved | stream.c over UInt64 with its memory; invariant and refinement to a list of octets by induction over the sequence of calls | `C02_sizing_exact`, `C02_two_pass`, `C02_null_size_ignored` |  |
| C03 | Overflow flags are exact and sticky | proved | stream.c over UInt64 with its memory; invariant and refinement to a list of octets by induction over the sequence of calls | `C03_flags_exact`, `C03_flags_sticky` |  |
| C04 | Stream writes stay inside the buffer and never disturb committed bytes | proved | stream.c over UInt64 with its memory; invariant and refinement to a list of octets by induction over the sequence of calls | `C04_stays_inside`, `C04_committed_bytes_stay`, `C04_all_or_nothing` |  |
| C05 | NULL stream is harmless | proved | NULL stream as a state of every rendering function; induction over an inductive type of all rendering calls | `C05_null_stream`, `C05_renderers`, `C05_sequences` |  |
| C06 | Base-128 integers round-trip and are minimal | proved | base-128 loop, induction on n; decoder in Spec/Asn1 | `C06_base128` |  |
| C07 | DER header round-trips and is minimal | proved | header writer against a strict DER header parser, both directions | `C07_header`, `C07_header_canonical` |  |
| C08 | Length field always equals the content length | proved | header_with_content over an arbitrary callback that prepends some octets; nesting by induction | `C08_header_with_content`, `C08_null_callback`, `C08_sequence`, `C08_nesting` |  |
| C09 | Tag overrides | proved | tag_info applied to the Der tree; each typed renderer proved to prepend the overridden tree | `C09_tag_overrides`, `C09_tag_info_helpers` | Arguments that are replaced by NULL ignore tag overrides, see C15. |
| C10 | INTEGER renders the value of the slice minimally | partial | pointer-level model of the loop; value in Int, minimality as X.690 8.3.2; over-read as outcome | `C10_integer_partial` | Values 0 and -1 need the adjacent byte to be readable (defect shown in C12_reads_outside). |
| C11 | uint64/int64 render the number | partial | pointer-level model of the loop; value in Int, minimality as X.690 8.3.2; over-read as outcome | `C11_uint64_partial`, `C11_int64_partial`, `C11_reads_outside` | Same restriction as C10; the negation is proved for the excluded numbers, so the restriction is exact. |
| C12 | INTEGER reads only its slice | partial | pointer-level model of the loop; value in Int, minimality as X.690 8.3.2; over-read as outcome | `C12_slice_only_partial`, `C12_reads_outside`, `C12_reads_outside_witness`, `C12_output_depends_on_surroundings`, `C12_empty` | The code violates the property; the negation is proved for every slice with value 0 or -1 and the remaining cases are proved. |
| C13 | BIT STRING renders exactly the requested bits | partial | bits as List Bool | `C13_bitstring_partial`, `C13_bitstring_null`, `C13_wraps` | bits + 7 wraps for the last 7 values of size_t. |
| C14 | OBJECT IDENTIFIER round-trips | partial | OID contents against a decoder in the specification | `C14_oid_partial`, `C14_oid_injective_partial`, `C14_standard_content_partial`, `C14_large_second_arc`, `C14_exact` | The arcs can be recovered exactly if the first two fit into one octet without continuation bit (C14_exact); the code truncates otherwise. |
| C15 | Unrenderable values become ASN.1 NULL | proved | OID contents against a decoder in the specification | `C15_null_fallback` |  |
| C16 | String-like values are rendered verbatim | proved | octet-exact against Der trees | `C16_strings`, `C16_bytes` |  |
| C17 | BOOLEAN and NULL | proved | octet-exact against Der trees | `C17_boolean_null`, `C17_boolean_null_overrides` |  |
| C18 | OID comparison is equality | proved | array reads with bounds; equality of arc lists | `C18_oid_equals`, `C18_equivalence`, `C18_unchecked_count` | C18_unchecked_count shows what happens outside of the documented precondition elem_count <= 10. |
| C19 | CBOR heads round-trip in shortest form | partial | cbor.c against an RFC 8949 decoder | `C19_header_partial`, `C19_reserved_simple` | Simple values 24..31 are written malformed (negation proved). |
| C20 | Invalid CBOR major types become undefined | proved | cbor.c against an RFC 8949 decoder | `C20_invalid_type` |  |
| C21 | CBOR integers round-trip | partial | cbor.c against an RFC 8949 decoder | `C21_uint`, `C21_int_partial`, `C21_int_min_undefined` | INT64_MIN is a signed overflow (negation proved). |
| C22 | CBOR strings, null and booleans round-trip | partial | cbor.c against an RFC 8949 decoder | `C22_strings_partial`, `C22_null_string`, `C22_null_bool`, `C22_empty_null_string` | An empty NULL slice passes NULL to memcpy (negation proved). |
| C23 | CBOR structures compose | proved | items as trees, mutual induction | `C23_structures`, `C23_injective` |  |
| C24 | X.509 names are RDN sequences in order | proved | x509.c against Der trees written after RFC 5280 | `C24_name`, `C24_attribute_value`, `C24_null_name` | Contents octets of OIDs are as in C14. The placeholder is a SEQUENCE around the NULL (30 02 05 00), not the bare NULL of the header comment. |
| C25 | Serial number attributes are lowercase hex | proved | x509.c against Der trees written after RFC 5280 | `C25_serial_hex`, `C25_digits`, `C25_distinct` |  |
| C26 | Extensions render in order with exact values | proved | x509.c against Der trees written after RFC 5280 | `C26_extensions`, `C26_none` | Callbacks are writers that prepend fixed bytes to any stream. |
| C27 | Basic constraints | partial | x509.c against Der trees written after RFC 5280 | `C27_basic_constraints_partial`, `C27_null`, `C27_reads_outside` | Path length 0 reads a byte outside of a local variable (negation proved in every stream state, so the restriction is exact). |
| C28 | Key usage is a minimal named bit list | proved | x509.c against Der trees written after RFC 5280 | `C28_key_usage`, `C28_null`, `C28_distinct` |  |
| C29 | Algorithm identifiers and public key info | proved | x509.c against Der trees written after RFC 5280 | `C29_algorithm`, `C29_null`, `C29_public_key` | Key bits + 7 must not wrap, see C13. |
| C30 | Validity defaults | proved | x509.c against Der trees written after RFC 5280 | `C30_validity` |  |
| C31 | TBS certificate follows RFC 5280 | partial | x509.c against Der trees written after RFC 5280 | `C31_tbs_partial`, `C31_serial`, `C31_reads_outside` | Serial number 0 reads outside of the number (negation proved whatever the other fields are, so the restriction is exact). |
| C32 | The signature covers exactly the embedded TBS bytes | proved | x509.c against Der trees written after RFC 5280 | `C32_tbs_embedded`, `C32_tbs_recovered` |  |
| C33 | Certificates are well-formed, unambiguous DER | partial | strict recursive DER parser; injectivity by decoding | `C33_certificate_partial`, `C33_unambiguous_partial`, `C33_reads_outside` | Serial number 0 as in C31; unambiguity for OIDs as in C14. |
| C34 | Open DICE input extension | partial | extension renderers against Der trees | `C34_open_dice_input_partial`, `C34_unambiguous_partial`, `C34_null`, `C34_reads_outside` | Mode 0 reads a byte outside of a local variable (negation proved); full if that byte is readable. |
| C35 | TCG DICE TcbInfo extension | partial | extension renderers against Der trees | `C35_tcb_info_partial`, `C35_unambiguous_partial`, `C35_null`, `C35_reads_outside` | svn, layer, index 0 or -1 read a byte outside of a local variable (negation proved); unambiguity for OIDs as in C14. |
| C36 | TCG DICE MultiTcbInfo, UEID and freshness extensions | partial | extension renderers against Der trees | `C36_multi_tcb_info_partial`, `C36_ueid`, `C36_freshness`, `C36_null`, `C36_reads_outside` | Numbers 0 and -1 as in C35. |
| C37 | SHA-224/256 compute FIPS 180-4 | proved | circular schedule and rotating registers against the FIPS 180-4 recursion; streaming by an invariant on buffered octets | `C37_sha256`, `C37_sha224`, `C37_chunking`, `C37_null` | Every chunking of every message below 2^61 octets; the specification is FIPS 180-4 written independently in Spec/Sha2.lean. |
| C38 | SHA-384/512 compute FIPS 180-4 | proved | circular schedule and rotating registers against the FIPS 180-4 recursion; streaming by an invariant on buffered octets | `C38_sha512`, `C38_sha384`, `C38_chunking`, `C37_null` | As C37 for the 64-bit family. |
| C39 | SHA-2 constants are the FIPS ones | proved | integer roots of primes, finite and complete | `C39_constants` | All 160 constants, by integer roots of the first 80 primes. |
| C40 | digest hashes the concatenation of the gather list | proved | gather lists as pointers; decision list for errors | `C40_digest`, `C40_split` |  |
| C41 | digest error contract | partial | gather lists as pointers; decision list for errors | `C41_digest_contract_partial`, `C41_later_null_list` | The code violates the documented contract for a NULL list other than the first: it dereferences NULL (proved). All other argument combinations are proved. |
| C42 | hmac computes RFC 2104 | partial | crypto.c against RFC 2104 and RFC 5869; decision list for errors | `C42_hmac_partial`, `C42_empty_null_key` | An empty key at NULL is passed to memcpy (proved); everything else is proved. |
| C43 | hmac error contract | partial | crypto.c against RFC 2104 and RFC 5869; decision list for errors | `C43_hmac_contract_partial`, `C42_empty_null_key` | Same exception as C42. |
| C44 | hkdf computes RFC 5869 | partial | crypto.c against RFC 2104 and RFC 5869; decision list for errors | `C44_extract_partial`, `C44_expand_partial`, `C44_hkdf_partial`, `C44_prefix`, `C44_too_long`, `C44_null_salt` | Lengths above 255 digests are not rejected and the counter wraps (proved); an empty salt at NULL is passed to memcpy (proved). |
| C45 | hkdf error contract | partial | crypto.c against RFC 2104 and RFC 5869; decision list for errors | `C45_extract_contract_partial`, `C45_expand_contract_partial`, `C45_hkdf_contract_partial` | Same exception as C42. |
| C46 | Reference and native digest contexts agree | proved | both contexts against the same specification | `C46_digest`, `C46_hmac`, `C46_extract`, `C46_expand`, `C46_hkdf` | Stated from the native side: whatever the native function accepts is answered identically by the reference context, unless a library call fails; HKDF outputs above 255 digests, which the native context accepts, are rejected by the reference context. The standards are assumed for the library itself. |
| C47 | ECDSA signatures are fixed-size r||s | proved | DER of the pair as Der tree; unwrap proved for all r, s below the order | `C47_ecdsa_format`, `sigUnwrap_ok` | For every r, s below the order of the curve; that the library returns the DER encoding of such a pair is assumed (Lib.Standard). |
| C48 | Deterministic nonces are RFC 6979 | proved | loop against the RFC 6979 sequence of candidates | `C48_nonce`, `C48_deterministic`, `C48_curve_orders` | C48_curve_orders: the numbers q taken for the orders of the curves (EC_GROUP_get0_order) are orders of the base points of the standard curves. A fuel parameter (patience) bounds the number of rounds followed; running out of it is possible only if that many candidates are to be rejected. |
| C49 | Key handle contracts of the reference context | proved | functions over a world (library calls, heap of keys); decision lists | `C49_kdf`, `C49_sign`, `C49_sign_failure_size`, `C49_public_key`, `C49_free`, `C49_secret` | Finding: after a failed EVP_DigestSignFinal the size output is 104 (C49_sign_failure_size). |
| C50 | Exported OIDs are the standardised ones | proved | the 28 constants, finite and complete | `C50_constants`, `C50_distinct` |  |
| C51 | TcbInfo operational flag macros | proved | induction over the list of macros applied | `C51_operational_flags` |  |
| C52 | Errors of an overridden context function are reported | partial | context functions are arbitrary parameters | `C52_hmac_propagates`, `C52_extract_propagates`, `C52_hkdf_propagates`, `C52_expand_ignores_errors`, `C52_hmac_failing_call`, `C52_expand_last_block_partial`, `C52_hkdf_expand_result` | hkdf_expand ignores errors of hmac for whole blocks (proved); the other operations propagate. |
| C53 | Opening and closing the native context | proved | case analysis | `C53_open_close`, `C53_bssl_open_close` | Both contexts. |
| C54 | Rendering is context free | proved | uniformity of rendering calls in the stream, by induction over an inductive type of all rendering calls | `C54_render_once_render_everywhere`, `C54_context_free` |  |
| C55 | Rendering functions only write into the free part of the buffer | proved | uniformity of rendering calls in the stream, by induction over an inductive type of all rendering calls | `C55_rendering_stays_inside` | Absence of undefined behaviour itself is part of the theorems of the individual renderers. |
| C56 | Error contracts of the reference digest context | partial | functions over a library whose calls fail arbitrarily; decision lists | `C56_digest_partial`, `C56_digest_unchecked_allocation`, `C56_digest_later_null_list`, `C56_hmac`, `C56_extract`, `C56_expand`, `C56_hkdf` | digest: a failed EVP_MD_CTX_new is not reported but dereferenced, and NULL lists after the first are skipped (both proved). hmac reports a NULL size before an unknown algorithm. |
| C57 | Key handles survive any history | proved | invariant of the heap over all histories, by induction | `C57_histories`, `C57_step` |  |
| C58 | Key derivation is a function of CDI, type and context octets | proved | successful derivation as a function of octets | `C58_kdf_deterministic` |  |
| C59 | ECDSA signatures in the form certificates need | proved | the rendering of Model/Issue.x509Rs against a strict parser (Spec/Issue.IsEcdsaSignature) | `C59_ecdsa_der` |  |
| C60 | Certificates issued with the library verify | proved | Model/Issue.lean models the program of the repository's certificate test as a client of the library; Spec/Issue.lean is a verifier that takes certificates apart; composition of C31-C33, C47, C49, C59 | `C60_issue`, `C60_succeeds`, `C60_chain` | That the signatures of the library are valid under its public keys is an assumption about the library (Verifier.Accepts). The TBS arguments are legal in the sense of C31. |
| C61 | hex and the hex parser are inverse | proved | Model/Testing.hex, hexParse; relation IsHex (Spec/Testing); induction over the octets; the table of all octets is decided | `C61_parse`, `C61_hex` |  |
| C62 | The hex parser rejects what is not hexadecimal | partial | inversion of hexParse; negation for every digit and every other character | `C62_rejects_partial`, `C62_accepts_other_characters` | The code accepts a digit followed by a character that is not one (proved); all other malformed strings are rejected. |
| C63 | The vector reader returns the vectors of the file | proved | Model/Testing.readAll; relations FilePairs, Vectors, IsBad (Spec/Testing); every file is in one of the cases; the bound on rounds is file length + 1 | `C63_vectors`, `C63_errors`, `C63_every_file`, `C63_no_file`, `filePairs_unique` |  |
| C64 | The vector reader does not lose vectors silently | partial | consequence of C63; negations | `C64_nothing_lost_partial`, `C64_incomplete_accepted`, `C64_no_fields` | The code drops an incomplete vector at the end of the file, and a reader without fields does not terminate (both proved); nothing else is lost. |
| C65 | Format of hex dumps | proved | hexdump against dump (Spec/Testing), pieces of 16 and 8 | `C65_hexdump`, `C65_content` |  |
| C66 | Initialiser macros make what they say | proved | mkOid, strC, mkRdn, mkName (Model/Oid, Model/X509); composition with C14, C24 | `C66_oid`, `C66_string`, `C66_name` | The first two arcs of rendered OIDs as in C14. |
| C67 | Certificates stay valid across restarts | proved | composition of C57 (histories), C58 (determinism of derivation), C49 (public keys) and C60 (issued certificates) | `C67_restart` | Relative to the assumptions on the elliptic curve operations of the library (Lib.Standard, Verifier.Accepts), as in C60. |
| C68 | Derived keys are unrelated | partial | uniqueness of the inputs of the two hash computations of HMAC, as a reduction to explicit collisions; negations for key types and for the key padding of HMAC | `C68_partial`, `C68_ec_partial`, `C68_ed25519_is_cdi`, `C68_ec_from_cdi`, `C68_zero_padding`, `C68_long_secret` | Proved for keys of one type and secrets of one length up to 128 octets, up to explicit collisions of SHA-512. Not true for different types (the Ed25519 seed is the CDI of the same context; EC keys are computed from it) nor for secrets of different lengths (padding with zeros, hashing of long secrets); these negations are proved. |
| C69 | Concurrent hash computations do not disturb each other | proved | invariant over sequences of calls: each state object represents the message the ledger of the specification has for it (Rep of Lemmas/Sha2Stream) | `C69_interleaving` | Interleaving at the granularity of calls; the functions have no state other than the object they are given. |
| C70 | Digest functions used in place | partial | Model/Arena repeats crypto.c with slices and outputs as addresses in one memory, local arrays being objects of their own, and every octet read when the code reads it. Refinement for all arguments: digest, hmac and extract equal the functions of Model/Digest on the contents before the call. For expand an invariant over the blocks written so far, with the slices untouched by them; two blocks in place are computed exactly and compared with RFC 5869. | `C70_digest`, `C70_digest_all`, `C70_hmac`, `C70_hmac_all`, `C70_extract`, `C70_expand_partial`, `C70_one_block`, `C70_hkdf_partial`, `C70_expand_in_place`, `C70_expand_in_place_wrong`, `C70_expand_exact`, `C70_hkdf_exact`, `C70_exact_right` | Violated for hkdf_expand and hkdf with more than one block: C70_expand_exact and C70_hkdf_exact give the exact result for every overlap and every length (each block is made of what is in the place of the key and the info after the blocks before), C70_expand_in_place gives the exact wrong result (the second block is keyed with the first), C70_expand_in_place_wrong a concrete case. Everything else is proved for every overlap. |
| C71 | Digest calls write nothing but the output | proved | Frame property of Model/Arena: for each function, all octets outside the output range and its own local arrays agree before and after, by induction over the slices and the blocks; the local arrays end with the call. | `C71_digest`, `C71_hmac`, `C71_extract`, `C71_expand`, `C71_hkdf` | Undefined behaviour (invalid memory, see C70 and C46) is the only exception. |
| C72 | No secrets are left on the stack | proved | Model/Arena appends the non-zero octets of every secret local array and hash state to a region `stack` when its lifetime ends; Model/Steps does the same for `R` and `t1` of each execution of the compression function. Proved: the region is the same before and after each call, also among threads under every schedule. | `C72_digest`, `C72_hmac`, `C72_extract`, `C72_expand`, `C72_hkdf`, `C72_variables`, `C72_threads` | About the variables of the source code; copies a compiler makes in registers or spill slots are outside of the model. |
| C73 | The native digest functions may be called by any number of threads at the same time | proved | Model/Steps gives each function as a program of single octet accesses (Prog). Proved: it computes what Model/Arena says (refinement, by induction over rounds, octets, slices, blocks); it touches only its arguments and local arrays whatever it reads (Within); programs with separate footprints behave under every schedule as alone (induction over the schedule); a finished run is a finite number of steps. | `C73_footprint`, `C73_alone`, `C73_any_schedule`, `C73_output`, `C73_digest`, `C73_hkdf`, `C73_shared_output` | Sequentially consistent memory with atomic octets; every thread has its own stack. As the threads do not share written memory there is no data race, so that C11 gives exactly these executions. The hash state is a value of the thread (no pointer to it leaves the call). |
| C74 | What can be observed of a call does not depend on the data | proved | Relational proof on Model/Steps: any two executions of the same call proceed in lockstep (Prog.Alike), by induction over all loops, with hash states related when they have the same fill level; equal traces follow for memories of the same shape. | `C74_trace`, `C74_reply` | A statement about the source code: branches, addresses and indices. What a compiler makes of it, and instructions whose time depends on operands (the code uses only additions, shifts and logical operations on data), are outside of the model. |
| C75 | Rendering gives the same result wherever the inputs are in memory, as long as they are not in the unwritten part of the buffer | proved | Model/Writers repeats all rendering functions with addresses as programs of single octet accesses. Proved by a simulation (Follows): as long as the inputs are intact and not in the unwritten part, each program follows the writer on copies; it composes along sequencing, and goes through all loops by induction and through callbacks by induction on their depth. The footprint is a second field of the same relation. | `C75_like_copies`, `C75_prepends`, `C75_memory`, `C75_new_stream`, `C75_too_small`, `C75_sizing`, `C75_init`, `C75_null_buffer`, `C75_certificate`, `C75_footprint`, `C75_overlap_undefined` | The structs that describe what to render are passed by value; only octets are in memory. 'On copies' means exactly the octets of each slice, so that the integers 0 and -1, for which the code reads the octet next to the slice (C12, C31), are excluded. Theorems of C06-C36 give the hypothesis Prepends. |
| C76 | Rendering and digest functions may be used by any number of threads at the same time | proved | C73's argument (programs with separate footprints behave under every schedule as alone) for the programs of Model/Steps and Model/Writers together; footprints from C73_footprint and C75_footprint. | `C76_any_schedule`, `C76_render` | As in C73: sequentially consistent memory with atomic octets, stacks are private. The unwritten part of a thread's buffer and the octets next to its integers count as accessed even if the run does not touch them. |
| C77 | The size of a certificate follows from the sizes of its fields | proved | Spec/Size defines sizes by arithmetic alone. Lemmas/Size proves that the DER values of C24-C36 encode to that many octets (induction on lists) and that the sizes are monotone in the field lengths; with the rendering theorems and the stream contract this gives the reported counts and overflow flags. | `C77_certificate`, `C77_tbs`, `C77_fits`, `C77_signature`, `C77_basic_constraints`, `C77_key_usage`, `C77_dice` | Hypotheses as in C31-C36: announced octets are there, and the byte next to a zero serial number is accessible. |
| C78 | The reference context loses no library object and destroys none twice | proved | Model/Resources repeats the functions with creation, use, hand-over and destruction of each object (scopes of unique pointers). Lemmas/Resources proves a simulation: run with objects, a function gives what it gives without, and adds exactly the objects it hands over (rfc6979 loop by induction with the previous candidate). Props/Resources proves the account to be an invariant of every call and history, and combines it with C57 for legal calls. | `C78_calls`, `C78_histories`, `C78_no_leak`, `C78_legal_calls` | Memory of the C++ runtime (std::vector, the new of key objects) is not counted as library objects; the key objects are the heap of Model/Boringssl. EVP_PKEY_assign_EC_KEY, whose result the code ignores, is assumed to succeed. |
| C79 | The certificates of all layers form a valid path from the root key to the last key | proved | Spec/Chain defines valid paths over parsed certificates, Props/Chain the layers and who issued for whom, in possibly different runs. Induction over the chain; each link is C60 (the issued certificate verifies and certifies), keys agree by determinism of derivation (C58) and histories keep keys (C57), as in C67. C79_exists shows that chains of every length exist. | `C79_chain`, `C79_leaf`, `C79_exists` | Validity periods, policies and constraints of RFC 5280 6.1 are left out: the library fills in what the caller asks for. The verification algorithms are any that accept the signatures of the library (C60). |
| C80 | The output does not depend on the byte order of the host | proved | The byte order is a field of the Frame that all functions down to n20_asn1_uint64/int64 take, so every theorem about them (C11, C27, C31-C36, C59, C60, C75-C79) holds for both; Props/ByteOrder compares two hosts: both prepend the same octets in every stream state, as both prepend the DER of the value. | `C80_numbers`, `C80_certificates` | The rest of the library does not look at object representations of numbers: SHA-2 uses shifts, everything else is arrays of octets. |
| C81 | Threads may use reference contexts at the same time | proved | Model/Concurrent repeats all functions of the reference context as programs that stop at every access to what threads share (library calls, key objects, new, delete), and gives the steps of a pool of threads under a schedule. Lemmas/Concurrent shows that each program, run with nobody else around, is the function of Model/Boringssl. Props/Concurrent shows by induction on the schedule that the log of returned calls is a sequential history with a renumbered library: the answers that a call gets are those of its own library calls, its key object is protected by the rules, and its only access to the heap that changes it is its last step. | `C81_one_after_the_other`, `C81_undefined`, `C81_keys`, `prog_alone` | Assumed: the library (BoringSSL) and new/delete may be used by several threads; a library call is one step. The caller's buffers are not shared between calls in progress. |
| C82 | Calls that are cut off can be repeated | proved | On the step by step models of C73 and C75. Lemmas/Once defines programs that write no octet twice (an inductive predicate that carries the set of octets still to be written); every rendering function is one, because the unwritten part of the stream shrinks with each write. Such a program writes a list of different octets that depends only on the octets it reads; a cut off run has written a prefix of that list, so that a repeated run ends in the same memory. For digests the memory that no call writes is unchanged at every point of a schedule, so that the hypotheses of C73 hold again. | `C82_once`, `C82_rendering`, `C82_certificate`, `C82_digest`, `C82_hkdf`, `C82_calls` | An interruption loses the program and the stacks and keeps the memory; writes take effect in program order (caches and write buffers are not modelled). |
| C83 | Rendering does not depend on the width of size_t | partial | Model/Sized has all rendering functions once more with size_t as a bit vector of w bits. Spec/Sized says which streams correspond and when two functions do the same. Lemmas/Sized proves a simulation: up to a position overflow all counts and lengths agree as numbers, and after it both streams write nothing. Lengths of elements are differences of two positions, so the simulation also carries a lower bound for the position. C83_contents transfers the results about the octets that are written. | `Sized.C83_stream`, `Sized.C83_write`, `Sized.C83_then`, `Sized.C83_contents`, `Sized.C83_asn1`, `Sized.C83_bitstring_partial`, `Sized.C83_wraps`, `Sized.C83_cbor`, `Sized.C83_x509`, `Sized.C83_dice`, `Sized.C83_certificate_partial` | Violated by the code for bit strings with one of the last seven numbers of bits of size_t (with 32 bits: 512 MiB), which are rendered as malformed bit strings (C83_wraps); therefore public keys and signatures of that size are excluded. int has at least 32 bits, as the code assumes it elsewhere. For the native crypto functions see C84. |
| C84 | Digests, HMAC and HKDF do not depend on the width of size_t | proved | Model/SizedDigest has all functions of the native crypto implementation once more with size_t as a bit vector of w bits (the number of octets in a SHA-2 state is a uint64_t and the same). The register index of the rounds is computed modulo 2^w and then modulo 8, so it does not depend on w. The other functions are proved equal after widening by following their branches; the loop of HKDF expand needs the invariant that the octets already written and the octets still to be written add up to the number asked for, which needs that hmac leaves the size at the size of the digest. | `Sized.C84_states`, `Sized.C84_context`, `Sized.C84_members`, `Sized.C84_no_context`, `Sized.C84_sha2` | C84_members says the same for the functions of crypto.c with the members of another context, where HKDF expand needs that hmac leaves the size at the size of the digest. |
| C85 | The reference context does not depend on the width of size_t | proved | Model/SizedBssl has the functions of Model/Boringssl in which a size_t occurs with size_t as a bit vector of w bits; the others are shared. Each function is proved equal to the one with 64 bits after widening the arguments and the size in the result, by following its branches. Histories follow by congruence. | `Sized.C85_call`, `Sized.C85_history` | Ed25519 signatures and public keys of the library have fewer than 65536 octets (they have 64 and 32). BoringSSL itself is a parameter of the model and does the same on both platforms. |
| C86 | Key handles are as good as unique numbers, whatever the allocator does | proved | Model/Alloc interprets the programs of Model/Concurrent with key objects at addresses; which address new returns is a parameter of every call. A simulation between key objects at addresses and key objects with numbers (a map that is injective on the addresses in use) is kept by every call; histories by induction. For threads, the invariant of C81 is proved again with addresses. | `C86_call`, `C86_effect`, `C86_history`, `C86_kept`, `C86_safe`, `C86_threads`, `C86_threads_undefined` | A handle that is used after key_free may be that of another key (shown beside the theorems); that is outside the rules. operator new does not fail. |
| C87 | Running out of memory is reported, and nothing is lost | partial | Model/OutOfMemory repeats the functions that allocate with C++ exceptions: an arbitrary function decides which allocations fail, an exception runs the destructors of all scopes it leaves. Simulation with Model/Boringssl and Model/Resources (SimX), function by function; the RFC 6979 loop and the loop over slices by induction; histories by induction. | `C87_calls_partial`, `C87_enough`, `C87_histories_partial`, `C87_legal_calls_partial`, `C87_exception`, `C87_leak` | Violated by the code: operator new and std::vector throw, nothing catches the exception, and it leaves the C functions instead of an error code (C87_exception; the checks for null in lines 649 and 1064 have no effect). make_secret loses the key object if there is no memory for its contents (C87_leak). Proved of everything else: an exception leaves the variables of the caller, the library objects and all keys as they were, and no call does anything undefined. |
| C88 | Every call ends after a bounded number of steps, whatever other threads do | proved | Spec/Cost defines Prog.Ends: at most n steps are made whatever octets are read at each step, and no loop runs out of its fuel. Budgets by amortised analysis of the SHA buffers (an octet pays for its share of the block), by induction over slices, lists, blocks, arcs, names, extensions and the depth of callbacks; wait-freedom by induction over the schedule; the result together with C76. | `C88_calls`, `C88_rendering`, `C88_alone`, `C88_wait_free`, `C88_result` | A step of the digest functions is an access to memory, the evaluation of a condition, an access to an array of words, or the beginning or end of the lifetime of a local array; for the rendering functions a step is an access to memory. The budgets bound these from above; they are linear but not the exact numbers. |
| C89 | No data races, and the right results on machines with weak memory | proved | Spec/Weak defines data races as in C11 5.1.2.4 and a machine that remembers all stores of all threads, where a load may return any store of another thread to that octet, the thread's own latest store or, without one, the octet at the start. Invariant over executions: each thread is where it would be alone (Apart); C73_footprint and C75_footprint say which octets a thread can ever touch; the number of steps is that of C88. | `C89_no_race`, `C89_weak_memory` | A thread sees its own stores in program order. An example beside the theorems shows that the machine has executions that no sequentially consistent machine has, and that there are executions under every schedule. |
| C90 | Output buffers need not be initialised, and results depend on nothing but the inputs | proved | Spec/Defined: a program relies on a set K of octets if every load is in K or after a store of the program to it (an inductive predicate over programs, so for all octets that may be read). Proved for every function by going through its program with the set of known octets as state; for hkdf_expand an invariant says that all blocks so far, and so the previous one, are known, which needs that hmac cannot fail after the checks of the arguments, as its errors are ignored. defined_run shows that two runs from memories that agree on K stay together. | `C90_calls`, `C90_defined`, `C90_results`, `C90_any_memory` | Local arrays count as known: the code initialises all of them with {0}. Remains of ended functions on the stack are not inputs of any call. |
| C91 | A signature covers one meaning only: what is signed determines what the certificate says about the device | partial | Spec/Claims: the meanings of the seven types of extensions and when the callback and context of an extension state one. Equal octets are equal DER trees (encode_injective), so equal extension contents, and equal contents have equal meanings by C27, C28, C34, C35 and C36 (for these also the length of a content is bounded by that of the certificate). | `C91_extension_partial`, `C91_signed_partial`, `C91_certificate_partial`, `C91_hash_algorithm` | False for OIDs that C14 excludes (C91_hash_algorithm: two TcbInfo naming different hash algorithms are rendered as the same octets; for the OIDs of other fields C14_large_second_arc); undefined where numbers 0 and -1 are read beyond their end (C13). Everything else is proved. |
| C92 | Every pointer the library computes stays inside of its object | partial | Model/Pointers: the functions with pointer arithmetic once more, with a check of each computed pointer. Proved: with the checks they do the same as the functions of the other models, from the invariant of legal streams and by induction on the loops. | `C92_prepend`, `C92_big_endian`, `C92_little_endian_partial`, `C92_little_endian`, `C92_data`, `C92_data_overflow`, `C92_expand` | False in two places (proved): every little-endian INTEGER, so every n20_asn1_uint64 and n20_asn1_int64 on little-endian hosts, computes the pointer before the number (C92_little_endian); n20_stream_data computes pointers outside of the buffer for streams without buffer or with an overflow (C92_data_overflow). |
| C93 | Certificates follow the profile of RFC 5280 if the arguments are as documented | partial | Spec/Profile: the profile as a predicate on DER trees, written from the RFCs, and the list of what the caller has to pass. Proved: the tree the strict parser reads from a rendered certificate satisfies the predicate if and only if the arguments are on this list and the times are from 2050 on; by C33 and an equivalence for each field, by induction on the lists. | `C93_profile_partial`, `C93_any_time_partial`, `C93_default_start`, `C93_before_2050`, `C93_no_tbs` | False for times before 2050 (proved): the code renders them as GeneralizedTime, where RFC 5280 4.1.2.5 demands UTCTime (C93_before_2050), so every certificate with the default start time violates the profile (C93_default_start). With GeneralizedTime allowed for all years, the property holds exactly for the documented arguments (C93_any_time_partial). Missing: serial number 0 and OIDs as in C33. |
| C94 | Callbacks are called exactly once, the last one first | proved | Model/Callbacks: the functions that call callbacks once more, with a memory the callbacks read and change. Spec/Callbacks: calling a list of callbacks once each, last one first. Proved by induction on the list of extensions; and that for callbacks without memory the model equals that of the other properties. | `C94_header_with_content`, `C94_certificate`, `C94_twice`, `C94_without_memory`, `C94_growing` | With callbacks whose output grows from call to call, a size learnt from a first rendering is too small for the second one (C94_growing). |
