{"id": "C01", "title": "Stream holds exactly the prepended bytes", "statement": "After any sequence of n20_stream_prepend / n20_stream_put calls on a stream initialised with n20_stream_init, if n20_stream_has_buffer_overflow is false then the n20_stream_byte_count bytes starting at n20_stream_data are the concatenation of all sources, the most recently prepended one first.", "quantifier": "every buffer, every buffer size, every finite sequence of prepends of every length (including 0)", "why_tests_cant": "the sequence of writes and the sizes are unbounded; the off-by-one corners depend on the running total", "anchors": ["src/core/stream.c: n20_stream_init, n20_stream_prepend, n20_stream_put, n20_stream_byte_count, n20_stream_data", "include/nat20/stream.h"]}
{"id": "C02", "title": "Sizing pass is exact", "statement": "As long as n20_stream_has_write_position_overflow is false, n20_stream_byte_count is the exact total number of bytes prepended, whether or not they fit and even when the buffer is NULL; rendering again into any buffer with at least that many bytes then succeeds and yields the same bytes.", "quantifier": "every writer built from prepends, every buffer (NULL, too small, exact, larger)", "why_tests_cant": "two-pass rendering must agree for every content and every size, tests compare a few sizes", "anchors": ["src/core/stream.c: n20_stream_prepend, n20_stream_byte_count", "include/nat20/stream.h: documentation of n20_stream_byte_count"]}
{"id": "C03", "title": "Overflow flags are exact and sticky", "statement": "n20_stream_has_buffer_overflow becomes true exactly when the buffer is NULL or the total number of bytes prepended exceeds the buffer size, n20_stream_has_write_position_overflow exactly when the total reaches 2^64; neither is ever reset by later writes, and the second implies the first.", "quantifier": "every buffer, every history of prepends", "why_tests_cant": "the write position counter wraps at 2^64, which no test can reach by writing; stickiness is a property of all histories", "anchors": ["src/core/stream.c: n20_stream_prepend, n20_stream_has_buffer_overflow, n20_stream_has_write_position_overflow"]}
{"id": "C04", "title": "Stream writes stay inside the buffer and never disturb committed bytes", "statement": "No sequence of prepends writes outside [buffer, buffer+size); bytes in front of the reported data region are left untouched when no overflow is reported; bytes already written are never changed by later calls, even by calls that overflow; a single prepend that does not fit changes no byte at all.", "quantifier": "every buffer, size and history of prepends, including lengths that wrap the position counter", "why_tests_cant": "memory safety must hold for all lengths including wrap-around, sanitizers only see the inputs they run", "anchors": ["src/core/stream.c: n20_stream_prepend"]}
{"id": "C05", "title": "NULL stream is harmless", "statement": "Every rendering function may be called with a NULL stream: it has no effect, and the query functions then report overflow, zero bytes and a NULL data pointer.", "quantifier": "every rendering function of the core API, every argument it accepts", "why_tests_cant": "ranges over all functions and all arguments", "anchors": ["src/core/stream.c: all functions", "src/core/asn1.c: all functions", "src/core/cbor.c: all functions", "src/core/x509.c: all functions"]}
{"id": "C06", "title": "Base-128 integers round-trip and are minimal", "statement": "n20_asn1_base128_int writes a sequence that a base-128 decoder reads back as n, in which only the last byte has the top bit clear and the first byte is not 0x80.", "quantifier": "every uint64 n, every stream state, every following content", "why_tests_cant": "2^64 values", "anchors": ["src/core/asn1.c: n20_asn1_base128_int"]}
{"id": "C07", "title": "DER header round-trips and is minimal", "statement": "n20_asn1_header writes identifier and length octets which a strict DER parser (minimal length form, short tags below 31, minimal long tags) reads back as exactly the given class, constructed bit, tag and length.", "quantifier": "every class 0..3, both constructed values, every uint32 tag, every size_t length", "why_tests_cant": "2^2 * 2 * 2^32 * 2^64 arguments", "anchors": ["src/core/asn1.c: n20_asn1_header"]}
{"id": "C08", "title": "Length field always equals the content length", "statement": "n20_asn1_header_with_content and n20_asn1_sequence, given any content callback that renders some bytes (possibly by nesting further structures, possibly none), produce one complete element whose content is exactly what the callback rendered, in streams with and without overflow.", "quantifier": "every callback, every content length, every nesting, every prior stream state", "why_tests_cant": "callbacks are arbitrary functions; the length is computed from a wrapping counter", "anchors": ["src/core/asn1.c: n20_asn1_header_with_content, n20_asn1_sequence"]}
{"id": "C09", "title": "Tag overrides", "statement": "An implicit override replaces class and tag of the rendered element by context-specific/tag and changes nothing else; an explicit override wraps the unmodified element in one constructed context-specific element with that tag; no override leaves it unchanged. This holds for every typed renderer.", "quantifier": "every typed renderer, every value, every uint32 tag", "why_tests_cant": "product of all renderers, values and tags", "anchors": ["src/core/asn1.c: n20_asn1_tag_info_*, n20_asn1_header_with_content, n20_asn1_null"]}
{"id": "C10", "title": "INTEGER renders the value of the slice minimally", "statement": "n20_asn1_integer renders a DER INTEGER whose value is the value of the given non-empty slice read as big or little endian, unsigned or two's complement, in the unique minimal number of content octets.", "quantifier": "every non-empty byte slice of any length, both endiannesses, both signedness modes", "why_tests_cant": "unbounded slices; minimality depends on runs of 00/ff bytes of any length", "anchors": ["src/core/asn1.c: n20_asn1_integer, n20_asn1_integer_internal_content"]}
{"id": "C11", "title": "uint64/int64 render the number", "statement": "n20_asn1_uint64 and n20_asn1_int64 render the minimal DER INTEGER of their argument.", "quantifier": "all 2^64 arguments of each", "why_tests_cant": "2^65 values", "anchors": ["src/core/asn1.c: n20_asn1_uint64, n20_asn1_int64"]}
{"id": "C12", "title": "INTEGER reads only its slice", "statement": "n20_asn1_integer never reads memory outside the given slice, and its output does not depend on such memory.", "quantifier": "every slice (including the empty one), both endiannesses and modes, every surrounding memory", "why_tests_cant": "a one byte over-read is invisible to value tests; depends on neighbouring memory", "anchors": ["src/core/asn1.c: n20_asn1_integer_internal_content"]}
{"id": "C13", "title": "BIT STRING renders exactly the requested bits", "statement": "n20_asn1_bitstring renders the first `bits` bits of the buffer, states the number of unused bits correctly and sets all unused bits to zero (DER), for a NULL buffer it renders the empty bit string.", "quantifier": "every buffer, every bit count (covered by the buffer)", "why_tests_cant": "unbounded buffers and bit counts modulo 8", "anchors": ["src/core/asn1.c: n20_asn1_bitstring, n20_asn1_bitstring_content"]}
{"id": "C14", "title": "OBJECT IDENTIFIER round-trips", "statement": "n20_asn1_object_identifier renders an element from which a decoder recovers exactly the given arcs; different OIDs render differently.", "quantifier": "every OID with 2 to 10 arcs that X.660 allows (first arc 0..2, second < 40 below arc 2), every uint32 arc value", "why_tests_cant": "2^32 values per arc, ten arcs", "anchors": ["src/core/asn1.c: n20_asn1_object_identifier, n20_asn1_object_identifier_content", "src/core/oid.c"]}
{"id": "C15", "title": "Unrenderable values become ASN.1 NULL", "statement": "A NULL OID, an OID claiming more than 10 elements, an INTEGER with NULL buffer and a NULL time string render as ASN.1 NULL 05 00, whatever the tag override; no out-of-bounds element is read.", "quantifier": "every element count, every stream state, every tag override", "why_tests_cant": "all element counts up to 2^32", "anchors": ["src/core/asn1.c: n20_asn1_object_identifier, n20_asn1_integer, n20_asn1_generalized_time"]}
{"id": "C16", "title": "String-like values are rendered verbatim", "statement": "n20_asn1_octetstring, n20_asn1_printablestring, n20_asn1_utf8_string and n20_asn1_generalized_time render an element with their universal tag whose content is exactly the given bytes; a NULL string or NULL buffer renders as empty content.", "quantifier": "every slice of every length", "why_tests_cant": "unbounded lengths, multi-byte length headers", "anchors": ["src/core/asn1.c: n20_asn1_stringish, n20_asn1_octetstring, n20_asn1_printablestring, n20_asn1_utf8_string, n20_asn1_generalized_time"]}
{"id": "C17", "title": "BOOLEAN and NULL", "statement": "n20_asn1_boolean renders 01 01 ff / 01 01 00 and n20_asn1_null 05 00 (with overrides applied to the header only), in every stream state.", "quantifier": "both values, all overrides, all stream states", "why_tests_cant": "all stream states and 2^32 override tags", "anchors": ["src/core/asn1.c: n20_asn1_boolean, n20_asn1_null"]}
{"id": "C18", "title": "OID comparison is equality", "statement": "n20_asn1_oid_equals returns true exactly if both pointers are NULL or both OIDs have the same arcs; it is reflexive, symmetric and transitive and reads nothing beyond the element arrays, provided the element counts do not exceed 10.", "quantifier": "all pairs of OIDs", "why_tests_cant": "quantifies over pairs and triples of 10-element arrays", "anchors": ["src/core/oid.c: n20_asn1_oid_equals"]}
{"id": "C19", "title": "CBOR heads round-trip in shortest form", "statement": "n20_cbor_write_header writes a head that an RFC 8949 decoder reads back as the same major type and argument, in the shortest possible form (preferred serialisation).", "quantifier": "all 8 major types, all 2^64 arguments, any following bytes", "why_tests_cant": "2^67 values", "anchors": ["src/core/cbor.c: n20_cbor_write_header, n20_cbor_write_uint, n20_cbor_write_tag, n20_cbor_write_array_header, n20_cbor_write_map_header"]}
{"id": "C20", "title": "Invalid CBOR major types become undefined", "statement": "n20_cbor_write_header with a major type above 7 writes the single byte 0xf7 (undefined) for every argument.", "quantifier": "all invalid types, all 2^64 arguments", "why_tests_cant": "all arguments", "anchors": ["src/core/cbor.c: n20_cbor_write_header"]}
{"id": "C21", "title": "CBOR integers round-trip", "statement": "n20_cbor_write_int and n20_cbor_write_uint write the shortest CBOR integer which decodes to the argument, for every argument of their type.", "quantifier": "all int64 and uint64 values including INT64_MIN", "why_tests_cant": "2^65 values; the boundary value INT64_MIN hides signed overflow", "anchors": ["src/core/cbor.c: n20_cbor_write_int, n20_cbor_write_uint"]}
{"id": "C22", "title": "CBOR strings, null and booleans round-trip", "statement": "n20_cbor_write_byte_string / _text_string write a definite-length string with exactly the given bytes; a NULL buffer with non-zero size writes null; n20_cbor_write_null / _bool write the simple values.", "quantifier": "every slice of every size", "why_tests_cant": "unbounded sizes", "anchors": ["src/core/cbor.c: n20_cbor_write_byte_string, n20_cbor_write_text_string, n20_cbor_write_null, n20_cbor_write_bool"]}
{"id": "C23", "title": "CBOR structures compose", "statement": "Writing the items of an array or the key/value pairs of a map in reverse order followed by n20_cbor_write_array_header / _map_header, or a tagged item followed by n20_cbor_write_tag, yields one well-formed item which decodes to that structure, for every nesting.", "quantifier": "every finite tree of CBOR values of any depth and width", "why_tests_cant": "unbounded nesting", "anchors": ["src/core/cbor.c: all functions", "include/nat20/cbor.h"]}
{"id": "C24", "title": "X.509 names are RDN sequences in order", "statement": "n20_x509_name renders a SEQUENCE of one-element SETs of {type, value} in the order of the elements array; a NULL name or more than 8 elements renders an ASN.1 NULL placeholder and reads no element.", "quantifier": "every name (0..8 elements, any count beyond), every attribute type and value", "why_tests_cant": "all element counts, lengths and OIDs", "anchors": ["src/core/x509.c: n20_x509_name, n20_x509_name_content, n20_x509_rdn, n20_x509_rdn_content"]}
{"id": "C25", "title": "Serial number attributes are lowercase hex", "statement": "A name attribute of type serialNumber is rendered as PrintableString containing the two-digit lowercase hex form of each byte in order, so distinct serials render distinctly.", "quantifier": "every byte string of any length", "why_tests_cant": "unbounded length; loop termination relies on size_t wrap-around", "anchors": ["src/core/x509.c: n20_x509_serial_as_hex_content, n20_x509_serial_as_hex_string, n20_x509_rdn_content"]}
{"id": "C26", "title": "Extensions render in order with exact values", "statement": "n20_x509_extension renders [3]{SEQUENCE{...}} with one SEQUENCE{oid, critical only if true, OCTET STRING{exactly what the content callback rendered}} per extension in list order; an absent or empty list renders nothing.", "quantifier": "every list of extensions, every callback", "why_tests_cant": "arbitrary callbacks, arbitrary list length", "anchors": ["src/core/x509.c: n20_x509_extension, n20_x509_extension_content"]}
{"id": "C27", "title": "Basic constraints", "statement": "n20_x509_ext_basic_constraints_content renders SEQUENCE{} for non-CAs, SEQUENCE{TRUE} for CAs without and SEQUENCE{TRUE, pathLen} with path length; path length is never rendered for non-CAs.", "quantifier": "every combination of flags, all 2^32 path lengths", "why_tests_cant": "2^32 path lengths", "anchors": ["src/core/x509.c: n20_x509_ext_basic_constraints_content"]}
{"id": "C28", "title": "Key usage is a minimal named bit list", "statement": "n20_x509_ext_key_usage_content renders a BIT STRING whose bit i is the flag set by the i-th N20_X509_KEY_USAGE_SET_* macro and which has no trailing zero bits.", "quantifier": "every set of key usage flags", "why_tests_cant": "all flag sets; DER minimality", "anchors": ["src/core/x509.c: n20_x509_ext_key_usage_content", "include/nat20/x509.h: N20_X509_KEY_USAGE_SET_*"]}
{"id": "C29", "title": "Algorithm identifiers and public key info", "statement": "n20_x509_algorithm_identifier renders SEQUENCE{oid, params} with params absent, NULL or the curve OID as selected, n20_x509_public_key_info renders SEQUENCE{algorithm, BIT STRING key} with exactly the given key bits.", "quantifier": "every algorithm identifier, every key of any length (up to 2^64 - 8 bits)", "why_tests_cant": "unbounded keys, all OIDs", "anchors": ["src/core/x509.c: n20_x509_algorithm_identifier, n20_x509_public_key_info"]}
{"id": "C30", "title": "Validity defaults", "statement": "n20_x509_validity renders SEQUENCE{notBefore, notAfter} as GeneralizedTime with exactly the given strings, 19700101000000Z and 99991231235959Z standing in independently for a missing one.", "quantifier": "every validity", "why_tests_cant": "all strings", "anchors": ["src/core/x509.c: n20_x509_validity, n20_x509_validity_content"]}
{"id": "C31", "title": "TBS certificate follows RFC 5280", "statement": "n20_x509_cert_tbs renders SEQUENCE{[0]{2}, serial, signature alg, issuer, validity, subject, spki, [3] extensions} in that order, each field being exactly the rendering of the corresponding input; an empty serial number is 0.", "quantifier": "every TBS input, every extension callback", "why_tests_cant": "field order and lengths for unbounded inputs", "anchors": ["src/core/x509.c: n20_x509_cert_tbs, n20_x509_cert_tbs_content, n20_x509_version_3"]}
{"id": "C32", "title": "The signature covers exactly the embedded TBS bytes", "statement": "n20_x509_cert renders SEQUENCE{tbs, signatureAlgorithm, BIT STRING signature} where the tbs bytes are byte for byte what n20_x509_cert_tbs renders for the same input on any other stream.", "quantifier": "every certificate input, every pair of streams", "why_tests_cant": "relates two independent renderings for every input", "anchors": ["src/core/x509.c: n20_x509_cert, n20_x509_cert_content, n20_x509_cert_tbs"]}
{"id": "C33", "title": "Certificates are well-formed, unambiguous DER", "statement": "The complete output of n20_x509_cert is consumed by a strict recursive DER parser with nothing left over, and two certificate inputs that denote different field values render to different bytes.", "quantifier": "every certificate input", "why_tests_cant": "all inputs; injectivity relates pairs of inputs", "anchors": ["src/core/x509.c: n20_x509_cert"]}
{"id": "C34", "title": "Open DICE input extension", "statement": "n20_x509_ext_open_dice_input_content renders a SEQUENCE with codeHash [0] .. authorityDescriptor [5] as explicitly tagged OCTET STRINGs present exactly if the buffer is not NULL, mode [6] always, profileName [7] exactly if given.", "quantifier": "every combination of present/absent fields of any length and every mode", "why_tests_cant": "2^7 presence patterns times unbounded contents", "anchors": ["src/core/x509_ext_open_dice_input.c: n20_x509_ext_open_dice_input_content"]}
{"id": "C35", "title": "TCG DICE TcbInfo extension", "statement": "n20_x509_ext_tcg_dice_tcb_info_content renders DiceTcbInfo with implicit tags 0..10 in order, optional members present exactly if their pointer is not NULL, svn/layer/index and both flag strings always, fwids in list order.", "quantifier": "every TcbInfo, any number of fwids", "why_tests_cant": "unbounded lists and presence patterns", "anchors": ["src/core/x509_ext_tcg_dice_tcb_info.c: n20_x509_ext_tcg_dice_tcb_info_content"]}
{"id": "C36", "title": "TCG DICE MultiTcbInfo, UEID and freshness extensions", "statement": "n20_x509_ext_tcg_dice_multi_tcb_info_content renders the SEQUENCE OF the TcbInfos in list order; the UEID and freshness contents render SEQUENCE{OCTET STRING}; a NULL context renders nothing.", "quantifier": "every list length, every slice", "why_tests_cant": "unbounded lists", "anchors": ["src/core/x509_ext_tcg_dice_tcb_info.c: n20_x509_ext_tcg_dice_multi_tcb_info_content", "src/core/x509_ext_tcg_dice_ueid.c", "src/core/x509_ext_tcg_dice_tcb_freshness.c"]}
{"id": "C37", "title": "SHA-224/256 compute FIPS 180-4", "statement": "init, any number of updates and finalize produce the FIPS 180-4 SHA-256 (SHA-224) digest of the concatenation of the updates, however the message is cut into updates.", "quantifier": "every message shorter than 2^61 bytes, every chunking", "why_tests_cant": "unbounded messages, exponentially many chunkings", "anchors": ["src/crypto/nat20/sha256.c: n20_sha256_init, n20_sha256_update, n20_sha256_finalize, n20_sha224_*"]}
{"id": "C38", "title": "SHA-384/512 compute FIPS 180-4", "statement": "init, any number of updates and finalize produce the FIPS 180-4 SHA-512 (SHA-384) digest of the concatenation of the updates, however the message is cut into updates.", "quantifier": "every message shorter than 2^61 bytes, every chunking", "why_tests_cant": "unbounded messages, exponentially many chunkings", "anchors": ["src/crypto/nat20/sha512.c: n20_sha512_init, n20_sha512_update, n20_sha512_finalize, n20_sha384_*"]}
{"id": "C39", "title": "SHA-2 constants are the FIPS ones", "statement": "The initial hash values and round constants are the first bits of the fractional parts of the square and cube roots of the first primes.", "quantifier": "all 16 + 144 constants of the four algorithms", "why_tests_cant": "one wrong constant escapes most spot checks only with collisions of test vectors; here it is settled arithmetically", "anchors": ["src/crypto/nat20/sha256.c: K_256, n20_sha256_init, n20_sha224_init", "src/crypto/nat20/sha512.c: K_512, n20_sha512_init, n20_sha384_init"]}
{"id": "C40", "title": "digest hashes the concatenation of the gather list", "statement": "The digest operation of the nat20 context writes the hash of the concatenation of all slices, so the result depends only on the concatenated bytes and not on how they are split; empty slices (even with NULL buffers) do not matter.", "quantifier": "every gather list, every algorithm", "why_tests_cant": "all splits of all messages", "anchors": ["src/crypto/nat20/crypto.c: n20_digest, n20_digest_internal"]}
{"id": "C41", "title": "digest error contract", "statement": "digest returns the documented error for an unknown algorithm, NULL size pointer, NULL or too small output (storing the required size), NULL list and NULL slice buffers, and ok otherwise; the output buffer is only modified on ok, and then only its first digest-size bytes; the size reported is always the digest size.", "quantifier": "all argument combinations", "why_tests_cant": "all combinations of NULL/short arguments and their precedence", "anchors": ["src/crypto/nat20/crypto.c: n20_digest, n20_digest_internal", "include/nat20/crypto.h: n20_crypto_digest_context_s.digest"]}
{"id": "C42", "title": "hmac computes RFC 2104", "statement": "hmac writes HMAC(key, message) as defined by RFC 2104 / FIPS 198-1 over the concatenated gather list for keys shorter than, equal to and longer than the block size.", "quantifier": "every key of any length, every gather list, every algorithm", "why_tests_cant": "unbounded keys and messages", "anchors": ["src/crypto/nat20/crypto.c: n20_hmac, n20_hmac_internal"]}
{"id": "C43", "title": "hmac error contract", "statement": "hmac returns the documented error for each invalid argument and ok otherwise, reports the required size, and leaves the output buffer untouched on error.", "quantifier": "all argument combinations", "why_tests_cant": "all combinations of NULL/short arguments and their precedence", "anchors": ["src/crypto/nat20/crypto.c: n20_hmac, n20_hmac_internal", "include/nat20/crypto.h: n20_crypto_digest_context_s.hmac"]}
{"id": "C44", "title": "hkdf computes RFC 5869", "statement": "hkdf_extract, hkdf_expand and hkdf compute RFC 5869 for every output length up to 255 times the digest size; shorter outputs are prefixes of longer ones; larger lengths are rejected.", "quantifier": "every ikm, salt, info of any length, every output length, every algorithm", "why_tests_cant": "unbounded inputs; block counter wraps at 256", "anchors": ["src/crypto/nat20/crypto.c: n20_hkdf, n20_hkdf_extract, n20_hkdf_expand"]}
{"id": "C45", "title": "hkdf error contract", "statement": "hkdf, hkdf_extract and hkdf_expand return the documented error for each invalid argument; a request for zero octets succeeds.", "quantifier": "all argument combinations", "why_tests_cant": "all combinations of invalid arguments and their precedence", "anchors": ["src/crypto/nat20/crypto.c: n20_hkdf, n20_hkdf_extract, n20_hkdf_expand", "include/nat20/crypto.h"]}
{"id": "C46", "title": "Reference and native digest contexts agree", "statement": "For every call both accept, the BoringSSL based digest/hmac/hkdf and the native ones write the same bytes (given that BoringSSL's primitives compute the standards).", "quantifier": "every algorithm, every gather list, every output length", "why_tests_cant": "two implementations on all inputs", "anchors": ["src/crypto/crypto_boringssl.cpp: n20_crypto_boringssl_digest, _hmac, _hkdf*", "src/crypto/nat20/crypto.c"]}
{"id": "C47", "title": "ECDSA signatures are fixed-size r||s", "statement": "sign with an EC key returns r and s as big-endian integers, each zero padded to the curve size, and never reads or writes outside its buffers, for every DER signature the backend can produce.", "quantifier": "every r, s in [1, q-1]", "why_tests_cant": "2^768 signatures; short r or s occur with probability 2^-8 and less", "anchors": ["src/crypto/crypto_boringssl.cpp: n20_crypto_boringssl_sign"]}
{"id": "C48", "title": "Deterministic nonces are RFC 6979", "statement": "The deterministic nonce derived for EC key generation lies in [1, q-1], where q is the order of the base point of the curve P-256 or P-384, and is the first candidate RFC 6979 3.2 accepts.", "quantifier": "every key, every message, every number of rejected candidates", "why_tests_cant": "the rejection path has probability 2^-32 and less", "anchors": ["src/crypto/crypto_boringssl.cpp: rfc6979_k_generation, bits2octets"]}
{"id": "C49", "title": "Key handle contracts of the reference context", "statement": "kdf yields keys only from CDI handles and only of supported types, sign and get_public_key only accept the matching handle types, outputs obey the size-query protocol, and failures never hand out a handle.", "quantifier": "all key types, all argument combinations", "why_tests_cant": "all combinations of arguments and backend failures", "anchors": ["src/crypto/crypto_boringssl.cpp: n20_crypto_boringssl_kdf, _sign, _key_get_public_key, _key_free, _make_secret"]}
{"id": "C50", "title": "Exported OIDs are the standardised ones", "statement": "Each of the 28 exported OID constants renders to a DER OBJECT IDENTIFIER that decodes to the arcs its standard assigns, and no two constants are equal.", "quantifier": "all exported OID constants", "why_tests_cant": "a wrong arc is only noticed by a test that repeats the standard for that very constant; here all constants are settled by decoding", "anchors": ["src/core/oid.c: OID_*"]}
{"id": "C51", "title": "TcbInfo operational flag macros", "statement": "Applying any of the operational flag macros in any order and multiplicity to a zero-initialised variable sets exactly the bits TCG DICE assigns to them in the rendered BIT STRING.", "quantifier": "every list of flag macros", "why_tests_cant": "all orders and combinations", "anchors": ["include/nat20/x509_ext_tcg_dice_tcb_info.h: N20_X509_EXT_TCG_DICE_TCB_INFO_OPERATIONAL_FLAGS_SET_*"]}
{"id": "C52", "title": "Errors of an overridden context function are reported", "statement": "hmac, hkdf_extract, hkdf_expand and hkdf call the digest/hmac functions of the context they are given; if such a function fails, the operation returns that error and does not report success.", "quantifier": "every context whose functions may fail, every input", "why_tests_cant": "all failure points of all callees; the native digest never fails, so ordinary tests never see it", "anchors": ["src/crypto/nat20/crypto.c: n20_hmac_internal, n20_hkdf, n20_hkdf_extract, n20_hkdf_expand"]}
{"id": "C53", "title": "Opening and closing the native context", "statement": "open stores the native context or reports a NULL argument; close accepts every opened context and reports NULL.", "quantifier": "all arguments", "why_tests_cant": "part of the argument contract for all callers", "anchors": ["src/crypto/nat20/crypto.c: n20_crypto_nat20_open, n20_crypto_nat20_close"]}
{"id": "C54", "title": "Rendering is context free", "statement": "If a sequence of rendering calls completes without overflow on one buffer, then the same calls complete on every buffer: a sizing pass announces exactly the number of bytes, every buffer of at least that size receives the same bytes, every smaller buffer is reported as overflowed with the same byte count.", "quantifier": "every sequence of calls of any public rendering function, all arguments (callbacks made of such calls), all buffers", "why_tests_cant": "ranges over all combinations of rendering functions, arguments, nesting and buffer states", "anchors": ["src/core/stream.c: all functions", "src/core/asn1.c: all functions", "src/core/cbor.c: all functions", "src/core/x509.c: all functions", "src/core/x509_ext_*.c: all functions"]}
{"id": "C55", "title": "Rendering functions only write into the free part of the buffer", "statement": "Whatever is rendered, whether or not it fits: bytes committed earlier and memory behind the announced size keep their values, an overflowed stream is never written to again, overflow flags stay raised and the byte count never decreases.", "quantifier": "every sequence of calls of any public rendering function, all arguments, all stream states", "why_tests_cant": "memory safety over all inputs and stream states", "anchors": ["src/core/stream.c: n20_stream_prepend", "src/core/asn1.c: all functions", "src/core/cbor.c: all functions", "src/core/x509.c: all functions", "src/core/x509_ext_*.c: all functions"]}
{"id": "C56", "title": "Error contracts of the reference digest context", "statement": "The digest, hmac and hkdf functions of the reference context return the documented error for every invalid call, write nothing when they reject, write exactly the standard's output otherwise, and report every failure of the underlying library, whichever of its calls fails.", "quantifier": "every argument combination, every algorithm number, every pattern of library failures", "why_tests_cant": "all argument combinations times all failure points of the library", "anchors": ["src/crypto/crypto_boringssl.cpp: n20_crypto_boringssl_digest, _hmac, _hkdf, _hkdf_extract, _hkdf_expand", "include/nat20/crypto.h: n20_crypto_digest_context_t"]}
{"id": "C57", "title": "Key handles survive any history", "statement": "After any sequence of legal calls of kdf, sign, get_public_key, key_free and make_secret, successful or not, every handle not passed to key_free refers to the same key as when it was handed out, and every further legal call is free of undefined behaviour.", "quantifier": "every finite history of calls, all arguments, every pattern of library failures", "why_tests_cant": "unbounded histories and failure patterns", "anchors": ["src/crypto/crypto_boringssl.cpp: n20_crypto_boringssl_kdf, _sign, _key_get_public_key, _key_free, _make_secret"]}
{"id": "C58", "title": "Key derivation is a function of CDI, type and context octets", "statement": "Two successful kdf calls with equal CDI octets, equal type and contexts with equal octets yield the same key, regardless of how the context is sliced, of the handles used, and of everything that happened before or between.", "quantifier": "all CDIs, types, contexts, slicings and histories", "why_tests_cant": "relates arbitrary pairs of executions", "anchors": ["src/crypto/crypto_boringssl.cpp: n20_crypto_boringssl_kdf, gather_list_to_vector, rfc6979_k_generation"]}
{"id": "C59", "title": "ECDSA signatures in the form certificates need", "statement": "If the two halves of the fixed size signature that sign returns for an EC key are rendered with the integer and sequence functions, the result is the DER encoding of the ECDSA signature (r, s): a strict parser finds two minimal INTEGERs of value r and s, it has at most 104 octets, and nothing outside of the signature is read.", "quantifier": "all curves, all r and s from 1 to the order of the curve minus 1, all memory around the signature, all streams", "why_tests_cant": "2^256 values per half, with leading zeros and sign bits that occur with small probability only", "anchors": ["src/core/asn1.c: n20_asn1_integer, n20_asn1_sequence", "src/crypto/crypto_boringssl.cpp: n20_crypto_boringssl_sign", "src/core/test/x509.cpp: n20_x509_rs"]}
{"id": "C60", "title": "Certificates issued with the library verify", "statement": "A program that gets the public key of one key, renders the TBS certificate, signs these octets with another key (or the same), converts the signature and renders the certificate either reports a failure of the crypto library, or that its buffer is too small for the certificate, or ends with a certificate that has exactly the given fields, contains the public key of the first key, and whose signature over the TBS octets in it is valid under the public key of the second one. So chains and self-signed certificates verify with what is in the certificates. Nothing undefined happens.", "quantifier": "all pairs of keys of all types, all field values and extensions, all buffer sizes, all patterns of library failures, all states of the other keys", "why_tests_cant": "tests make a handful of certificates with fixed names; the claim is about all field values, sizes and failures", "anchors": ["src/core/x509.c: n20_x509_cert, n20_x509_cert_tbs", "src/crypto/crypto_boringssl.cpp: n20_crypto_boringssl_sign, n20_crypto_boringssl_key_get_public_key", "src/core/test/x509.cpp: CertTest"]}
{"id": "C61", "title": "hex and the hex parser are inverse", "statement": "hex writes two lower case digits per octet; hex_string_parser::parse returns the octets of every hexadecimal string in any case, in particular of what hex writes.", "quantifier": "all byte vectors, all hexadecimal strings", "why_tests_cant": "infinitely many strings", "anchors": ["src/testing/test_utils.cpp: hex", "include/nat20/testing/test_vector_reader.h: hex_string_parser::parse"]}
{"id": "C62", "title": "The hex parser rejects what is not hexadecimal", "statement": "parse fails for every string that does not consist of pairs of hexadecimal digits. (Violated: a digit followed by another character is accepted.)", "quantifier": "all strings", "why_tests_cant": "all characters at all positions", "anchors": ["include/nat20/testing/test_vector_reader.h: hex_string_parser::parse"]}
{"id": "C63", "title": "The vector reader returns the vectors of the file", "statement": "read_all_vectors_from_file returns exactly the vectors in the file, in order, whatever the layout (blanks, tabs, comments, other lines, missing last newline), raises an exception for the first wrong key or malformed value, and always terminates if there is at least one field.", "quantifier": "all field lists, parsers and files", "why_tests_cant": "files of all sizes and layouts", "anchors": ["include/nat20/testing/test_vector_reader.h: TestVectorReader", "src/testing/test_vector_reader.cpp: n20_testing_next_pair"]}
{"id": "C64", "title": "The vector reader does not lose vectors silently", "statement": "A file that is not a sequence of complete vectors is not accepted. (Violated: an incomplete vector at the end is dropped without an error; a reader without fields does not terminate.)", "quantifier": "all field lists, parsers and files", "why_tests_cant": "files of all sizes and layouts", "anchors": ["include/nat20/testing/test_vector_reader.h: TestVectorReader"]}
{"id": "C65", "title": "Format of hex dumps", "statement": "hexdump writes lines of 16 octets in two groups of eight, with nothing at the ends, and the octets can be recovered by removing blanks and newlines.", "quantifier": "all byte vectors", "why_tests_cant": "all lengths", "anchors": ["src/testing/test_utils.cpp: hexdump"]}
{"id": "C66", "title": "Initialiser macros make what they say", "statement": "OIDs, string slices and names made with N20_ASN1_OBJECT_ID, N20_STR_C, N20_X509_RDN and N20_X509_NAME render with exactly the arcs, characters and attributes given to the macros, in the order given; zeros inside of literals are kept, the terminating one is not part of the string.", "quantifier": "all lists of up to 10 arcs, all literals, all lists of up to 8 attributes", "why_tests_cant": "tests use some fixed names", "anchors": ["include/nat20/oid.h: N20_ASN1_OBJECT_ID", "include/nat20/types.h: N20_STR_C", "include/nat20/x509.h: N20_X509_NAME, N20_X509_RDN"]}
{"id": "C67", "title": "Certificates stay valid across restarts", "statement": "A device derives its attestation keys anew after every restart, from the same CDI and context. Certificates that were issued with the key before a restart verify with the public key read after the restart, and certificates issued for the key before the restart are certificates for that public key.", "quantifier": "all CDIs and contexts, all pairs of histories of API calls with any library failures, all certificate descriptions and buffer sizes, the three signing key types", "why_tests_cant": "all histories before and after, all inputs; the tests derive keys in one process", "anchors": ["src/crypto/crypto_boringssl.cpp: n20_crypto_boringssl_kdf, n20_crypto_boringssl_sign, n20_crypto_boringssl_key_get_public_key", "src/core/x509.c: n20_x509_cert", "src/core/x509.c: n20_x509_cert_tbs"]}
{"id": "C68", "title": "Derived keys are unrelated", "statement": "Of two keys or CDIs that were derived, one does not follow from the other, unless both were derived from the same secret, in the same context and with the same type.", "quantifier": "all secrets, contexts and key types, all histories of API calls with any library failures", "why_tests_cant": "all pairs of derivations; the tests compare derived keys with recorded values", "anchors": ["src/crypto/crypto_boringssl.cpp: n20_crypto_boringssl_kdf", "src/crypto/crypto_boringssl.cpp: n20_crypto_boringssl_make_secret", "include/nat20/crypto.h: n20_crypto_context_s::kdf"]}
{"id": "C69", "title": "Concurrent hash computations do not disturb each other", "statement": "A program may run any number of SHA-224/256/384/512 computations at once, interleave their calls in any order, reuse state objects and copy them to continue a common beginning in several ways: every finalize writes the hash of the message of its own state and nothing else.", "quantifier": "all sequences of init, copy, update and finalize calls on any number of state objects with any initial contents, all messages below 2^61 octets", "why_tests_cant": "all interleavings, all messages; the tests run one computation after the other", "anchors": ["src/crypto/nat20/sha256.c: n20_sha256_init, n20_sha256_update, n20_sha256_finalize", "src/crypto/nat20/sha512.c: n20_sha512_init, n20_sha512_update, n20_sha512_finalize"]}
{"id": "C70", "title": "Digest functions used in place", "statement": "The output buffer of the native digest, hmac and hkdf_extract may overlap with any of the inputs (and these with each other): the result is that for the inputs as they were before the call, and nothing but the output is modified. For hkdf_expand and hkdf the same holds as far as the output is at most one digest long; longer outputs must not overlap with the pseudorandom key or the info except in the last block. Expanding a pseudorandom key in place to more than one block should be rejected or give the RFC 5869 result; the code does neither.", "quantifier": "All memory contents, all positions and sizes of all slices and of the output in it (including every overlap), all four algorithms, all output lengths.", "why_tests_cant": "Tests use separate buffers. The possible overlaps are unbounded in number, and a wrong result of an in-place derivation is a key that looks like any other.", "anchors": ["src/crypto/nat20/crypto.c: n20_digest, n20_hmac, n20_hkdf_extract, n20_hkdf_expand, n20_hkdf", "include/nat20/crypto.h: n20_crypto_digest_context_t"]}
{"id": "C71", "title": "Digest calls write nothing but the output", "statement": "A call of the native digest, hmac or hkdf_extract that returns, successfully or not, has changed no octet of memory outside the first octets of the output buffer, as many as the digest is long, and no octet at all when it reports an error; hkdf_expand and hkdf have changed nothing outside the requested number of octets. (The size variable is reported separately.)", "quantifier": "All memory contents, all arguments (any pointers including NULL, any overlaps, any sizes, any algorithm identifier), all results.", "why_tests_cant": "A test compares the buffers it knows. A write elsewhere, or on one of the many error paths, is invisible to it.", "anchors": ["src/crypto/nat20/crypto.c: n20_digest, n20_hmac, n20_hkdf_extract, n20_hkdf_expand, n20_hkdf"]}
{"id": "C72", "title": "No secrets are left on the stack", "statement": "When a call of the native digest, hmac, hkdf_extract, hkdf_expand or hkdf returns, with success or with any error, and whatever other threads do meanwhile, every local variable of the source code that held secrets (the padded key, the inner digest, the pseudorandom key, the last block of an expansion, the states of the hash computations, the working variables of the compression functions) has been overwritten with zeros before its lifetime ended.", "quantifier": "All memory contents, all arguments, all results and error paths, all schedules of other threads that use separate memory.", "why_tests_cant": "What is left in dead stack memory cannot be observed by a C program without undefined behaviour, and each error path needs its own erasure.", "anchors": ["src/crypto/nat20/crypto.c: n20_memzero, n20_digest, n20_hmac, n20_hkdf_expand, n20_hkdf", "src/crypto/nat20/sha256.c: n20_sha256_main", "src/crypto/nat20/sha512.c: n20_sha512_main"]}
{"id": "C73", "title": "The native digest functions may be called by any number of threads at the same time", "statement": "When several threads call digest, hmac, hkdf_extract, hkdf_expand or hkdf of the native context at the same time, and no output buffer overlaps with an input or output of another thread (inputs may be shared), then however their single memory accesses are interleaved no call runs into undefined behaviour, each call returns what it returns when it runs alone, each output buffer ends with exactly the octets of that run (for digest the digest of FIPS 180-4, for hkdf the key of RFC 5869), and all other memory is unchanged. Two calls with the same output buffer can both succeed without leaving the result of the first one.", "quantifier": "All numbers of threads, all calls and arguments, all memory contents, all schedules of the octet-wise memory accesses of all threads, complete or not.", "why_tests_cant": "A test sees a few of the schedules, and static or shared scratch memory gives wrong results only under some of them.", "anchors": ["src/crypto/nat20/crypto.c: n20_digest, n20_hmac, n20_hkdf_extract, n20_hkdf_expand, n20_hkdf, n20_crypto_nat20_open", "src/crypto/nat20/sha256.c", "src/crypto/nat20/sha512.c"]}
{"id": "C74", "title": "What can be observed of a call does not depend on the data", "statement": "The sequence of addresses that digest, hmac, hkdf_extract, hkdf_expand and hkdf of the native context read and write, the outcomes of all their branches and all their indices into arrays of words are the same for any two contents of memory: they depend only on the algorithm and on the addresses and sizes of the arguments. So do the result and the reported size.", "quantifier": "All calls with pointers into memory of the caller (also NULL, overlapping, too short), all pairs of memory contents with objects of the same sizes.", "why_tests_cant": "Keys and messages are secret; a dependency for one key in 2^128 is a leak that no sample of timings shows.", "anchors": ["src/crypto/nat20/crypto.c: n20_digest, n20_hmac, n20_hkdf_extract, n20_hkdf_expand, n20_hkdf", "src/crypto/nat20/sha256.c: n20_sha256_main, n20_sha256_update, n20_sha224_sha256_finalize", "src/crypto/nat20/sha512.c"]}
{"id": "C75", "title": "Rendering gives the same result wherever the inputs are in memory, as long as they are not in the unwritten part of the buffer", "statement": "Take any sequence of calls of rendering functions (streams, ASN.1, CBOR, names, extensions, certificates, DICE extensions), with content callbacks that make such calls themselves to any depth, whose byte strings, integers, bit strings, times and keys lie anywhere in memory, also next to the buffer, in the same object, or in the part of the buffer that has been written already, but not in the part that is still to be written. Then the calls have no undefined behaviour if they have none on copies of their inputs, they render the same octets, those end up at the end of the buffer in front of what was there, and no other octet of memory changes. If the octets do not fit this is reported with the number of octets needed and nothing outside of the buffer changes; without a buffer nothing changes at all. Whatever the inputs are, only octets that are rendered (and those next to an integer) are read and only the unwritten part of the buffer is written. Copying from a place that overlaps with the destination is undefined behaviour.", "quantifier": "All sequences and nestings of calls with all arguments, all contents and layouts of memory, all stream states, all buffer positions and sizes.", "why_tests_cant": "Tests use separate arrays for inputs and output; layouts in which an input is overwritten before it is read, or a copy overlaps, are never exercised.", "anchors": ["src/core/stream.c: n20_stream_prepend", "src/core/asn1.c", "src/core/cbor.c", "src/core/x509.c: n20_x509_cert", "src/core/x509_ext_open_dice_input.c", "src/core/x509_ext_tcg_dice_tcb_info.c"]}
{"id": "C76", "title": "Rendering and digest functions may be used by any number of threads at the same time", "statement": "When several threads render into streams of their own or call functions of the native digest context at the same time, and no thread writes memory that another one reads or writes (inputs may be shared), then however their single memory accesses are interleaved no thread runs into undefined behaviour, each one has the result that it has alone, its buffer ends with exactly the octets of that run, and memory that is nobody's output is unchanged. Two threads that render into the same buffer get results that depend on the schedule.", "quantifier": "All numbers of threads, all sequences of calls with all arguments, all memory contents, all schedules of the octet-wise memory accesses of all threads, complete or not.", "why_tests_cant": "A test sees a few of the schedules, and a static scratch buffer gives wrong results only under some of them.", "anchors": ["src/core/stream.c", "src/core/asn1.c", "src/core/cbor.c", "src/core/x509.c", "src/crypto/nat20/crypto.c"]}
{"id": "C77", "title": "The size of a certificate follows from the sizes of its fields", "statement": "The number of octets of a certificate, of its part to be signed, and of the extensions is the one given by arithmetic on the lengths of the fields: a sizing pass with a NULL buffer reports exactly this number (or that it overflows the counter), a buffer is reported as too small exactly if it has fewer octets, and otherwise exactly this many octets are reported. So a buffer that suffices for one certificate suffices for every certificate with the same algorithms whose names, validity, key, signature, extensions are at most as long and whose serial number is at most as large, and the size of a certificate does not depend on the signature but only on its number of bits.", "quantifier": "All certificates with any number of name elements and extensions of any length, all extension contents, all buffers and buffer sizes.", "why_tests_cant": "A test can compare the sizes of a few certificates; that a maximal certificate is maximal is a statement about all smaller ones, and lengths of length fields change at the boundaries 128, 256, 65536, ...", "anchors": ["src/core/x509.c: n20_x509_cert, n20_x509_cert_tbs", "src/core/asn1.c: n20_asn1_header", "src/core/stream.c: n20_stream_byte_count, n20_stream_has_buffer_overflow", "src/core/x509_ext_open_dice_input.c", "src/core/x509_ext_tcg_dice_tcb_info.c"]}
{"id": "C78", "title": "The reference context loses no library object and destroys none twice", "statement": "Whatever calls are made of the reference crypto context, with whatever arguments and whichever library calls fail: between two calls the objects of the library that exist (digest, HMAC, bignum, EC point, EC key and EVP key objects, buffers) are exactly those of the key handles that exist - none for a CDI, one for an Ed25519 key, two for an EC key, none shared. So a program that has freed all its keys has no objects left. No call uses or destroys an object that does not exist, other than by a handle that was freed, and keeping the books about the objects changes no result.", "quantifier": "All sequences of calls of all functions of the context with all arguments, all patterns of failing library calls, any number of keys.", "why_tests_cant": "Leaks and double frees hide on error paths that need a particular library call to fail; tests with a working library never take them, and a leak checker sees only the paths taken.", "anchors": ["src/crypto/crypto_boringssl.cpp: n20_crypto_boringssl_digest, n20_crypto_boringssl_hmac, rfc6979_k_generation, n20_crypto_boringssl_kdf, n20_crypto_boringssl_sign, n20_crypto_boringssl_key_get_public_key, n20_crypto_boringssl_key_free, n20_crypto_boringssl_make_secret, BoringsslDeleter, EVP_PKEY_PTR_t"]}
{"id": "C79", "title": "The certificates of all layers form a valid path from the root key to the last key", "statement": "Take any number of layers. Each derives its signing key from its CDI with kdf, possibly anew after every reset, and uses sign, key_get_public_key and the certificate rendering to issue a certificate for the key of the next layer, in its own name. Then the certificates are a valid path in the sense of RFC 5280 6.1: starting with the public key and the name of the first layer, each signature verifies under the key in the certificate before it and each issuer is the subject before it, and the path ends with the public key and the name of the last layer, as key_get_public_key returns it in any run. A path ends with one type, key and name only, so this is what a verifier learns.", "quantifier": "All numbers of layers, CDIs, contexts, key types, names, further fields and extensions, histories of calls and library failures between the derivations, and runs (every certificate and every reading of a key may come from a different run).", "why_tests_cant": "A test checks one certificate made by one run. That certificates of separately started layers fit together for every number of layers needs the determinism of key derivation and the agreement of three representations of each key in every case.", "anchors": ["include/nat20/crypto.h: n20_crypto_context_t (kdf, sign, key_get_public_key)", "src/crypto/crypto_boringssl.cpp: n20_crypto_boringssl_kdf, n20_crypto_boringssl_sign, n20_crypto_boringssl_key_get_public_key", "src/core/x509.c: n20_x509_cert, n20_x509_cert_tbs, n20_x509_name"]}
{"id": "C80", "title": "The output does not depend on the byte order of the host", "statement": "n20_asn1_uint64 and n20_asn1_int64 read their argument in the byte order of the host. On a big-endian and on a little-endian host they write the same octets, and so do all functions that use them: the contents of the basic constraints, Open DICE input and TcbInfo extensions, n20_x509_cert_tbs and n20_x509_cert. (For all arguments that both hosts can render: the numbers 0 and -1 need a readable byte beside the argument, C12, on the other side for the other byte order.)", "quantifier": "All arguments, all stream states, both byte orders, any surrounding memory.", "why_tests_cant": "Unit tests run on one host, in practice a little-endian one; the other branch of the comparison with BYTE_ORDER is not even compiled.", "anchors": ["src/core/asn1.c: n20_asn1_uint64, n20_asn1_int64, n20_asn1_integer, n20_asn1_integer_content", "src/core/x509.c: n20_x509_cert_tbs, n20_x509_ext_basic_constraints_content", "src/core/x509_ext_open_dice_input.c: n20_x509_ext_open_dice_input_content", "src/core/x509_ext_tcg_dice_tcb_info.c: n20_x509_ext_tcg_dice_tcb_info_content"]}
{"id": "C81", "title": "Threads may use reference contexts at the same time", "statement": "Any number of threads may use reference crypto contexts at the same time. (n20_crypto_boringssl_open gives every caller the same context; the documentation says that it is stateless and reentrant, so threads that opened a context each do share one.) The calls must be legal when they start, and no key handle may be freed while a call that was given it is in progress. Whatever the interleaving is, and whichever calls of the underlying library fail, the calls that returned, taken in the order in which they returned, give the same return codes, outputs and key handles as if they had been made one after the other, and the key objects that exist are the same. Each library call (and so each ECDSA nonce) belongs to one call only. If something is undefined, the same call is undefined with nobody else around; calls that deal with keys are never undefined, and keys that nobody freed stay what they were.", "quantifier": "All numbers of threads, all programs of calls whose arguments may depend on earlier results, all schedules of their steps, all failures of library calls, all initial sets of keys.", "why_tests_cant": "The tests are single-threaded; there are infinitely many interleavings, and a race shows in few of them.", "anchors": ["src/crypto/crypto_boringssl.cpp: n20_crypto_boringssl_digest, n20_crypto_boringssl_hmac, n20_crypto_boringssl_hkdf, n20_crypto_boringssl_hkdf_extract, n20_crypto_boringssl_hkdf_expand, n20_crypto_boringssl_kdf, n20_crypto_boringssl_sign, n20_crypto_boringssl_key_get_public_key, n20_crypto_boringssl_key_free, n20_crypto_boringssl_make_secret", "include/nat20/crypto.h: n20_crypto_context_t", "include/nat20/crypto_bssl/crypto.h: n20_crypto_boringssl_open"]}
{"id": "C82", "title": "Calls that are cut off can be repeated", "statement": "If calls of rendering functions are cut off at any point, by a reset or otherwise, and any number of times, then every octet of the memory is either what it was before or what it is after the complete calls, and nothing outside of the unwritten part of the buffer has changed; no octet is ever written twice. When the calls are made once more from the beginning, the result and the whole memory, and for a certificate its DER encoding, are the same as without interruption. The same holds for digests and keys computed by digest and hkdf of the native context, also when several threads are cut off together at any point of any schedule. The condition is that the output does not overlap with the inputs (for rendering: the unwritten part of the buffer, and also not with the octets next to an integer); otherwise the inputs may be lost.", "quantifier": "All sequences and nestings of rendering calls with all arguments, all digest and hkdf jobs and numbers of threads, all memory contents and layouts, all stream states, all numbers and points of interruptions, all schedules.", "why_tests_cant": "There are infinitely many inputs and each has as many crash points as it has memory accesses; tests run calls to the end.", "anchors": ["src/core/stream.c: n20_stream_prepend, n20_stream_put", "src/core/asn1.c: all functions", "src/core/cbor.c: all functions", "src/core/x509.c: n20_x509_cert, n20_x509_cert_tbs", "src/crypto/nat20/crypto.c: n20_crypto_nat20_digest, n20_crypto_nat20_hkdf"]}
{"id": "C83", "title": "Rendering does not depend on the width of size_t", "statement": "On a platform on which size_t has fewer than 64 bits, but at least 16, every rendering function (stream, ASN.1, CBOR, X.509 and DICE extensions) writes the same octets as on a platform with 64 bits, and has undefined behaviour in the same cases. The buffer overflow is reported in the same cases, and a position overflow is reported exactly if the length of the output does not fit size_t; without it the length is exact. This includes content callbacks that do the same on both platforms.", "quantifier": "All widths of size_t from 16 to 64 bits, all functions with all arguments that can be expressed on the narrower platform, all nestings and sequences of calls, all streams (with and without a buffer, empty or not, overflowed or not).", "why_tests_cant": "Tests run on one platform; and on the others the interesting inputs are close to the limits of size_t, with gigabytes of data.", "anchors": ["include/nat20/stream.h: n20_stream_t (size_t fields)", "src/core/stream.c: n20_stream_init, n20_stream_prepend, n20_stream_byte_count", "src/core/asn1.c: all functions", "src/core/cbor.c: all functions", "src/core/x509.c: all functions", "src/core/x509_ext_open_dice_input.c, src/core/x509_ext_tcg_dice_tcb_info.c, src/core/x509_ext_tcg_dice_ueid.c, src/core/x509_ext_tcg_dice_tcb_freshness.c"]}
{"id": "C84", "title": "Digests, HMAC and HKDF do not depend on the width of size_t", "statement": "On a platform on which size_t has fewer than 64 bits, but at least 16, every function of the native crypto context (digest, hmac, hkdf, hkdf_extract, hkdf_expand) and every function for SHA-2 states returns the same error code, the same octets and the same size as on a platform with 64 bits, and has undefined behaviour in the same cases. In particular the digest is SHA-2 of the message even if the message, cut into several slices, is longer than size_t can tell.", "quantifier": "All widths of size_t from 16 to 64 bits, all algorithm identifiers, all arguments that can be expressed on the narrower platform (valid or not), all output buffers, all SHA-2 states.", "why_tests_cant": "Tests run on one platform with one width of size_t, and cannot cover all messages, keys and lengths.", "anchors": ["src/crypto/nat20/sha256.c: R_INDEX, n20_sha256_update, n20_sha224_sha256_finalize", "src/crypto/nat20/sha512.c: R_INDEX, n20_sha512_update, n20_sha384_sha512_finalize", "src/crypto/nat20/crypto.c: n20_digest, n20_hmac, n20_hkdf, n20_hkdf_extract, n20_hkdf_expand"]}
{"id": "C85", "title": "The reference context does not depend on the width of size_t", "statement": "On a platform on which size_t has fewer than 64 bits, but at least 16, every function of the crypto context on top of BoringSSL (digests, HMAC, HKDF, secrets, key derivation, signatures, public keys, destruction of keys) returns the same error code, octets, size and key handle as on a platform with 64 bits if the library does the same, and leaves the same key objects; or its behaviour is undefined on both. The same holds for every sequence of calls in which each call may depend on the earlier results.", "quantifier": "All widths of size_t from 16 to 64 bits, all arguments that can be expressed on the narrower platform (valid or not), all key objects, all behaviours of the library including failures at any call, all clients with any number of calls.", "why_tests_cant": "Tests run on one platform with one width of size_t, one behaviour of the library and a few histories.", "anchors": ["src/crypto/crypto_boringssl.cpp: n20_crypto_boringssl_digest, _hmac, _hkdf, _hkdf_extract, _hkdf_expand, _kdf, _sign, _key_get_public_key, _key_free, _make_secret, gather_list_to_vector", "include/nat20/crypto.h: size_t members and parameters"]}
{"id": "C86", "title": "Key handles are as good as unique numbers, whatever the allocator does", "statement": "A key handle of the crypto context on top of BoringSSL is an address, and the allocator may give the address of a destroyed key to a new one. Nevertheless, as long as a program passes only handles of keys that were not destroyed, every call returns what it would return, and does what it would do, if every key had a number of its own that is never used again. A handle that is returned with ok is that of a new key and differs from the handles of all keys in existence; the key behind a handle stays the same until the handle is passed to key_free; no call changes or destroys another key. The same is true with any number of threads under any schedule, if no key is destroyed while another thread uses it: the calls behave as if they had been made one after the other.", "quantifier": "All choices of addresses by the allocator, all histories of calls of any length, all numbers of threads and schedules, all client programs, all behaviours of the library including failures at any call.", "why_tests_cant": "Tests run with one allocator, a few keys and one schedule; whether an address is used again is up to the allocator.", "anchors": ["src/crypto/crypto_boringssl.cpp: n20_crypto_boringssl_kdf, _make_secret (new), n20_crypto_boringssl_key_free (delete), _sign, _key_get_public_key (key handles)", "include/nat20/crypto.h: n20_crypto_key_t, key_free"]}
{"id": "C87", "title": "Running out of memory is reported, and nothing is lost", "statement": "If the crypto context on top of BoringSSL runs out of memory at any point of a call, the call returns n20_error_crypto_no_resources_e (which, as documented, includes memory allocation errors); the buffers, sizes and handles of the caller and the keys in existence are as before the call, no key object and no object of the library is lost, and nothing undefined happens. Further calls work once there is memory again.", "quantifier": "All calls with all arguments, all choices of the allocations that fail (in every loop iteration and at every place), all states, all histories of calls, all behaviours of the library.", "why_tests_cant": "Tests run with enough memory; the points where an allocation may fail depend on the arguments and on how often loops run.", "anchors": ["src/crypto/crypto_boringssl.cpp: gather_list_to_vector, rfc6979_k_generation, n20_crypto_boringssl_kdf, _sign, _make_secret (new, std::vector)", "include/nat20/error.h: n20_error_crypto_no_resources_e"]}
{"id": "C88", "title": "Every call ends after a bounded number of steps, whatever other threads do", "statement": "Every call of a function of the native digest context (digest, hmac, hkdf_extract, hkdf_expand, hkdf) and every rendering with the ASN.1, X.509, OpenDICE, TCG and CBOR functions (with callbacks of any depth) ends after a number of steps that is a fixed linear function of the sizes of its arguments (for derived keys: of the number of blocks times those sizes). A thread needs only its own steps for that: the call is wait-free, so other threads may be stopped or slow, and even if they write to its memory during the call it cannot loop. If they do not write there, the thread has its correct result after that number of its own steps.", "quantifier": "All calls with all arguments, null pointers included, all contents of the memory, also contents that change during the call, all numbers of threads, all programs of the other threads, all schedules.", "why_tests_cant": "A test runs a call for a few sizes and under the schedules that happen; that no loop depends on a changed octet or on another thread, and that the number of steps is linear for every size, concerns all contents and all schedules.", "anchors": ["src/crypto/nat20/crypto.c: n20_digest, n20_hmac, n20_hkdf_extract, n20_hkdf_expand, n20_hkdf", "src/crypto/nat20/sha256.c", "src/crypto/nat20/sha512.c", "src/core/stream.c", "src/core/asn1.c", "src/core/cbor.c", "src/core/x509.c", "src/core/x509_ext_*.c"]}
{"id": "C89", "title": "No data races, and the right results on machines with weak memory", "statement": "If no thread is given memory to write that another thread is given to read or to write, then threads that call the native digest functions or render have no data race at any point of any execution. Their results, outputs and stacks are those of each thread running alone, and no thread runs into undefined behaviour, also on machines on which stores of a thread are seen by the others late, in another order, by some threads and not by others, or never during the execution; once all stores have arrived in memory, memory that no thread was given to write is unchanged and every output is complete.", "quantifier": "All numbers of threads, all calls and renderings with all arguments, all schedules, all choices at each step of what a thread sees of the stores of the others, all memories in which the stores may settle.", "why_tests_cant": "Tests run on one processor model with one compiler; which stores are seen when is not under the control of a test, and errors of this kind show up rarely.", "anchors": ["src/crypto/nat20/crypto.c: n20_digest, n20_hmac, n20_hkdf_extract, n20_hkdf_expand, n20_hkdf", "src/core/stream.c", "src/core/asn1.c", "src/core/cbor.c", "src/core/x509.c", "src/core/x509_ext_*.c"]}
{"id": "C90", "title": "Output buffers need not be initialised, and results depend on nothing but the inputs", "statement": "No call of digest, hmac, hkdf_extract, hkdf_expand or hkdf and no sequence of calls of rendering functions ever reads an octet that is neither one of its inputs nor written by itself before, whatever its arguments are, also when hkdf_expand reads the previous block back from the output buffer. So two calls with the same inputs have the same result, the same undefined behaviour if there is any, and on success the same output, whatever was in the output buffer, in other memory and on the stack; every other octet is left alone by both.", "quantifier": "All calls and all sequences of rendering calls with callbacks of any depth, all arguments including overlapping ones and those that are rejected, all pairs of memories that agree on the inputs.", "why_tests_cant": "A test fills the output buffer with one pattern; reading an octet before it is written shows only if the pattern matters to the path taken, and sanitizers see only the executions that are run.", "anchors": ["src/crypto/nat20/crypto.c: n20_digest, n20_hmac, n20_hkdf_extract, n20_hkdf_expand, n20_hkdf", "src/crypto/nat20/sha256.c: n20_sha256_update, n20_sha224_sha256_finalize", "src/crypto/nat20/sha512.c", "src/core/stream.c", "src/core/asn1.c", "src/core/cbor.c", "src/core/x509.c"]}
{"id": "C91", "title": "A signature covers one meaning only: what is signed determines what the certificate says about the device", "statement": "If the to-be-signed parts (or the whole) of two certificates rendered by the library are the same octets, they have the same number of extensions with the same critical flags, and extensions of the same type at the same place say the same: is it a CA and with which path length, which key usages, the Open DICE input values, each TcbInfo with its hashes and flags, the list of MultiTcbInfo, the UEID and the freshness nonce. All other fields (serial number, names, validity, key, OIDs) are the same as well.", "quantifier": "All pairs of certificate inputs with any number of extensions, all their contexts, all contents of memory around them.", "why_tests_cant": "A collision is a pair of inputs out of infinitely many; tests compare single outputs with expected ones.", "anchors": ["src/core/x509.c: n20_x509_cert_tbs, n20_x509_cert, n20_x509_ext_basic_constraints_content, n20_x509_ext_key_usage_content", "src/core/x509_ext_open_dice_input.c: n20_x509_ext_open_dice_input_content", "src/core/x509_ext_tcg_dice_tcb_info.c: n20_x509_ext_tcg_dice_tcb_info_content, n20_x509_ext_tcg_dice_multi_tcb_info_content", "src/core/x509_ext_tcg_dice_ueid.c", "src/core/x509_ext_tcg_dice_tcb_freshness.c"]}
{"id": "C92", "title": "Every pointer the library computes stays inside of its object", "statement": "C leaves undefined to compute a pointer that is neither to an element of an object nor one past its last element, even if it is never used. No rendering function, no n20_stream_data on a stream that did not overflow and no key derivation computes such a pointer, for valid arguments.", "quantifier": "All legal streams (also NULL, without buffer, overflowed), all numbers of all lengths in both byte orders, all lengths of derived keys.", "why_tests_cant": "A pointer that is computed and not used has no effect on current hardware; sanitizers do not report those that stay in the address space, and compilers may assume it does not happen.", "anchors": ["src/core/stream.c: n20_stream_prepend, n20_stream_data", "src/core/asn1.c: n20_asn1_integer_internal_content, n20_asn1_uint64, n20_asn1_int64", "src/crypto/nat20/crypto.c: n20_hkdf_expand"]}
{"id": "C93", "title": "Certificates follow the profile of RFC 5280 if the arguments are as documented", "statement": "What n20_x509_cert renders is a certificate of the RFC 5280 profile: version 3, a positive serial number of at most 20 octets, the same signature algorithm inside and outside with the parameters that belong to it, a non-empty issuer, names whose attributes have printable characters and lengths in the bounds of the RFC, validity times encoded as the RFC demands, a subject or a critical subject alternative name, a key algorithm with its parameters, no unique identifiers, no empty extension list and no extension twice, provided the caller passes values for which this is possible.", "quantifier": "All certificate arguments with standard OIDs that can be rendered: all names, serial numbers, times, algorithms, keys and extension lists of any length.", "why_tests_cant": "Whether a certificate is accepted by a strict verifier depends on all fields together and on the year; tests compare the octets of a few certificates with octets written by the same author.", "anchors": ["src/core/x509.c: n20_x509_cert, n20_x509_cert_tbs, n20_x509_validity, n20_x509_name, n20_x509_algorithm_identifier, n20_x509_extension", "include/nat20/x509.h: n20_x509_rdn_s, n20_x509_validity_s"]}
{"id": "C94", "title": "Callbacks are called exactly once, the last one first", "statement": "Content callbacks may have a memory: counters, allocators, devices. n20_asn1_header_with_content and n20_asn1_sequence call their callback exactly once, n20_x509_cert calls the callback of every extension exactly once, from the last extension to the first, whatever the state of the stream (NULL, without buffer, overflowed); the certificate carries for each extension what its callback rendered in that call. NULL callbacks are skipped. Rendering twice calls every callback twice, and gives the same octets if what the callbacks render does not depend on their memory.", "quantifier": "All callbacks whose output and effect depend on their memory only, all memories, all numbers of extensions, all stream states.", "why_tests_cant": "The order and number of calls is only visible with callbacks that have side effects; whether a callback is called again or not at all can depend on the stream state and on the number of extensions.", "anchors": ["src/core/asn1.c: n20_asn1_header_with_content, n20_asn1_sequence", "src/core/x509.c: n20_x509_extension_content, n20_x509_extension, n20_x509_cert_tbs, n20_x509_cert", "include/nat20/asn1.h: n20_asn1_content_cb_t"]}
