import Verif.Model.Cbor
import Verif.Model.Dice
import Verif.Spec.Stream
/-!
# Fidelity check of the model against the unit tests of the repository

Not proofs of properties.  The expected encodings below are copied from `/repo/src/core/test/*.cpp` (mechanically); the
examples check in the kernel that the model functions return what the unit tests expect of the C functions.  A
transcription error in the model that changes one of these encodings breaks the build.

Where a test passes a buffer whose encoding makes the C code read a byte outside of an object (numbers 0 and -1, see C10),
the byte is made readable here.
-/

namespace Nat20.RepoTests

/-! Vectors of `src/core/test/asn1.cpp`. -/

def ENCODED_CLASS_0_CONSTRUCTED_FALSE_TAG_0_LEN_0 : Bytes :=
  [0x00, 0x00]

def ENCODED_CLASS_1_CONSTRUCTED_FALSE_TAG_0_LEN_0 : Bytes :=
  [0x40, 0x00]

def ENCODED_CLASS_0_CONSTRUCTED_TRUE_TAG_0_LEN_0 : Bytes :=
  [0x20, 0x00]

def ENCODED_CLASS_1_CONSTRUCTED_TRUE_TAG_0_LEN_0 : Bytes :=
  [0x60, 0x00]

def ENCODED_CLASS_0_CONSTRUCTED_FALSE_TAG_8_LEN_0 : Bytes :=
  [0x08, 0x00]

def ENCODED_CLASS_0_CONSTRUCTED_FALSE_TAG_500_LEN_0 : Bytes :=
  [0x1f, 0x83, 0x74, 0x00]

def ENCODED_CLASS_0_CONSTRUCTED_FALSE_TAG_0_LEN_8 : Bytes :=
  [0x00, 0x08]

def ENCODED_CLASS_0_CONSTRUCTED_FALSE_TAG_0_LEN_500 : Bytes :=
  [0x00, 0x82, 0x01, 0xf4]

def ENCODED_CLASS_2_CONSTRUCTED_TRUE_TAG_808_LEN_450 : Bytes :=
  [0xbf, 0x86, 0x28, 0x82, 0x01, 0xc2]

def ENCODED_HEADER_WITH_CONTENT_NOOP : Bytes :=
  [0x00, 0x00]

def ENCODED_HEADER_WITH_CONTENT_FIVE_ZEROS : Bytes :=
  [0x00, 0x05, 0x00, 0x00, 0x00, 0x00, 0x00]

def ENCODED_HEADER_WITH_CONTENT_EIGHT_ZEROS : Bytes :=
  [0x00, 0x08, 0x00, 0x00, 0x00, 0x00, 0x00, 0x00, 0x00, 0x00]

def ENCODED_HEADER_WITH_CONTENT_EIGHT_ZEROS_WITH_IMPLICIT_TAG : Bytes :=
  [0x9f, 0x82, 0xd5, 0xaa, 0x55, 0x08, 0x00, 0x00, 0x00, 0x00, 0x00, 0x00, 0x00, 0x00]

def ENCODED_HEADER_WITH_CONTENT_EIGHT_ZEROS_WITH_EXPLICIT_TAG : Bytes :=
  [0xbf, 0x82, 0xd5, 0xaa, 0x55, 0x0a, 0x00, 0x08, 0x00, 0x00, 0x00, 0x00, 0x00, 0x00, 0x00, 0x00]

def ENCODED_NULL : Bytes :=
  [0x05, 0x00]

def ENCODED_NULL_IMPLICIT_TAG : Bytes :=
  [0x87, 0x00]

def ENCODED_NULL_EXPLICIT_TAG : Bytes :=
  [0xa7, 0x02, 0x05, 0x00]

def ENCODED_FALSE : Bytes :=
  [0x01, 0x01, 0x00]

def ENCODED_TRUE : Bytes :=
  [0x01, 0x01, 0xff]

def BYTES_EMPTY : Bytes :=
  []

def BYTES_0 : Bytes :=
  [0x00]

def BYTES_127 : Bytes :=
  [0x7f]

def BYTES_128 : Bytes :=
  [0x80]

def BYTES_128_PADDED : Bytes :=
  [0x00, 0x80]

def BYTES_256_BIG_ENDIAN : Bytes :=
  [0x01, 0x00]

def BYTES_7355608_BIG_ENDIAN : Bytes :=
  [0x70, 0x3c, 0xd8]

def BYTES_7355608_BIG_ENDIAN_PADDED : Bytes :=
  [0x00, 0x70, 0x3c, 0xd8]

def BYTES_9223372036854775808_BIG_ENDIAN : Bytes :=
  [0x80, 0x00, 0x00, 0x00, 0x00, 0x00, 0x00, 0x00]

def BYTES_MINUS_128_BIG_ENDIAN : Bytes :=
  [0xff, 0x80]

def BYTES_MINUS_129_BIG_ENDIAN : Bytes :=
  [0xff, 0x7f]

def BYTES_MINUS_129_BIG_ENDIAN_PADDED : Bytes :=
  [0xff, 0xff, 0x7f]

def ENCODED_0 : Bytes :=
  [0x02, 0x01, 0x00]

def ENCODED_127 : Bytes :=
  [0x02, 0x01, 0x7f]

def ENCODED_128 : Bytes :=
  [0x02, 0x02, 0x00, 0x80]

def ENCODED_256 : Bytes :=
  [0x02, 0x02, 0x01, 0x00]

def ENCODED_7355608 : Bytes :=
  [0x02, 0x03, 0x70, 0x3c, 0xd8]

def ENCODED_9223372036854775808 : Bytes :=
  [0x02, 0x09, 0x00, 0x80, 0x00, 0x00, 0x00, 0x00, 0x00, 0x00, 0x00]

def ENCODED_MINUS_128 : Bytes :=
  [0x02, 0x01, 0x80]

def ENCODED_MINUS_129 : Bytes :=
  [0x02, 0x02, 0xff, 0x7f]

def PROTO_BITS_EMPTY : Bytes :=
  []

def PROTO_BITS : Bytes :=
  [0x6e, 0x5d, 0xc5]

def ENCODED_BITS_EMPTY : Bytes :=
  [0x03, 0x01, 0x00]

def ENCODED_BITS_16 : Bytes :=
  [0x03, 0x03, 0x00, 0x6e, 0x5d]

def ENCODED_BITS_17 : Bytes :=
  [0x03, 0x04, 0x07, 0x6e, 0x5d, 0x80]

def ENCODED_BITS_18 : Bytes :=
  [0x03, 0x04, 0x06, 0x6e, 0x5d, 0xc0]

def ENCODED_BITS_23 : Bytes :=
  [0x03, 0x04, 0x01, 0x6e, 0x5d, 0xc4]

def ENCODED_BITS_24 : Bytes :=
  [0x03, 0x04, 0x00, 0x6e, 0x5d, 0xc5]

def BYTES_ZERO : Bytes :=
  []

def BYTES_ONE : Bytes :=
  [0x03]

def BYTES_TWO : Bytes :=
  [0x02, 0x01]

def BYTES_THREE : Bytes :=
  [0xff, 0x00, 0xa1]

def ENCODED_BYTES_ZERO : Bytes :=
  [0x04, 0x00]

def ENCODED_BYTES_ONE : Bytes :=
  [0x04, 0x01, 0x03]

def ENCODED_BYTES_TWO : Bytes :=
  [0x04, 0x02, 0x02, 0x01]

def ENCODED_BYTES_THREE : Bytes :=
  [0x04, 0x03, 0xff, 0x00, 0xa1]

def ENCODED_STRING_EMPTY : Bytes :=
  [0x13, 0x00]

def ENCODED_STRING_NOT_EMPTY : Bytes :=
  [0x13, 0x01, 0x7e]

def ENCODED_STRING_FULL_CHARSET : Bytes :=
  [0x13, 0x4a, 0x41, 0x42, 0x43, 0x44, 0x45, 0x46, 0x47, 0x48, 0x49, 0x4a, 0x4b, 0x4c, 0x4d, 0x4e, 0x4f, 0x50, 0x51, 0x52,
    0x53, 0x54, 0x55, 0x56, 0x57, 0x58, 0x59, 0x5a, 0x61, 0x62, 0x63, 0x64, 0x65, 0x66, 0x67, 0x68, 0x69, 0x6a, 0x6b, 0x6c,
    0x6d, 0x6e, 0x6f, 0x70, 0x71, 0x72, 0x73, 0x74, 0x75, 0x76, 0x77, 0x78, 0x79, 0x7a, 0x30, 0x31, 0x32, 0x33, 0x34, 0x35,
    0x36, 0x37, 0x38, 0x39, 0x20, 0x27, 0x28, 0x29, 0x2b, 0x2c, 0x2d, 0x2e, 0x2f, 0x3a, 0x3d, 0x3f]

def ENCODED_UTF8_STRING_EMPTY : Bytes :=
  [0x0c, 0x00]

def ENCODED_UTF8_STRING_NOT_EMPTY : Bytes :=
  [0x0c, 0x01, 0x7e]

def ENCODED_UTF8_FULL_CHARSET : Bytes :=
  [0x0c, 0x4a, 0x41, 0x42, 0x43, 0x44, 0x45, 0x46, 0x47, 0x48, 0x49, 0x4a, 0x4b, 0x4c, 0x4d, 0x4e, 0x4f, 0x50, 0x51, 0x52,
    0x53, 0x54, 0x55, 0x56, 0x57, 0x58, 0x59, 0x5a, 0x61, 0x62, 0x63, 0x64, 0x65, 0x66, 0x67, 0x68, 0x69, 0x6a, 0x6b, 0x6c,
    0x6d, 0x6e, 0x6f, 0x70, 0x71, 0x72, 0x73, 0x74, 0x75, 0x76, 0x77, 0x78, 0x79, 0x7a, 0x30, 0x31, 0x32, 0x33, 0x34, 0x35,
    0x36, 0x37, 0x38, 0x39, 0x20, 0x27, 0x28, 0x29, 0x2b, 0x2c, 0x2d, 0x2e, 0x2f, 0x3a, 0x3d, 0x3f]

def ENCODED_TIME_ZERO : Bytes :=
  [0x18, 0x0f, 0x30, 0x30, 0x30, 0x31, 0x30, 0x31, 0x30, 0x31, 0x30, 0x30, 0x30, 0x30, 0x30, 0x30, 0x5a]

def ENCODED_TIME_NOT_ZERO : Bytes :=
  [0x18, 0x0f, 0x32, 0x30, 0x32, 0x34, 0x31, 0x31, 0x32, 0x37, 0x30, 0x33, 0x31, 0x34, 0x35, 0x38, 0x5a]

def ENCODED_SEQUENCE_NULL : Bytes :=
  [0x30, 0x00]

def ENCODED_SEQUENCE_NOOP : Bytes :=
  [0x30, 0x00]

def ENCODED_SEQUENCE_FLAT : Bytes :=
  [0x30, 0x09, 0x01, 0x01, 0xff, 0x13, 0x04, 0x66, 0x6c, 0x61, 0x74]

def ENCODED_SEQUENCE_NESTED : Bytes :=
  [0x30, 0x13, 0x30, 0x09, 0x01, 0x01, 0xff, 0x13, 0x04, 0x66, 0x6c, 0x61, 0x74, 0x13, 0x06, 0x6e, 0x65, 0x73, 0x74, 0x65,
    0x64]

def ENCODED_OID_SHA256_WITH_RSA_ENC : Bytes :=
  [0x06, 0x09, 0x2a, 0x86, 0x48, 0x86, 0xf7, 0x0d, 0x01, 0x01, 0x0b]

def ENCODED_OID_GOOGLE : Bytes :=
  [0x06, 0x07, 0x2b, 0x06, 0x01, 0x04, 0x01, 0xd6, 0x79]

/-! Vectors of `src/core/test/x509.cpp`. -/

def TEST_SERIAL : Bytes :=
  [0x01, 0x02, 0x03, 0x04, 0x05, 0x06, 0x07, 0x08, 0x09, 0x0a, 0x0b, 0x0c, 0x0d, 0x0e, 0x0f, 0x10, 0x11, 0x12, 0x13, 0x14]

def ENCODED_NAME_NULL : Bytes :=
  [0x30, 0x02, 0x05, 0x00]

def ENCODED_NAME_EMPTY : Bytes :=
  [0x30, 0x00]

def ENCODED_NAME_ONE : Bytes :=
  [0x30, 0x0d, 0x31, 0x0b, 0x30, 0x09, 0x06, 0x03, 0x55, 0x04, 0x06, 0x13, 0x02, 0x55, 0x53]

def ENCODED_NAME_TWO : Bytes :=
  [0x30, 0x22, 0x31, 0x0b, 0x30, 0x09, 0x06, 0x03, 0x55, 0x04, 0x06, 0x13, 0x02, 0x55, 0x53, 0x31, 0x13, 0x30, 0x11, 0x06,
    0x03, 0x55, 0x04, 0x07, 0x13, 0x0a, 0x50, 0x69, 0x74, 0x74, 0x73, 0x62, 0x75, 0x72, 0x67, 0x68]

def ENCODED_NAME_WITH_SERIAL : Bytes :=
  [0x30, 0x81, 0x82, 0x31, 0x0b, 0x30, 0x09, 0x06, 0x03, 0x55, 0x04, 0x06, 0x13, 0x02, 0x55, 0x53, 0x31, 0x11, 0x30, 0x0f,
    0x06, 0x03, 0x55, 0x04, 0x07, 0x13, 0x08, 0x53, 0x63, 0x72, 0x61, 0x6e, 0x74, 0x6f, 0x6e, 0x31, 0x15, 0x30, 0x13, 0x06,
    0x03, 0x55, 0x04, 0x0a, 0x13, 0x0c, 0x54, 0x65, 0x73, 0x74, 0x20, 0x44, 0x49, 0x43, 0x45, 0x20, 0x43, 0x41, 0x31, 0x16,
    0x30, 0x14, 0x06, 0x03, 0x55, 0x04, 0x03, 0x13, 0x0d, 0x44, 0x49, 0x43, 0x45, 0x20, 0x4c, 0x61, 0x79, 0x65, 0x72, 0x20,
    0x30, 0x30, 0x31, 0x31, 0x30, 0x2f, 0x06, 0x03, 0x55, 0x04, 0x05, 0x13, 0x28, 0x30, 0x31, 0x30, 0x32, 0x30, 0x33, 0x30,
    0x34, 0x30, 0x35, 0x30, 0x36, 0x30, 0x37, 0x30, 0x38, 0x30, 0x39, 0x30, 0x61, 0x30, 0x62, 0x30, 0x63, 0x30, 0x64, 0x30,
    0x65, 0x30, 0x66, 0x31, 0x30, 0x31, 0x31, 0x31, 0x32, 0x31, 0x33, 0x31, 0x34]

def ENCODED_NAME_WITH_EMPTY_SERIAL : Bytes :=
  [0x30, 0x0b, 0x31, 0x09, 0x30, 0x07, 0x06, 0x03, 0x55, 0x04, 0x05, 0x13, 0x00]

def ENCODED_EXTENSIONS_EMPTY : Bytes :=
  []

def ENCODED_EXTENSIONS_ONE_EMPTY_EXTN_VALUE : Bytes :=
  [0xa3, 0x0b, 0x30, 0x09, 0x30, 0x07, 0x06, 0x03, 0x55, 0x1d, 0x0f, 0x04, 0x00]

def ENCODED_EXTENSIONS_ONE : Bytes :=
  [0xa3, 0x12, 0x30, 0x10, 0x30, 0x0e, 0x06, 0x03, 0x55, 0x1d, 0x0f, 0x01, 0x01, 0xff, 0x04, 0x04, 0x03, 0x02, 0x05, 0x00]

def ENCODED_EXTENSIONS_TWO : Bytes :=
  [0xa3, 0x20, 0x30, 0x1e, 0x30, 0x0e, 0x06, 0x03, 0x55, 0x1d, 0x0f, 0x01, 0x01, 0xff, 0x04, 0x04, 0x03, 0x02, 0x05, 0x00,
    0x30, 0x0c, 0x06, 0x03, 0x55, 0x1d, 0x13, 0x01, 0x01, 0xff, 0x04, 0x02, 0x30, 0x00]

def ENCODED_BASIC_CONSTRAINTS_NOT_CA_NO_PATH_LENGTH : Bytes :=
  [0x30, 0x00]

def ENCODED_BASIC_CONSTRAINTS_IS_CA_NO_PATH_LENGTH : Bytes :=
  [0x30, 0x03, 0x01, 0x01, 0xff]

def ENCODED_BASIC_CONSTRAINTS_IS_CA_HAS_PATH_LENGTH : Bytes :=
  [0x30, 0x06, 0x01, 0x01, 0xff, 0x02, 0x01, 0x00]

def ENCODED_BASIC_CONSTRAINTS_IS_CA_HAS_PATH_LENGTH_ONE : Bytes :=
  [0x30, 0x06, 0x01, 0x01, 0xff, 0x02, 0x01, 0x01]

def ENCODED_KEY_USAGE_ZERO_BITS : Bytes :=
  [0x03, 0x01, 0x00]

def ENCODED_KEY_USAGE_SIX_BITS : Bytes :=
  [0x03, 0x02, 0x02, 0x84]

def ENCODED_KEY_USAGE_NINE_BITS : Bytes :=
  [0x03, 0x03, 0x07, 0x84, 0x80]

def ENCODED_KEY_USAGE_NINE_BITS_ALL_SET : Bytes :=
  [0x03, 0x03, 0x07, 0xff, 0x80]

def ENCODED_CERT_TBS_NULL : Bytes :=
  [0x30, 0x00]

def ENCODED_CERT_TBS_ZERO : Bytes :=
  [0x30, 0x3d, 0xa0, 0x03, 0x02, 0x01, 0x02, 0x02, 0x01, 0x00, 0x30, 0x02, 0x05, 0x00, 0x30, 0x00, 0x30, 0x22, 0x18, 0x0f,
    0x31, 0x39, 0x37, 0x30, 0x30, 0x31, 0x30, 0x31, 0x30, 0x30, 0x30, 0x30, 0x30, 0x30, 0x5a, 0x18, 0x0f, 0x39, 0x39, 0x39,
    0x39, 0x31, 0x32, 0x33, 0x31, 0x32, 0x33, 0x35, 0x39, 0x35, 0x39, 0x5a, 0x30, 0x00, 0x30, 0x07, 0x30, 0x02, 0x05, 0x00,
    0x03, 0x01, 0x00]

def ENCODED_CERT_TBS_NONZERO : Bytes :=
  [0x30, 0x81, 0xf8, 0xa0, 0x03, 0x02, 0x01, 0x02, 0x02, 0x14, 0x7f, 0xff, 0xff, 0xff, 0xff, 0xff, 0xff, 0xff, 0xff, 0xff,
    0xff, 0xff, 0xff, 0xff, 0xff, 0xff, 0xff, 0xff, 0xff, 0xff, 0x30, 0x05, 0x06, 0x03, 0x2b, 0x65, 0x70, 0x30, 0x37, 0x31,
    0x0b, 0x30, 0x09, 0x06, 0x03, 0x55, 0x04, 0x06, 0x13, 0x02, 0x55, 0x53, 0x31, 0x11, 0x30, 0x0f, 0x06, 0x03, 0x55, 0x04,
    0x07, 0x13, 0x08, 0x53, 0x63, 0x72, 0x61, 0x6e, 0x74, 0x6f, 0x6e, 0x31, 0x15, 0x30, 0x13, 0x06, 0x03, 0x55, 0x04, 0x03,
    0x13, 0x0c, 0x54, 0x65, 0x73, 0x74, 0x20, 0x44, 0x49, 0x43, 0x45, 0x20, 0x43, 0x41, 0x30, 0x22, 0x18, 0x0f, 0x32, 0x30,
    0x32, 0x30, 0x30, 0x39, 0x30, 0x32, 0x31, 0x33, 0x32, 0x35, 0x32, 0x36, 0x5a, 0x18, 0x0f, 0x32, 0x30, 0x32, 0x30, 0x30,
    0x39, 0x30, 0x32, 0x31, 0x33, 0x32, 0x35, 0x32, 0x36, 0x5a, 0x30, 0x37, 0x31, 0x0b, 0x30, 0x09, 0x06, 0x03, 0x55, 0x04,
    0x06, 0x13, 0x02, 0x55, 0x53, 0x31, 0x11, 0x30, 0x0f, 0x06, 0x03, 0x55, 0x04, 0x07, 0x13, 0x08, 0x53, 0x63, 0x72, 0x61,
    0x6e, 0x74, 0x6f, 0x6e, 0x31, 0x15, 0x30, 0x13, 0x06, 0x03, 0x55, 0x04, 0x03, 0x13, 0x0c, 0x54, 0x65, 0x73, 0x74, 0x20,
    0x44, 0x49, 0x43, 0x45, 0x20, 0x43, 0x41, 0x30, 0x2a, 0x30, 0x05, 0x06, 0x03, 0x2b, 0x65, 0x70, 0x03, 0x21, 0x00, 0x3b,
    0xa9, 0x2f, 0xfd, 0xcb, 0x17, 0x66, 0xde, 0x40, 0xa2, 0x92, 0xf7, 0x93, 0xde, 0x30, 0xf8, 0x0a, 0x23, 0xa8, 0x31, 0x21,
    0x5d, 0xd0, 0x07, 0xd8, 0x63, 0x24, 0x2e, 0xff, 0x68, 0x21, 0x85, 0xa3, 0x12, 0x30, 0x10, 0x30, 0x0e, 0x06, 0x03, 0x55,
    0x1d, 0x0f, 0x01, 0x01, 0xff, 0x04, 0x04, 0x03, 0x02, 0x05, 0x00]

def public_key_v : Bytes :=
  [0x3b, 0xa9, 0x2f, 0xfd, 0xcb, 0x17, 0x66, 0xde, 0x40, 0xa2, 0x92, 0xf7, 0x93, 0xde, 0x30, 0xf8, 0x0a, 0x23, 0xa8, 0x31,
    0x21, 0x5d, 0xd0, 0x07, 0xd8, 0x63, 0x24, 0x2e, 0xff, 0x68, 0x21, 0x85]

/-! Vectors of `src/core/test/x509_ext_open_dice_input.cpp`. -/

def CODE_HASH : Bytes :=
  [0x63, 0x63, 0x63, 0x63, 0x63, 0x63, 0x63, 0x63, 0x63, 0x63, 0x63, 0x63, 0x63, 0x63, 0x63, 0x63, 0x63, 0x63, 0x63, 0x63,
    0x63, 0x63, 0x63, 0x63, 0x63, 0x63, 0x63, 0x63, 0x63, 0x63, 0x63, 0x63, 0x63, 0x63, 0x63, 0x63, 0x63, 0x63, 0x63, 0x63,
    0x63, 0x63, 0x63, 0x63, 0x63, 0x63, 0x63, 0x63, 0x63, 0x63, 0x63, 0x63, 0x63, 0x63, 0x63, 0x63, 0x63, 0x63, 0x63, 0x63,
    0x63, 0x63, 0x63, 0x63]

def CODE_DESCRIPTOR : Bytes :=
  [0x63, 0x6f, 0x64, 0x65]

def CONFIGURATION_INLINE : Bytes :=
  [0x64, 0x64, 0x64, 0x64, 0x64, 0x64, 0x64, 0x64, 0x64, 0x64, 0x64, 0x64, 0x64, 0x64, 0x64, 0x64, 0x64, 0x64, 0x64, 0x64,
    0x64, 0x64, 0x64, 0x64, 0x64, 0x64, 0x64, 0x64, 0x64, 0x64, 0x64, 0x64, 0x64, 0x64, 0x64, 0x64, 0x64, 0x64, 0x64, 0x64,
    0x64, 0x64, 0x64, 0x64, 0x64, 0x64, 0x64, 0x64, 0x64, 0x64, 0x64, 0x64, 0x64, 0x64, 0x64, 0x64, 0x64, 0x64, 0x64, 0x64,
    0x64, 0x64, 0x64, 0x64]

def CONFIGURATION_HASH : Bytes :=
  [0x65, 0x65, 0x65, 0x65, 0x65, 0x65, 0x65, 0x65, 0x65, 0x65, 0x65, 0x65, 0x65, 0x65, 0x65, 0x65, 0x65, 0x65, 0x65, 0x65,
    0x65, 0x65, 0x65, 0x65, 0x65, 0x65, 0x65, 0x65, 0x65, 0x65, 0x65, 0x65, 0x65, 0x65, 0x65, 0x65, 0x65, 0x65, 0x65, 0x65,
    0x65, 0x65, 0x65, 0x65, 0x65, 0x65, 0x65, 0x65, 0x65, 0x65, 0x65, 0x65, 0x65, 0x65, 0x65, 0x65, 0x65, 0x65, 0x65, 0x65,
    0x65, 0x65, 0x65, 0x65]

def CONFIGURATION_DESCRIPTOR : Bytes :=
  [0x63, 0x6f, 0x6e, 0x66, 0x69, 0x67]

def AUTHORITY_HASH : Bytes :=
  [0x61, 0x61, 0x61, 0x61, 0x61, 0x61, 0x61, 0x61, 0x61, 0x61, 0x61, 0x61, 0x61, 0x61, 0x61, 0x61, 0x61, 0x61, 0x61, 0x61,
    0x61, 0x61, 0x61, 0x61, 0x61, 0x61, 0x61, 0x61, 0x61, 0x61, 0x61, 0x61, 0x61, 0x61, 0x61, 0x61, 0x61, 0x61, 0x61, 0x61,
    0x61, 0x61, 0x61, 0x61, 0x61, 0x61, 0x61, 0x61, 0x61, 0x61, 0x61, 0x61, 0x61, 0x61, 0x61, 0x61, 0x61, 0x61, 0x61, 0x61,
    0x61, 0x61, 0x61, 0x61]

def AUTHORITY_DESCRIPTOR : Bytes :=
  [0x61, 0x75, 0x74, 0x68]

def EXTENSION_WITH_INLINE_CONFIGURATION : Bytes :=
  [0xa3, 0x82, 0x01, 0x19, 0x30, 0x82, 0x01, 0x15, 0x30, 0x82, 0x01, 0x11, 0x06, 0x0a, 0x2b, 0x06, 0x01, 0x04, 0x01, 0xd6,
    0x79, 0x02, 0x01, 0x18, 0x01, 0x01, 0xff, 0x04, 0x81, 0xff, 0x30, 0x81, 0xfc, 0xa0, 0x42, 0x04, 0x40, 0x63, 0x63, 0x63,
    0x63, 0x63, 0x63, 0x63, 0x63, 0x63, 0x63, 0x63, 0x63, 0x63, 0x63, 0x63, 0x63, 0x63, 0x63, 0x63, 0x63, 0x63, 0x63, 0x63,
    0x63, 0x63, 0x63, 0x63, 0x63, 0x63, 0x63, 0x63, 0x63, 0x63, 0x63, 0x63, 0x63, 0x63, 0x63, 0x63, 0x63, 0x63, 0x63, 0x63,
    0x63, 0x63, 0x63, 0x63, 0x63, 0x63, 0x63, 0x63, 0x63, 0x63, 0x63, 0x63, 0x63, 0x63, 0x63, 0x63, 0x63, 0x63, 0x63, 0x63,
    0x63, 0xa1, 0x06, 0x04, 0x04, 0x63, 0x6f, 0x64, 0x65, 0xa3, 0x42, 0x04, 0x40, 0x64, 0x64, 0x64, 0x64, 0x64, 0x64, 0x64,
    0x64, 0x64, 0x64, 0x64, 0x64, 0x64, 0x64, 0x64, 0x64, 0x64, 0x64, 0x64, 0x64, 0x64, 0x64, 0x64, 0x64, 0x64, 0x64, 0x64,
    0x64, 0x64, 0x64, 0x64, 0x64, 0x64, 0x64, 0x64, 0x64, 0x64, 0x64, 0x64, 0x64, 0x64, 0x64, 0x64, 0x64, 0x64, 0x64, 0x64,
    0x64, 0x64, 0x64, 0x64, 0x64, 0x64, 0x64, 0x64, 0x64, 0x64, 0x64, 0x64, 0x64, 0x64, 0x64, 0x64, 0x64, 0xa4, 0x42, 0x04,
    0x40, 0x61, 0x61, 0x61, 0x61, 0x61, 0x61, 0x61, 0x61, 0x61, 0x61, 0x61, 0x61, 0x61, 0x61, 0x61, 0x61, 0x61, 0x61, 0x61,
    0x61, 0x61, 0x61, 0x61, 0x61, 0x61, 0x61, 0x61, 0x61, 0x61, 0x61, 0x61, 0x61, 0x61, 0x61, 0x61, 0x61, 0x61, 0x61, 0x61,
    0x61, 0x61, 0x61, 0x61, 0x61, 0x61, 0x61, 0x61, 0x61, 0x61, 0x61, 0x61, 0x61, 0x61, 0x61, 0x61, 0x61, 0x61, 0x61, 0x61,
    0x61, 0x61, 0x61, 0x61, 0x61, 0xa5, 0x06, 0x04, 0x04, 0x61, 0x75, 0x74, 0x68, 0xa6, 0x03, 0x02, 0x01, 0x01, 0xa7, 0x19,
    0x0c, 0x17, 0x41, 0x75, 0x72, 0x6f, 0x72, 0x61, 0x20, 0x4f, 0x70, 0x65, 0x6e, 0x44, 0x49, 0x43, 0x45, 0x20, 0x50, 0x72,
    0x6f, 0x66, 0x69, 0x6c, 0x65]

def EXTENSION_WITH_CONFIGURATION_DESCRIPTOR : Bytes :=
  [0xa3, 0x82, 0x01, 0x25, 0x30, 0x82, 0x01, 0x21, 0x30, 0x82, 0x01, 0x1d, 0x06, 0x0a, 0x2b, 0x06, 0x01, 0x04, 0x01, 0xd6,
    0x79, 0x02, 0x01, 0x18, 0x01, 0x01, 0xff, 0x04, 0x82, 0x01, 0x0a, 0x30, 0x82, 0x01, 0x06, 0xa0, 0x42, 0x04, 0x40, 0x63,
    0x63, 0x63, 0x63, 0x63, 0x63, 0x63, 0x63, 0x63, 0x63, 0x63, 0x63, 0x63, 0x63, 0x63, 0x63, 0x63, 0x63, 0x63, 0x63, 0x63,
    0x63, 0x63, 0x63, 0x63, 0x63, 0x63, 0x63, 0x63, 0x63, 0x63, 0x63, 0x63, 0x63, 0x63, 0x63, 0x63, 0x63, 0x63, 0x63, 0x63,
    0x63, 0x63, 0x63, 0x63, 0x63, 0x63, 0x63, 0x63, 0x63, 0x63, 0x63, 0x63, 0x63, 0x63, 0x63, 0x63, 0x63, 0x63, 0x63, 0x63,
    0x63, 0x63, 0x63, 0xa1, 0x06, 0x04, 0x04, 0x63, 0x6f, 0x64, 0x65, 0xa2, 0x42, 0x04, 0x40, 0x65, 0x65, 0x65, 0x65, 0x65,
    0x65, 0x65, 0x65, 0x65, 0x65, 0x65, 0x65, 0x65, 0x65, 0x65, 0x65, 0x65, 0x65, 0x65, 0x65, 0x65, 0x65, 0x65, 0x65, 0x65,
    0x65, 0x65, 0x65, 0x65, 0x65, 0x65, 0x65, 0x65, 0x65, 0x65, 0x65, 0x65, 0x65, 0x65, 0x65, 0x65, 0x65, 0x65, 0x65, 0x65,
    0x65, 0x65, 0x65, 0x65, 0x65, 0x65, 0x65, 0x65, 0x65, 0x65, 0x65, 0x65, 0x65, 0x65, 0x65, 0x65, 0x65, 0x65, 0x65, 0xa3,
    0x08, 0x04, 0x06, 0x63, 0x6f, 0x6e, 0x66, 0x69, 0x67, 0xa4, 0x42, 0x04, 0x40, 0x61, 0x61, 0x61, 0x61, 0x61, 0x61, 0x61,
    0x61, 0x61, 0x61, 0x61, 0x61, 0x61, 0x61, 0x61, 0x61, 0x61, 0x61, 0x61, 0x61, 0x61, 0x61, 0x61, 0x61, 0x61, 0x61, 0x61,
    0x61, 0x61, 0x61, 0x61, 0x61, 0x61, 0x61, 0x61, 0x61, 0x61, 0x61, 0x61, 0x61, 0x61, 0x61, 0x61, 0x61, 0x61, 0x61, 0x61,
    0x61, 0x61, 0x61, 0x61, 0x61, 0x61, 0x61, 0x61, 0x61, 0x61, 0x61, 0x61, 0x61, 0x61, 0x61, 0x61, 0x61, 0xa5, 0x06, 0x04,
    0x04, 0x61, 0x75, 0x74, 0x68, 0xa6, 0x03, 0x02, 0x01, 0x01, 0xa7, 0x19, 0x0c, 0x17, 0x41, 0x75, 0x72, 0x6f, 0x72, 0x61,
    0x20, 0x4f, 0x70, 0x65, 0x6e, 0x44, 0x49, 0x43, 0x45, 0x20, 0x50, 0x72, 0x6f, 0x66, 0x69, 0x6c, 0x65]

def EXTENSION_WITHOUT_OPTIONALS : Bytes :=
  [0xa3, 0x1c, 0x30, 0x1a, 0x30, 0x18, 0x06, 0x0a, 0x2b, 0x06, 0x01, 0x04, 0x01, 0xd6, 0x79, 0x02, 0x01, 0x18, 0x01, 0x01,
    0xff, 0x04, 0x07, 0x30, 0x05, 0xa6, 0x03, 0x02, 0x01, 0x00]

def buffer : Bytes :=
  []

/-! Vectors of `src/core/test/x509_ext_tcg_dice_tcb_freshness.cpp`. -/

def TEST_NONCE : Bytes :=
  [0x00, 0x01, 0x02, 0x03, 0x04, 0x05, 0x06, 0x07]

def EXPECTED_TCB_FRESHNESS_EXTENSION : Bytes :=
  [0xa3, 0x1d, 0x30, 0x1b, 0x30, 0x19, 0x06, 0x06, 0x67, 0x81, 0x05, 0x05, 0x04, 0x0b, 0x01, 0x01, 0xff, 0x04, 0x0c, 0x30,
    0x0a, 0x04, 0x08, 0x00, 0x01, 0x02, 0x03, 0x04, 0x05, 0x06, 0x07]

/-! Vectors of `src/core/test/x509_ext_tcg_dice_tcb_info.cpp`. -/

def TEST_DIGEST_1 : Bytes :=
  [0xaa, 0xaa, 0xaa, 0xaa, 0xaa, 0xaa, 0xaa, 0xaa, 0xaa, 0xaa, 0xaa, 0xaa, 0xaa, 0xaa, 0xaa, 0xaa, 0xaa, 0xaa, 0xaa, 0xaa,
    0xaa, 0xaa, 0xaa, 0xaa, 0xaa, 0xaa, 0xaa, 0xaa, 0xaa, 0xaa, 0xaa, 0xaa]

def TEST_DIGEST_2 : Bytes :=
  [0x55, 0x55, 0x55, 0x55, 0x55, 0x55, 0x55, 0x55, 0x55, 0x55, 0x55, 0x55, 0x55, 0x55, 0x55, 0x55, 0x55, 0x55, 0x55, 0x55,
    0x55, 0x55, 0x55, 0x55, 0x55, 0x55, 0x55, 0x55, 0x55, 0x55, 0x55, 0x55, 0x55, 0x55, 0x55, 0x55, 0x55, 0x55, 0x55, 0x55,
    0x55, 0x55, 0x55, 0x55, 0x55, 0x55, 0x55, 0x55, 0x55, 0x55, 0x55, 0x55, 0x55, 0x55, 0x55, 0x55, 0x55, 0x55, 0x55, 0x55,
    0x55, 0x55, 0x55, 0x55]

def TEST_TYPE : Bytes :=
  [0x54, 0x59, 0x50, 0x45]

def TEST_VENDOR_INFO : Bytes :=
  [0x56, 0x45, 0x4e, 0x44, 0x4f, 0x53]

def EXPECTED_EXTENSION_WITH_ALL_FIELDS : Bytes :=
  [0xa3, 0x81, 0xd4, 0x30, 0x81, 0xd1, 0x30, 0x81, 0xce, 0x06, 0x06, 0x67, 0x81, 0x05, 0x05, 0x04, 0x01, 0x01, 0x01, 0xff,
    0x04, 0x81, 0xc0, 0x30, 0x81, 0xbd, 0x80, 0x06, 0x61, 0x75, 0x72, 0x6f, 0x72, 0x61, 0x81, 0x07, 0x70, 0x65, 0x72, 0x73,
    0x65, 0x75, 0x73, 0x82, 0x05, 0x31, 0x2e, 0x30, 0x2e, 0x35, 0x83, 0x01, 0x05, 0x84, 0x01, 0x06, 0x85, 0x01, 0x07, 0xa6,
    0x7e, 0x30, 0x2d, 0x06, 0x09, 0x60, 0x86, 0x48, 0x01, 0x65, 0x03, 0x04, 0x02, 0x01, 0x04, 0x20, 0xaa, 0xaa, 0xaa, 0xaa,
    0xaa, 0xaa, 0xaa, 0xaa, 0xaa, 0xaa, 0xaa, 0xaa, 0xaa, 0xaa, 0xaa, 0xaa, 0xaa, 0xaa, 0xaa, 0xaa, 0xaa, 0xaa, 0xaa, 0xaa,
    0xaa, 0xaa, 0xaa, 0xaa, 0xaa, 0xaa, 0xaa, 0xaa, 0x30, 0x4d, 0x06, 0x09, 0x60, 0x86, 0x48, 0x01, 0x65, 0x03, 0x04, 0x02,
    0x03, 0x04, 0x40, 0x55, 0x55, 0x55, 0x55, 0x55, 0x55, 0x55, 0x55, 0x55, 0x55, 0x55, 0x55, 0x55, 0x55, 0x55, 0x55, 0x55,
    0x55, 0x55, 0x55, 0x55, 0x55, 0x55, 0x55, 0x55, 0x55, 0x55, 0x55, 0x55, 0x55, 0x55, 0x55, 0x55, 0x55, 0x55, 0x55, 0x55,
    0x55, 0x55, 0x55, 0x55, 0x55, 0x55, 0x55, 0x55, 0x55, 0x55, 0x55, 0x55, 0x55, 0x55, 0x55, 0x55, 0x55, 0x55, 0x55, 0x55,
    0x55, 0x55, 0x55, 0x55, 0x55, 0x55, 0x55, 0x87, 0x05, 0x00, 0x80, 0x80, 0x00, 0x01, 0x88, 0x06, 0x56, 0x45, 0x4e, 0x44,
    0x4f, 0x53, 0x89, 0x04, 0x54, 0x59, 0x50, 0x45, 0x8a, 0x05, 0x00, 0xff, 0x80, 0x00, 0x01]

def EXPECTED_EXTENSION_WITH_SOME_FIELDS : Bytes :=
  [0xa3, 0x2a, 0x30, 0x28, 0x30, 0x26, 0x06, 0x06, 0x67, 0x81, 0x05, 0x05, 0x04, 0x01, 0x01, 0x01, 0xff, 0x04, 0x19, 0x30,
    0x17, 0x83, 0x01, 0x05, 0x84, 0x01, 0x06, 0x85, 0x01, 0x07, 0x87, 0x05, 0x00, 0x80, 0x80, 0x00, 0x01, 0x8a, 0x05, 0x00,
    0xff, 0x80, 0x00, 0x01]

def EXPECTED_MULTI_TCB_INFO_EXTENSION : Bytes :=
  [0xa3, 0x81, 0xf0, 0x30, 0x81, 0xed, 0x30, 0x81, 0xea, 0x06, 0x06, 0x67, 0x81, 0x05, 0x05, 0x04, 0x05, 0x01, 0x01, 0xff,
    0x04, 0x81, 0xdc, 0x30, 0x81, 0xd9, 0x30, 0x81, 0xbd, 0x80, 0x06, 0x61, 0x75, 0x72, 0x6f, 0x72, 0x61, 0x81, 0x07, 0x70,
    0x65, 0x72, 0x73, 0x65, 0x75, 0x73, 0x82, 0x05, 0x31, 0x2e, 0x30, 0x2e, 0x35, 0x83, 0x01, 0x05, 0x84, 0x01, 0x06, 0x85,
    0x01, 0x07, 0xa6, 0x7e, 0x30, 0x2d, 0x06, 0x09, 0x60, 0x86, 0x48, 0x01, 0x65, 0x03, 0x04, 0x02, 0x01, 0x04, 0x20, 0xaa,
    0xaa, 0xaa, 0xaa, 0xaa, 0xaa, 0xaa, 0xaa, 0xaa, 0xaa, 0xaa, 0xaa, 0xaa, 0xaa, 0xaa, 0xaa, 0xaa, 0xaa, 0xaa, 0xaa, 0xaa,
    0xaa, 0xaa, 0xaa, 0xaa, 0xaa, 0xaa, 0xaa, 0xaa, 0xaa, 0xaa, 0xaa, 0x30, 0x4d, 0x06, 0x09, 0x60, 0x86, 0x48, 0x01, 0x65,
    0x03, 0x04, 0x02, 0x03, 0x04, 0x40, 0x55, 0x55, 0x55, 0x55, 0x55, 0x55, 0x55, 0x55, 0x55, 0x55, 0x55, 0x55, 0x55, 0x55,
    0x55, 0x55, 0x55, 0x55, 0x55, 0x55, 0x55, 0x55, 0x55, 0x55, 0x55, 0x55, 0x55, 0x55, 0x55, 0x55, 0x55, 0x55, 0x55, 0x55,
    0x55, 0x55, 0x55, 0x55, 0x55, 0x55, 0x55, 0x55, 0x55, 0x55, 0x55, 0x55, 0x55, 0x55, 0x55, 0x55, 0x55, 0x55, 0x55, 0x55,
    0x55, 0x55, 0x55, 0x55, 0x55, 0x55, 0x55, 0x55, 0x55, 0x55, 0x87, 0x05, 0x00, 0x80, 0x80, 0x00, 0x01, 0x88, 0x06, 0x56,
    0x45, 0x4e, 0x44, 0x4f, 0x53, 0x89, 0x04, 0x54, 0x59, 0x50, 0x45, 0x8a, 0x05, 0x00, 0xff, 0x80, 0x00, 0x01, 0x30, 0x17,
    0x83, 0x01, 0x05, 0x84, 0x01, 0x06, 0x85, 0x01, 0x07, 0x87, 0x05, 0x00, 0x80, 0x80, 0x00, 0x01, 0x8a, 0x05, 0x00, 0xff,
    0x80, 0x00, 0x01]

/-! Vectors of `src/core/test/x509_ext_tcg_dice_ueid.cpp`. -/

def TEST_UEID : Bytes :=
  [0x00, 0x01, 0x02, 0x03, 0x04, 0x05, 0x06, 0x07]

def EXPECTED_UEID_EXTENSION : Bytes :=
  [0xa3, 0x1a, 0x30, 0x18, 0x30, 0x16, 0x06, 0x06, 0x67, 0x81, 0x05, 0x05, 0x04, 0x04, 0x04, 0x0c, 0x30, 0x0a, 0x04, 0x08,
    0x00, 0x01, 0x02, 0x03, 0x04, 0x05, 0x06, 0x07]

/-! Cases of `src/core/test/cbor.cpp`. -/

def cborHeaderCases : List (UInt32 × UInt64 × Bytes) :=
  [(5, 0, [0xa0]),
    (5, 1, [0xa1]),
    (5, 23, [0xb7]),
    (5, 24, [0xb8, 0x18]),
    (5, 255, [0xb8, 0xff]),
    (5, 256, [0xb9, 0x01, 0x00]),
    (5, 0xffff, [0xb9, 0xff, 0xff]),
    (5, 0x10000, [0xba, 0x00, 0x01, 0x00, 0x00]),
    (5, 0xffffffff, [0xba, 0xff, 0xff, 0xff, 0xff]),
    (5, 0x100000000, [0xbb, 0x00, 0x00, 0x00, 0x01, 0x00, 0x00, 0x00, 0x00]),
    (5, 0xffffffffffffffff, [0xbb, 0xff, 0xff, 0xff, 0xff, 0xff, 0xff, 0xff, 0xff]),
    (255, 0, [0xf7]),
    (8, 0, [0xf7])]

def cborUIntCases : List (UInt64 × Bytes) :=
  [(0, [0x00]),
    (1, [0x01]),
    (23, [0x17]),
    (24, [0x18, 0x18]),
    (255, [0x18, 0xff]),
    (256, [0x19, 0x01, 0x00]),
    (0xffff, [0x19, 0xff, 0xff]),
    (0x10000, [0x1a, 0x00, 0x01, 0x00, 0x00]),
    (0xffffffff, [0x1a, 0xff, 0xff, 0xff, 0xff]),
    (0x100000000, [0x1b, 0x00, 0x00, 0x00, 0x01, 0x00, 0x00, 0x00, 0x00]),
    (0xffffffffffffffff, [0x1b, 0xff, 0xff, 0xff, 0xff, 0xff, 0xff, 0xff, 0xff])]

/-- Without the case `INT64_MIN`, for which the code relies on signed overflow (C21). -/
def cborIntCases : List (Int64 × Bytes) :=
  [(0, [0x00]),
    (1, [0x01]),
    (23, [0x17]),
    (24, [0x18, 0x18]),
    (255, [0x18, 0xff]),
    (256, [0x19, 0x01, 0x00]),
    (0xffff, [0x19, 0xff, 0xff]),
    (0x10000, [0x1a, 0x00, 0x01, 0x00, 0x00]),
    (0xffffffff, [0x1a, 0xff, 0xff, 0xff, 0xff]),
    (0x100000000, [0x1b, 0x00, 0x00, 0x00, 0x01, 0x00, 0x00, 0x00, 0x00]),
    (9223372036854775807, [0x1b, 0x7f, 0xff, 0xff, 0xff, 0xff, 0xff, 0xff, 0xff]),
    ((-1), [0x20]),
    ((-24), [0x37]),
    ((-25), [0x38, 0x18]),
    ((-256), [0x38, 0xff]),
    ((-257), [0x39, 0x01, 0x00]),
    ((-65536), [0x39, 0xff, 0xff]),
    ((-65537), [0x3a, 0x00, 0x01, 0x00, 0x00]),
    ((-4294967296), [0x3a, 0xff, 0xff, 0xff, 0xff]),
    ((-4294967297), [0x3b, 0x00, 0x00, 0x00, 0x01, 0x00, 0x00, 0x00, 0x00]),
    ((-4670545), [0x3a, 0x00, 0x47, 0x44, 0x50]),
    ((-4670546), [0x3a, 0x00, 0x47, 0x44, 0x51]),
    ((-4670547), [0x3a, 0x00, 0x47, 0x44, 0x52]),
    ((-4670548), [0x3a, 0x00, 0x47, 0x44, 0x53]),
    ((-4670549), [0x3a, 0x00, 0x47, 0x44, 0x54]),
    ((-4670550), [0x3a, 0x00, 0x47, 0x44, 0x55]),
    ((-4670551), [0x3a, 0x00, 0x47, 0x44, 0x56]),
    ((-4670552), [0x3a, 0x00, 0x47, 0x44, 0x57]),
    ((-4670553), [0x3a, 0x00, 0x47, 0x44, 0x58]),
    ((-4670554), [0x3a, 0x00, 0x47, 0x44, 0x59])]

def cborTagCases : List (UInt64 × Bytes) :=
  [(0, [0xc0]),
    (1, [0xc1]),
    (23, [0xd7]),
    (24, [0xd8, 0x18]),
    (255, [0xd8, 0xff]),
    (256, [0xd9, 0x01, 0x00]),
    (0xffff, [0xd9, 0xff, 0xff]),
    (0x10000, [0xda, 0x00, 0x01, 0x00, 0x00]),
    (0xffffffff, [0xda, 0xff, 0xff, 0xff, 0xff]),
    (0x100000000, [0xdb, 0x00, 0x00, 0x00, 0x01, 0x00, 0x00, 0x00, 0x00]),
    (0xffffffffffffffff, [0xdb, 0xff, 0xff, 0xff, 0xff, 0xff, 0xff, 0xff, 0xff])]

def cborArrayCases : List (UInt64 × Bytes) :=
  [(0, [0x80]),
    (1, [0x81]),
    (23, [0x97]),
    (24, [0x98, 0x18]),
    (255, [0x98, 0xff]),
    (256, [0x99, 0x01, 0x00]),
    (0xffff, [0x99, 0xff, 0xff]),
    (0x10000, [0x9a, 0x00, 0x01, 0x00, 0x00]),
    (0xffffffff, [0x9a, 0xff, 0xff, 0xff, 0xff]),
    (0x100000000, [0x9b, 0x00, 0x00, 0x00, 0x01, 0x00, 0x00, 0x00, 0x00]),
    (0xffffffffffffffff, [0x9b, 0xff, 0xff, 0xff, 0xff, 0xff, 0xff, 0xff, 0xff])]

def cborMapCases : List (UInt64 × Bytes) :=
  [(0, [0xa0]),
    (1, [0xa1]),
    (23, [0xb7]),
    (24, [0xb8, 0x18]),
    (255, [0xb8, 0xff]),
    (256, [0xb9, 0x01, 0x00]),
    (0xffff, [0xb9, 0xff, 0xff]),
    (0x10000, [0xba, 0x00, 0x01, 0x00, 0x00]),
    (0xffffffff, [0xba, 0xff, 0xff, 0xff, 0xff]),
    (0x100000000, [0xbb, 0x00, 0x00, 0x00, 0x01, 0x00, 0x00, 0x00, 0x00]),
    (0xffffffffffffffff, [0xbb, 0xff, 0xff, 0xff, 0xff, 0xff, 0xff, 0xff, 0xff])]


/-! ## The harness of the tests -/

/-- Initialize a stream with `n` bytes, render, check that nothing overflowed and read the result. -/
def run (n : Nat) (w : W Unit) : Option Bytes :=
  match w (some (streamInit (some (List.replicate n 0xcc)) (UInt64.ofNat n))) with
  | .ok (_, some s) => if s.bufferOverflow || s.writePositionOverflow then none else callerReads s
  | _ => none

/-- The sizing pass: the number of bytes. -/
def size (w : W Unit) : Option UInt64 :=
  match w (some (streamInit none 0)) with
  | .ok (_, some s) => if s.bufferOverflow && !s.writePositionOverflow then some s.writePosition else none
  | _ => none

/-- `tag_patch_encoded` of `src/core/test/asn1.cpp` 279-295. -/
def tagPatch (t : TagInfo) (encoded : Bytes) : Bytes :=
  match encoded with
  | [] => []
  | b :: rest =>
    match t.type with
    | .noOverride => encoded
    | .implicit => if b = 5 then encoded else ((b &&& 0x20) ||| t.tag.toUInt8 ||| 0x80) :: rest
    | .explicit => if b = 5 then encoded else (0xa0 ||| t.tag.toUInt8) :: UInt8.ofNat encoded.length :: encoded

/-- The three tag infos of the tests. -/
def tagInfos : List TagInfo := [tagInfoNoOverride, tagInfoExplicit 7, tagInfoImplicit 7]

/-- All three tag infos produce the patched encoding. -/
def checkTags (w : TagInfo → W Unit) (expected : Bytes) : Bool :=
  tagInfos.all fun t => run 128 (w t) = some (tagPatch t expected)

/-- `data()` of a vector: NULL if it is empty. -/
def vec (bs : Bytes) : Slice := ⟨UInt64.ofNat bs.length, if bs = [] then none else some ⟨[], bs⟩⟩

/-- A vector with a readable byte on both sides. -/
def vecIn (bs : Bytes) : Slice := ⟨UInt64.ofNat bs.length, if bs = [] then none else some ⟨[0xee], bs ++ [0xee]⟩⟩

/-- `c_str()` of a string, `N20_STR_C`: never NULL and terminated. -/
def str (s : String) : Slice := ⟨UInt64.ofNat (asciiBytes s).length, some ⟨[], asciiBytes s ++ [0]⟩⟩

/-- A stack frame with readable bytes around the local variable. -/
def frame : Frame := ⟨[0xee], [0xee], false⟩

/-! ## `src/core/test/asn1.cpp` -/

/-- `HeaderTest`. -/
example :
    run 128 (asn1Header 0 false 0 0) = some ENCODED_CLASS_0_CONSTRUCTED_FALSE_TAG_0_LEN_0 ∧
    run 128 (asn1Header 1 false 0 0) = some ENCODED_CLASS_1_CONSTRUCTED_FALSE_TAG_0_LEN_0 ∧
    run 128 (asn1Header 0 true 0 0) = some ENCODED_CLASS_0_CONSTRUCTED_TRUE_TAG_0_LEN_0 ∧
    run 128 (asn1Header 1 true 0 0) = some ENCODED_CLASS_1_CONSTRUCTED_TRUE_TAG_0_LEN_0 ∧
    run 128 (asn1Header 0 false 8 0) = some ENCODED_CLASS_0_CONSTRUCTED_FALSE_TAG_8_LEN_0 ∧
    run 128 (asn1Header 0 false 500 0) = some ENCODED_CLASS_0_CONSTRUCTED_FALSE_TAG_500_LEN_0 ∧
    run 128 (asn1Header 0 false 0 8) = some ENCODED_CLASS_0_CONSTRUCTED_FALSE_TAG_0_LEN_8 ∧
    run 128 (asn1Header 0 false 0 500) = some ENCODED_CLASS_0_CONSTRUCTED_FALSE_TAG_0_LEN_500 ∧
    run 128 (asn1Header 2 true 808 450) = some ENCODED_CLASS_2_CONSTRUCTED_TRUE_TAG_808_LEN_450 := by decide +kernel

/-- `HeaderWithContentTest`. -/
example :
    run 128 (asn1HeaderWithContent 0 false 0 none tagInfoNoOverride) = some ENCODED_HEADER_WITH_CONTENT_NOOP ∧
    run 128 (asn1HeaderWithContent 0 false 0 (some (Pure.pure ())) tagInfoNoOverride) =
      some ENCODED_HEADER_WITH_CONTENT_NOOP ∧
    run 128 (asn1HeaderWithContent 0 false 0 (some (prependLocal (List.replicate 5 0))) tagInfoNoOverride) =
      some ENCODED_HEADER_WITH_CONTENT_FIVE_ZEROS ∧
    run 128 (asn1HeaderWithContent 0 false 0 (some (prependLocal (List.replicate 8 0))) tagInfoNoOverride) =
      some ENCODED_HEADER_WITH_CONTENT_EIGHT_ZEROS ∧
    run 128 (asn1HeaderWithContent 0 false 0 (some (prependLocal (List.replicate 8 0))) (tagInfoImplicit 0x555555)) =
      some ENCODED_HEADER_WITH_CONTENT_EIGHT_ZEROS_WITH_IMPLICIT_TAG ∧
    run 128 (asn1HeaderWithContent 0 false 0 (some (prependLocal (List.replicate 8 0))) (tagInfoExplicit 0x555555)) =
      some ENCODED_HEADER_WITH_CONTENT_EIGHT_ZEROS_WITH_EXPLICIT_TAG := by decide +kernel

/-- `NullTest` and `BooleanTest`. -/
example :
    run 128 (asn1Null tagInfoNoOverride) = some ENCODED_NULL ∧
    run 128 (asn1Null (tagInfoImplicit 7)) = some ENCODED_NULL_IMPLICIT_TAG ∧
    run 128 (asn1Null (tagInfoExplicit 7)) = some ENCODED_NULL_EXPLICIT_TAG ∧
    run 128 (asn1Boolean false tagInfoNoOverride) = some ENCODED_FALSE ∧
    run 128 (asn1Boolean true tagInfoNoOverride) = some ENCODED_TRUE := by decide +kernel

/-- The parameters of `IntegerTest`. -/
def integerCases : List (Bytes × Bool × Bytes) :=
  [(BYTES_EMPTY, false, ENCODED_NULL), (BYTES_0, false, ENCODED_0), (BYTES_127, false, ENCODED_127),
   (BYTES_128, false, ENCODED_128), (BYTES_128_PADDED, false, ENCODED_128), (BYTES_256_BIG_ENDIAN, false, ENCODED_256),
   (BYTES_7355608_BIG_ENDIAN, false, ENCODED_7355608), (BYTES_7355608_BIG_ENDIAN_PADDED, false, ENCODED_7355608),
   (BYTES_9223372036854775808_BIG_ENDIAN, false, ENCODED_9223372036854775808),
   (BYTES_MINUS_128_BIG_ENDIAN, true, ENCODED_MINUS_128), (BYTES_MINUS_129_BIG_ENDIAN, true, ENCODED_MINUS_129),
   (BYTES_MINUS_129_BIG_ENDIAN_PADDED, true, ENCODED_MINUS_129)]

/-- `IntegerTest`, both byte orders. -/
example :
    (integerCases.all fun (bytes, twoComplement, expected) =>
      checkTags (asn1Integer (vecIn bytes) false twoComplement) expected) = true ∧
    (integerCases.all fun (bytes, twoComplement, expected) =>
      checkTags (asn1Integer (vecIn bytes.reverse) true twoComplement) expected) = true := by decide +kernel

/-- `Int64Test`. -/
example :
    ([((0 : UInt64), ENCODED_0), (127, ENCODED_127), (128, ENCODED_128), (256, ENCODED_256)].all fun (n, expected) =>
      checkTags (asn1UInt64 frame n) expected) = true ∧
    ([((0 : Int64), ENCODED_0), (127, ENCODED_127), (128, ENCODED_128), (256, ENCODED_256), (-128, ENCODED_MINUS_128),
      (-129, ENCODED_MINUS_129)].all fun (n, expected) => checkTags (asn1Int64 frame n) expected) = true := by decide +kernel

/-- `BitStringTest`. -/
example :
    ([(PROTO_BITS_EMPTY, (0 : UInt64), ENCODED_BITS_EMPTY), (PROTO_BITS, 0, ENCODED_BITS_EMPTY),
      (PROTO_BITS, 16, ENCODED_BITS_16), (PROTO_BITS, 17, ENCODED_BITS_17), (PROTO_BITS, 18, ENCODED_BITS_18),
      (PROTO_BITS, 23, ENCODED_BITS_23), (PROTO_BITS, 24, ENCODED_BITS_24)].all fun (bits, n, expected) =>
      checkTags (asn1Bitstring (vec bits).buffer n) expected) = true := by decide +kernel

/-- `OctetStringTest`. -/
example :
    ([(BYTES_ZERO, ENCODED_BYTES_ZERO), (BYTES_ONE, ENCODED_BYTES_ONE), (BYTES_TWO, ENCODED_BYTES_TWO),
      (BYTES_THREE, ENCODED_BYTES_THREE)].all fun (bytes, expected) =>
      checkTags (asn1OctetString (some (vec bytes))) expected) = true := by decide +kernel

/-- `PrintableStringTest`. -/
example :
    ([(none, ENCODED_STRING_EMPTY), (some (str ""), ENCODED_STRING_EMPTY), (some (str "~"), ENCODED_STRING_NOT_EMPTY),
      (some (str "ABCDEFGHIJKLMNOPQRSTUVWXYZabcdefghijklmnopqrstuvwxyz0123456789 '()+,-./:=?"),
        ENCODED_STRING_FULL_CHARSET)].all fun (s, expected) => checkTags (asn1PrintableString s) expected) = true := by
  decide +kernel

/-- `Utf8StringTest`. -/
example :
    ([(none, ENCODED_UTF8_STRING_EMPTY), (some (str ""), ENCODED_UTF8_STRING_EMPTY),
      (some (str "~"), ENCODED_UTF8_STRING_NOT_EMPTY),
      (some (str "ABCDEFGHIJKLMNOPQRSTUVWXYZabcdefghijklmnopqrstuvwxyz0123456789 '()+,-./:=?"),
        ENCODED_UTF8_FULL_CHARSET)].all fun (s, expected) => checkTags (asn1Utf8String s) expected) = true := by
  decide +kernel

/-- `GeneralizedTimeTest`. -/
example :
    ([(none, ENCODED_NULL), (some (str "00010101000000Z"), ENCODED_TIME_ZERO),
      (some (str "20241127031458Z"), ENCODED_TIME_NOT_ZERO)].all fun (s, expected) =>
      checkTags (asn1GeneralizedTime s) expected) = true := by decide +kernel

/-- `flat` and `nested` of `src/core/test/asn1.cpp`. -/
def flat : W Unit := do
  asn1PrintableString (some (str "flat")) tagInfoNoOverride
  asn1Boolean true tagInfoNoOverride

def nested : W Unit := do
  asn1PrintableString (some (str "nested")) tagInfoNoOverride
  asn1Sequence (some flat) tagInfoNoOverride

/-- `SequenceTest`. -/
example :
    checkTags (asn1Sequence none) ENCODED_SEQUENCE_NULL = true ∧
    checkTags (asn1Sequence (some (Pure.pure ()))) ENCODED_SEQUENCE_NOOP = true ∧
    checkTags (asn1Sequence (some flat)) ENCODED_SEQUENCE_FLAT = true ∧
    checkTags (asn1Sequence (some nested)) ENCODED_SEQUENCE_NESTED = true := by decide +kernel

/-- `ObjectIdentifierTest`. -/
example :
    checkTags (asn1ObjectIdentifier none) ENCODED_NULL = true ∧
    checkTags (asn1ObjectIdentifier (some OID_SHA256_WITH_RSA_ENC)) ENCODED_OID_SHA256_WITH_RSA_ENC = true ∧
    checkTags (asn1ObjectIdentifier (some (mkOid [1, 3, 6, 1, 4, 1, 11129]))) ENCODED_OID_GOOGLE = true ∧
    checkTags (asn1ObjectIdentifier (some { mkOid [] with elemCount := 11 })) ENCODED_NULL = true := by decide +kernel

/-! ## `src/core/test/oid.cpp` -/

example :
    oidEquals none none = .ok true ∧ oidEquals (some (mkOid [1, 2])) none = .ok false ∧
    oidEquals none (some (mkOid [1, 2])) = .ok false ∧
    oidEquals (some (mkOid [1, 2, 3])) (some (mkOid [1, 2, 3])) = .ok true ∧
    oidEquals (some (mkOid [1, 2])) (some (mkOid [1, 2, 3])) = .ok false ∧
    oidEquals (some (mkOid [1, 2, 3])) (some (mkOid [1, 2, 4])) = .ok false ∧
    oidEquals (some OID_RSA_ENCRYPTION) (some OID_RSA_ENCRYPTION) = .ok true ∧
    oidEquals (some OID_RSA_ENCRYPTION) (some OID_SHA256_WITH_RSA_ENC) = .ok false := by decide +kernel

/-! ## `src/core/test/cbor.cpp` -/

example : (cborHeaderCases.all fun (t, n, expected) => run 20 (cborWriteHeader t n) = some expected) = true := by decide +kernel
example : (cborUIntCases.all fun (n, expected) => run 20 (cborWriteUInt n) = some expected) = true := by decide +kernel
example : (cborIntCases.all fun (n, expected) => run 20 (cborWriteInt n) = some expected) = true := by decide +kernel
example : (cborTagCases.all fun (n, expected) => run 20 (cborWriteTag n) = some expected) = true := by decide +kernel
example : (cborArrayCases.all fun (n, expected) => run 20 (cborWriteArrayHeader n) = some expected) = true := by decide +kernel
example : (cborMapCases.all fun (n, expected) => run 20 (cborWriteMapHeader n) = some expected) = true := by decide +kernel

example :
    run 20 cborWriteNull = some [0xf6] ∧ run 20 (cborWriteBool true) = some [0xf5] ∧
    run 20 (cborWriteBool false) = some [0xf4] ∧
    run 20 (cborWriteByteString (vec [1, 2, 3, 4])) = some [0x44, 1, 2, 3, 4] ∧
    run 20 (cborWriteTextString (str "Hello")) = some [0x65, 0x48, 0x65, 0x6c, 0x6c, 0x6f] := by decide +kernel

/-! ## `src/core/test/stream.cpp` -/

/-- Prepend a list of vectors one after the other. -/
def prependAll (l : List Bytes) : W Unit := l.forM fun bs => streamPrepend (some ⟨[], bs⟩) (UInt64.ofNat bs.length)

/-- The overflow flags, the byte count and what can be read. -/
def observe (n : Nat) (w : W Unit) : Option (Bool × Bool × UInt64 × Option Bytes) :=
  match w (some (streamInit (some (List.replicate n 0xcc)) (UInt64.ofNat n))) with
  | .ok (_, some s) => some (s.bufferOverflow, s.writePositionOverflow, s.writePosition,
      if s.bufferOverflow then none else callerReads s)
  | _ => none

/-- `BYTES_TO_PREPEND_SEQUENCE`. -/
def sequenceParts : List Bytes :=
  [[0x6e, 0x65, 0x73, 0x74, 0x65, 0x64], [0x13, 0x06], [0x66, 0x6c, 0x61, 0x74], [0x13, 0x04], [0xff], [0x01, 0x01],
   [0x30, 0x09], [0x30, 0x13]]

/-- `StreamPrepend`. -/
example :
    ([(1, [], false), (2, [], false), (1, [[]], false), (2, [[]], false), (1, [[], []], false), (2, [[], []], false),
      (1, [[5, 0]], true), (2, [[5, 0]], false), (3, [[5, 0]], false), (1, [[], [5, 0], []], true),
      (2, [[], [5, 0], []], false), (3, [[], [5, 0], []], false), (1, sequenceParts, true), (2, sequenceParts, true),
      (10, sequenceParts, true), (20, sequenceParts, true), (21, sequenceParts, false),
      (22, sequenceParts, false)].all fun ((n : Nat), (parts : List Bytes), (overflow : Bool)) =>
      let expected := parts.reverse.flatten
      observe n (prependAll parts) =
        some (overflow, false, UInt64.ofNat expected.length, if overflow then none else some expected)) = true := by
  decide +kernel

/-- `StreamCounterOverflow`. -/
example :
    let p1 := streamPrepend none 0xffffffffffffffff
    let p2 := p1 *> streamPrepend none 1
    let p3 := p2 *> streamPrepend none 0xfffffffffffffffe
    let p4 := p3 *> streamPrepend none 1
    ([(p1, false), (p2, true), (p3, true), (p4, true)].all fun (p, w) =>
      (observe 128 p).map (fun (a, b, _) => (a, b)) = some (true, w)) = true := by
  decide +kernel

/-! ## `src/core/test/x509.cpp` -/

/-- `N20_X509_RDN`. -/
def rdn (o : Oid) (s : String) : Rdn := ⟨some o, str s⟩

/-- `N20_X509_NAME`. -/
def mkName (l : List Rdn) : Name := ⟨UInt64.ofNat l.length, Vector.ofFn fun i => l.getD i ⟨none, Slice.null⟩⟩

/-- `NameTest`. -/
example :
    run 133 (x509Name none) = some ENCODED_NAME_NULL ∧
    run 133 (x509Name (some (mkName []))) = some ENCODED_NAME_EMPTY ∧
    run 133 (x509Name (some (mkName [rdn OID_COUNTRY_NAME "US"]))) = some ENCODED_NAME_ONE ∧
    run 133 (x509Name (some (mkName [rdn OID_COUNTRY_NAME "US", rdn OID_LOCALITY_NAME "Pittsburgh"]))) =
      some ENCODED_NAME_TWO ∧
    run 133 (x509Name (some { mkName [] with elementCount := 9 })) = some ENCODED_NAME_NULL ∧
    run 133 (x509Name (some (mkName [rdn OID_COUNTRY_NAME "US", rdn OID_LOCALITY_NAME "Scranton",
      rdn OID_ORGANIZATION_NAME "Test DICE CA", rdn OID_COMMON_NAME "DICE Layer 00",
      ⟨some OID_SERIAL_NUMBER, vec TEST_SERIAL⟩]))) = some ENCODED_NAME_WITH_SERIAL ∧
    run 133 (x509Name (some (mkName [⟨some OID_SERIAL_NUMBER, ⟨5, none⟩⟩]))) = some ENCODED_NAME_WITH_EMPTY_SERIAL ∧
    run 133 (x509Name (some (mkName [⟨some OID_SERIAL_NUMBER, ⟨0, (str "ignored").buffer⟩⟩]))) =
      some ENCODED_NAME_WITH_EMPTY_SERIAL := by decide +kernel

/-- `EXTENSIONS_ONE[0]`: key usage with the callback `key_usage_content_cb`. -/
def keyUsageExt : Extension := ⟨some OID_KEY_USAGE, true, some (asn1Bitstring (localPtr [5]) 3 tagInfoNoOverride)⟩

/-- `ExtensionTest`. -/
example :
    run 128 (x509Extension none) = some ENCODED_EXTENSIONS_EMPTY ∧
    run 128 (x509Extension (some ⟨0, none⟩)) = some ENCODED_EXTENSIONS_EMPTY ∧
    run 128 (x509Extension (some ⟨1, some [⟨some OID_KEY_USAGE, false, none⟩]⟩)) =
      some ENCODED_EXTENSIONS_ONE_EMPTY_EXTN_VALUE ∧
    run 128 (x509Extension (some ⟨1, some [keyUsageExt]⟩)) = some ENCODED_EXTENSIONS_ONE ∧
    run 128 (x509Extension (some ⟨2, some [keyUsageExt, ⟨some OID_BASIC_CONSTRAINTS, true,
      some (asn1Sequence none tagInfoNoOverride)⟩]⟩)) = some ENCODED_EXTENSIONS_TWO := by decide +kernel

/-- `BasicConstraintsTest`. -/
example :
    run 128 (basicConstraintsContent frame (some ⟨false, false, 0⟩)) =
      some ENCODED_BASIC_CONSTRAINTS_NOT_CA_NO_PATH_LENGTH ∧
    run 128 (basicConstraintsContent frame (some ⟨false, true, 0⟩)) =
      some ENCODED_BASIC_CONSTRAINTS_NOT_CA_NO_PATH_LENGTH ∧
    run 128 (basicConstraintsContent frame (some ⟨true, false, 0⟩)) = some ENCODED_BASIC_CONSTRAINTS_IS_CA_NO_PATH_LENGTH ∧
    run 128 (basicConstraintsContent frame (some ⟨true, true, 0⟩)) = some ENCODED_BASIC_CONSTRAINTS_IS_CA_HAS_PATH_LENGTH ∧
    run 128 (basicConstraintsContent frame (some ⟨true, true, 1⟩)) =
      some ENCODED_BASIC_CONSTRAINTS_IS_CA_HAS_PATH_LENGTH_ONE := by decide +kernel

/-- `KeyUsageTest`. -/
example :
    run 128 (keyUsageContent (some ⟨0, 0⟩)) = some ENCODED_KEY_USAGE_ZERO_BITS ∧
    run 128 (keyUsageContent (some (keyUsageSet 5 (keyUsageSet 0 ⟨0, 0⟩)))) = some ENCODED_KEY_USAGE_SIX_BITS ∧
    run 128 (keyUsageContent (some (keyUsageSet 8 (keyUsageSet 5 (keyUsageSet 0 ⟨0, 0⟩))))) =
      some ENCODED_KEY_USAGE_NINE_BITS ∧
    run 128 (keyUsageContent (some ((List.finRange 9).foldl (fun k i => keyUsageSet i k) ⟨0, 0⟩))) =
      some ENCODED_KEY_USAGE_NINE_BITS_ALL_SET ∧
    run 128 (keyUsageContent (some ⟨0xff, 0xff⟩)) = some ENCODED_KEY_USAGE_NINE_BITS_ALL_SET := by decide +kernel

/-- The zero initialized certificate body. -/
def zeroTbs : Tbs :=
  { serialNumber := Slice.null, signatureAlgorithm := ⟨none, 0, none⟩, issuerName := mkName [],
    validity := ⟨Slice.null, Slice.null⟩, subjectName := mkName [],
    subjectPublicKeyInfo := ⟨⟨none, 0, none⟩, 0, none⟩, extensions := ⟨0, none⟩ }

/-- The certificate body of `CertTBSNonzeroEncoding`. -/
def nonzeroTbs : Tbs :=
  let name := mkName [rdn OID_COUNTRY_NAME "US", rdn OID_LOCALITY_NAME "Scranton", rdn OID_COMMON_NAME "Test DICE CA"]
  { serialNumber := vec (0x7f :: List.replicate 19 0xff), signatureAlgorithm := ⟨some OID_ED25519, 0, none⟩,
    issuerName := name, validity := ⟨str "20200902132526Z", str "20200902132526Z"⟩, subjectName := name,
    subjectPublicKeyInfo := ⟨⟨some OID_ED25519, 0, none⟩, 256, (vec public_key_v).buffer⟩,
    extensions := ⟨1, some [keyUsageExt]⟩ }

/-- `CertTBSTest`. -/
example :
    run 128 (x509CertTbs frame none) = some ENCODED_CERT_TBS_NULL ∧
    run 128 (x509CertTbs frame (some zeroTbs)) = some ENCODED_CERT_TBS_ZERO ∧
    run 256 (x509CertTbs frame (some nonzeroTbs)) = some ENCODED_CERT_TBS_NONZERO := by decide +kernel

/-! ## The tests of the DICE extensions -/

/-- Both passes over one extension.  (The tests use a buffer of 2000 bytes.) -/
def checkExt (e : Extension) (expected : Bytes) : Bool :=
  size (x509Extension (some ⟨1, some [e]⟩)) = some (UInt64.ofNat expected.length) &&
  run 400 (x509Extension (some ⟨1, some [e]⟩)) = some expected

/-- `AURORA_OPEN_DICE_PROFILE`. -/
def profile : Slice := str "Aurora OpenDICE Profile"

/-- `X509ExtOpenDiceInputTest`. -/
example :
    checkExt ⟨some OID_OPEN_DICE_INPUT, true, some (openDiceInputContent frame (some
      ⟨vec CODE_HASH, vec CODE_DESCRIPTOR, Slice.null, vec CONFIGURATION_INLINE, vec AUTHORITY_HASH, vec AUTHORITY_DESCRIPTOR,
        1, profile⟩))⟩ EXTENSION_WITH_INLINE_CONFIGURATION = true ∧
    checkExt ⟨some OID_OPEN_DICE_INPUT, true, some (openDiceInputContent frame (some
      ⟨vec CODE_HASH, vec CODE_DESCRIPTOR, vec CONFIGURATION_HASH, vec CONFIGURATION_DESCRIPTOR, vec AUTHORITY_HASH,
        vec AUTHORITY_DESCRIPTOR, 1, profile⟩))⟩ EXTENSION_WITH_CONFIGURATION_DESCRIPTOR = true ∧
    checkExt ⟨some OID_OPEN_DICE_INPUT, true, some (openDiceInputContent frame (some
      ⟨Slice.null, Slice.null, Slice.null, Slice.null, Slice.null, Slice.null, 0, Slice.null⟩))⟩
      EXTENSION_WITHOUT_OPTIONALS = true ∧
    size (openDiceInputContent frame none) = some 0 := by decide +kernel

/-- `TEST_FWID_LIST`. -/
def fwids : List Fwid := [⟨OID_SHA256, vec TEST_DIGEST_1⟩, ⟨OID_SHA512, vec TEST_DIGEST_2⟩]

/-- The structure with all fields. -/
def tcbInfoAll : TcbInfo :=
  { vendor := str "aurora", model := str "perseus", version := str "1.0.5", svn := 5, layer := 6, index := 7,
    fwids := some fwids, fwidsCount := 2, flags := ⟨#v[0x80, 0x80, 0x00, 0x01]⟩, flagsMask := ⟨#v[0xff, 0x80, 0x00, 0x01]⟩,
    vendorInfo := vec TEST_VENDOR_INFO, type := vec TEST_TYPE }

/-- The structure with the mandatory fields. -/
def tcbInfoSome : TcbInfo :=
  { tcbInfoAll with vendor := Slice.null, model := Slice.null, version := Slice.null, fwids := none, fwidsCount := 0,
                    vendorInfo := Slice.null, type := Slice.null }

/-- `X509ExtTcgTcbInfoTest` and `X509ExtTcgMultiTcbInfoTest`. -/
example :
    checkExt ⟨some OID_TCG_DICE_TCB_INFO, true, some (tcbInfoContent frame (some tcbInfoAll))⟩
      EXPECTED_EXTENSION_WITH_ALL_FIELDS = true ∧
    checkExt ⟨some OID_TCG_DICE_TCB_INFO, true, some (tcbInfoContent frame (some tcbInfoSome))⟩
      EXPECTED_EXTENSION_WITH_SOME_FIELDS = true ∧
    size (tcbInfoContent frame none) = some 0 ∧
    checkExt ⟨some OID_TCG_DICE_MULTI_TCB_INFO, true,
      some (multiTcbInfoContent frame (some ⟨some [tcbInfoAll, tcbInfoSome], 2⟩))⟩ EXPECTED_MULTI_TCB_INFO_EXTENSION = true ∧
    size (multiTcbInfoContent frame none) = some 0 := by decide +kernel

/-- `X509ExtTcgUeidTest` and `X509ExtTcgTcbFreshnessTest`. -/
example :
    checkExt ⟨some OID_TCG_DICE_UEID, false, some (ueidContent (some (vec TEST_UEID)))⟩ EXPECTED_UEID_EXTENSION = true ∧
    size (ueidContent none) = some 0 ∧
    checkExt ⟨some OID_TCG_DICE_TCB_FRESHNESS, true, some (freshnessContent (some (vec TEST_NONCE)))⟩
      EXPECTED_TCB_FRESHNESS_EXTENSION = true ∧
    size (freshnessContent none) = some 0 := by decide +kernel

end Nat20.RepoTests
