import Verif.Model.Digest
/-!
# The test vectors of the digest functions

Vectors of `src/crypto/test/test_data/hmac_test_vectors.txt` and `hkdf_test_vectors.txt`, evaluated by the kernel in the model of the
native digest context.  For every algorithm there is an HMAC vector with a key longer than
a block and an HKDF vector; two HMAC vectors have a key as long as a block and two HKDF vectors have several blocks of output.  `Vectors.run` evaluates complete files: all 1275
vectors of the first file and all 1512 of the second agree with the model (see DESIGN.md).
-/

namespace Nat20.Vectors

/-- The value of a hexadecimal digit. -/
def digit (c : Char) : Nat := if c.isDigit then c.toNat - 48 else c.toNat - 87

/-- The octets written as pairs of digits. -/
def unhex : List Char → Bytes
  | a :: b :: r => UInt8.ofNat (16 * digit a + digit b) :: unhex r
  | _ => []

/-- `{v.size(), v.data()}` of a vector. -/
def slice (b : Bytes) : Slice := ⟨UInt64.ofNat b.length, some ⟨[], b⟩⟩

/-- The call succeeded and the first octets are the expected ones. -/
def agrees (x : Except UB Reply) (want : Bytes) : Bool :=
  match x with
  | .ok ⟨.ok, some b, some n⟩ => b.take want.length == want && decide (want.length ≤ n.toNat)
  | _ => false

/-- The call succeeded and the output is the expected one. -/
def agreesKey (x : Except UB (N20Error × Option Bytes)) (want : Bytes) : Bool :=
  match x with
  | .ok (.ok, some b) => b == want
  | _ => false

/-- `HmacTest` (`src/crypto/test/crypto.cpp` 170-190) for one vector. -/
def hmacTest (alg : UInt32) (key msg mac : Bytes) : Bool :=
  agrees (nat20Ctx.hmac alg (slice key) (some ⟨1, some [slice msg]⟩) (some (List.replicate 64 0)) (some 64)) mac

/-- `HkdfTest`, `HkdfExtractTest` and `HkdfExpandTest` (`src/crypto/test/crypto.cpp` 192-250) for one vector. -/
def hkdfTest (alg : UInt32) (ikm salt info prk key : Bytes) : Bool :=
  agrees (nat20Ctx.hkdfExtract alg (slice ikm) (slice salt) (some (List.replicate prk.length 0)) (some (UInt64.ofNat prk.length))) prk &&
  agreesKey (nat20Ctx.hkdfExpand alg (slice prk) (slice info) (UInt64.ofNat key.length) (some (List.replicate key.length 0))) key &&
  agreesKey (nat20Ctx.hkdf alg (slice ikm) (slice salt) (slice info) (UInt64.ofNat key.length) (some (List.replicate key.length 0))) key

/-! ## Complete files -/

/-- The fields of the vectors of a file. -/
def parse (txt : String) : List (List (String × String)) := Id.run do
  let mut recs := #[]
  let mut cur := #[]
  for l in txt.splitOn "\n" do
    if l.trimAscii.isEmpty then
      if cur.size > 0 then recs := recs.push cur.toList; cur := #[]
    else
      match l.splitOn ":" with
      | k :: v :: _ => cur := cur.push (k, v.trimAscii.toString)
      | _ => pure ()
  if cur.size > 0 then recs := recs.push cur.toList
  return recs.toList

/-- `algorithm_parser` (`src/crypto/test/test_vectors.cpp` 25-38). -/
def algNumber (s : String) : UInt32 := if s == "sha224" then 0 else if s == "sha256" then 1 else if s == "sha384" then 2 else 3

/-- Evaluate the vectors of a file: `lake env lean --run` of a file with `def main := Nat20.Vectors.run`, with the arguments `hmac` or
`hkdf` and the file. -/
def run (args : List String) : IO Unit := do
  let field (r : List (String × String)) (k : String) := (r.lookup k).getD "?"
  let octets (r : List (String × String)) (k : String) := unhex (field r k).toList
  let mut good := 0
  let mut bad := 0
  for r in parse (← IO.FS.readFile args[1]!) do
    let alg := algNumber (field r "Alg")
    if if args[0]! == "hmac" then hmacTest alg (octets r "Key") (octets r "Msg") (octets r "Mac")
      else hkdfTest alg (octets r "Ikm") (octets r "Salt") (octets r "Info") (octets r "Prk") (octets r "Key")
    then good := good + 1 else bad := bad + 1; IO.println s!"does not agree: {field r "Name"}"
  IO.println s!"{good} agree, {bad} do not agree"

/-! ## HMAC -/

/-- `HMAC_klen_66_tag_len_14_count_225_alg_sha224`. -/
example : hmacTest 0
    [0x41, 0x1a, 0x36, 0xdc, 0x28, 0xfc, 0x02, 0x5e, 0x37, 0x53, 0xb7, 0x52, 0x5d, 0x1d, 0xe7, 0x59, 0xc6, 0xa6, 0x3e, 0xba, 0xae, 0x09, 0xfd,
    0x04, 0x78, 0xf4, 0xaa, 0xf5, 0xfa, 0xab, 0x06, 0x9b, 0x1c, 0x50, 0x40, 0xb9, 0xa1, 0x61, 0x68, 0x6c, 0x44, 0x82, 0x26, 0x0e, 0x07, 0x7d, 0xac,
    0x5b, 0xc8, 0x87, 0xe9, 0xd2, 0x15, 0xc5, 0x00, 0x5e, 0x41, 0x0e, 0xf8, 0x36, 0xb7, 0xf3, 0xb5, 0x02, 0x8f, 0xfc]
    [0xf6, 0xb8, 0x80, 0x6d, 0x88, 0x83, 0xde, 0x5c, 0xe5, 0x2c, 0xdb, 0xb3, 0x2f, 0xa2, 0xc1, 0x6c, 0x08, 0x4c, 0x6a, 0xc4, 0x49, 0xec, 0x9a,
    0x3f, 0xf7, 0xc9, 0x92, 0xec, 0x73, 0x0d, 0xe1, 0xea, 0xf0, 0x6c, 0x7e, 0x2b, 0x2a, 0x06, 0x14, 0x78, 0x56, 0x8f, 0x9d, 0xb5, 0x54, 0xad, 0x32,
    0x67, 0x2c, 0xa1, 0x21, 0x73, 0xb8, 0x2a, 0x41, 0x28, 0x9e, 0xa6, 0x82, 0x80, 0x82, 0x7b, 0xc8, 0xa3, 0x79, 0xb5, 0xfa, 0xad, 0xc0, 0xf1, 0x55,
    0xb1, 0xae, 0x79, 0x07, 0xfe, 0xe7, 0xb0, 0xf9, 0xa1, 0xd3, 0xb1, 0xec, 0x2b, 0x4e, 0x33, 0xc7, 0xb4, 0xa1, 0xb0, 0x2f, 0x1f, 0xb1, 0xc6, 0x59,
    0xa0, 0x77, 0xdd, 0x1c, 0x7c, 0xb0, 0x0a, 0x4b, 0x10, 0xd6, 0x33, 0x41, 0x15, 0x4e, 0x74, 0xbd, 0x22, 0xe3, 0xc2, 0xf1, 0x72, 0x73, 0xce, 0xd5,
    0xe8, 0xe8, 0x2c, 0xc1, 0x50, 0x6a, 0xb5, 0x3b, 0xe8]
    [0xb3, 0x5f, 0x3a, 0xc1, 0x8e, 0x96, 0x05, 0x06, 0x42, 0x84, 0xa8, 0x01, 0x9b, 0xec] = true := by decide +kernel

/-- `HMAC_klen_64_tag_len_16_count_90_alg_sha256`. -/
example : hmacTest 1
    [0x79, 0xf8, 0x77, 0x34, 0xc4, 0x6c, 0x5a, 0x11, 0xd8, 0x6a, 0xed, 0xea, 0xd2, 0x2e, 0xd3, 0xea, 0x01, 0x57, 0x7a, 0xd4, 0xec, 0xdf, 0x42,
    0x96, 0x96, 0x50, 0xe1, 0x20, 0x00, 0x35, 0x06, 0x76, 0xf0, 0xcf, 0x3c, 0x04, 0xf1, 0x0a, 0x11, 0x33, 0x9b, 0xaf, 0x78, 0x39, 0x14, 0xdb, 0x6d,
    0x35, 0xd7, 0xb0, 0xd7, 0x7b, 0xb4, 0x4a, 0xb2, 0x2c, 0x18, 0xf5, 0x6d, 0x0b, 0x8f, 0x9d, 0x91, 0x8b]
    [0x50, 0x9a, 0x0a, 0x45, 0xa1, 0x51, 0x2b, 0x50, 0x72, 0x47, 0x4b, 0x29, 0x7f, 0x9c, 0x1a, 0x8c, 0x24, 0x89, 0x00, 0x16, 0x14, 0x44, 0x68,
    0x50, 0x4e, 0x24, 0x5f, 0xe9, 0x4d, 0x06, 0x5d, 0x43, 0x7f, 0xef, 0x62, 0x32, 0xf9, 0xf3, 0x45, 0x00, 0x69, 0x55, 0x49, 0xb4, 0x4c, 0xef, 0xf2,
    0x93, 0x61, 0xd4, 0x17, 0xe8, 0x5d, 0x35, 0x37, 0x01, 0xe0, 0x81, 0x11, 0x7a, 0xa8, 0xd0, 0x6e, 0xbe, 0x05, 0x82, 0x42, 0xca, 0x8c, 0x23, 0xf3,
    0x34, 0x10, 0x92, 0xf9, 0x6c, 0xce, 0x63, 0xa7, 0x43, 0xe8, 0x81, 0x48, 0xa9, 0x15, 0x18, 0x6e, 0xbb, 0x96, 0xb2, 0x87, 0xfd, 0x6c, 0xa0, 0xb1,
    0xe3, 0xc8, 0x9b, 0xd0, 0x97, 0xc3, 0xab, 0xdd, 0xf6, 0x4f, 0x48, 0x81, 0xdb, 0x6d, 0xbf, 0xe2, 0xa1, 0xa1, 0xd8, 0xbd, 0xe3, 0xa3, 0xb6, 0xb5,
    0x86, 0x58, 0xfe, 0xea, 0xfa, 0x00, 0x3c, 0xce, 0xbc]
    [0xb5, 0xb0, 0xc4, 0x30, 0x28, 0xe8, 0x16, 0x28, 0xdc, 0xe8, 0x25, 0x17, 0xfa, 0x36, 0xaa, 0x29] = true := by decide +kernel

/-- `HMAC_klen_74_tag_len_16_count_180_alg_sha256`. -/
example : hmacTest 1
    [0x81, 0x5c, 0x2a, 0x91, 0x1a, 0xaf, 0x0f, 0x84, 0x98, 0x70, 0x61, 0x10, 0xa9, 0x5e, 0x6f, 0x9c, 0x26, 0xc3, 0xef, 0x52, 0xa3, 0xb1, 0x37,
    0x81, 0x44, 0x8c, 0xb0, 0x3f, 0xd2, 0xc8, 0x87, 0x52, 0x0d, 0xf4, 0xa5, 0x51, 0x44, 0xf8, 0xe2, 0x06, 0x24, 0x9b, 0x75, 0x17, 0xce, 0x48, 0xaf,
    0xe5, 0x2c, 0x11, 0xea, 0xb5, 0x84, 0xf4, 0xbc, 0x0e, 0x4d, 0x5d, 0x70, 0x61, 0x42, 0xed, 0xb6, 0xf0, 0xb6, 0x7a, 0x99, 0xe8, 0x27, 0x57, 0xb2,
    0xd0, 0x15, 0xd5]
    [0x8b, 0x7f, 0xdf, 0x79, 0x2a, 0x90, 0x21, 0x8f, 0x91, 0x99, 0x8b, 0x08, 0x47, 0x56, 0xf3, 0x2f, 0xf8, 0x14, 0x88, 0x46, 0x6b, 0xcd, 0x66,
    0xce, 0xb4, 0x95, 0x67, 0x02, 0xab, 0x34, 0x3c, 0xa5, 0x9c, 0x15, 0xbd, 0xfd, 0x40, 0x5f, 0x7e, 0x20, 0xec, 0x61, 0xa3, 0x6e, 0x09, 0x33, 0xf5,
    0x5f, 0xc4, 0x9a, 0x35, 0x7f, 0x06, 0x2d, 0xb0, 0xb6, 0xa7, 0xb6, 0x13, 0xcd, 0xdf, 0xdb, 0x81, 0x2e, 0xfd, 0xfe, 0xe3, 0xeb, 0x5b, 0x61, 0x7f,
    0x02, 0x91, 0x8e, 0xcd, 0xe0, 0xe9, 0xf6, 0x85, 0x23, 0x13, 0xd8, 0xfd, 0xa4, 0x1a, 0x64, 0xb2, 0xb5, 0x97, 0x21, 0x24, 0xa7, 0x25, 0x8c, 0xe8,
    0x90, 0x14, 0x02, 0xf8, 0x4a, 0x62, 0xdf, 0x4d, 0xbf, 0xe6, 0xe8, 0xb0, 0x64, 0xcf, 0xe6, 0xcd, 0x04, 0x4d, 0x94, 0x89, 0xbf, 0x8e, 0xbb, 0x95,
    0x52, 0xec, 0x9c, 0x43, 0x99, 0x65, 0x8e, 0x99, 0x52]
    [0x79, 0x66, 0x44, 0x0d, 0xf7, 0x9b, 0x13, 0xe9, 0x5c, 0x41, 0x34, 0x6e, 0xb7, 0x92, 0xf3, 0xec] = true := by decide +kernel

/-- `HMAC_klen_145_tag_len_24_count_240_alg_sha384`. -/
example : hmacTest 2
    [0xdd, 0x90, 0x8e, 0xc0, 0x58, 0xf1, 0x37, 0xa4, 0x4d, 0x76, 0xc0, 0x04, 0x82, 0x1a, 0x47, 0x50, 0x35, 0x76, 0x15, 0x82, 0x0d, 0xe3, 0x2e,
    0x5d, 0x51, 0xdf, 0x25, 0xf2, 0x58, 0xb2, 0x35, 0x69, 0x41, 0x51, 0x8e, 0xfe, 0xe4, 0x82, 0xed, 0x4a, 0x07, 0x41, 0x6f, 0xc4, 0xd6, 0x62, 0xa7,
    0x87, 0x8d, 0x79, 0xee, 0x56, 0x78, 0xf7, 0xfa, 0xdd, 0x1d, 0x95, 0xb3, 0x39, 0xb8, 0xf6, 0x41, 0xbb, 0xe7, 0x87, 0x6a, 0xe9, 0xa7, 0xab, 0x1b,
    0xc6, 0x7f, 0x15, 0x44, 0x54, 0xfb, 0x74, 0xe9, 0x56, 0x5c, 0x56, 0x77, 0x5a, 0x8e, 0x46, 0x54, 0xf7, 0x5a, 0x38, 0xb9, 0x54, 0xdd, 0x28, 0xc4,
    0xe9, 0x39, 0xfd, 0xc9, 0x8a, 0x8a, 0xb3, 0xea, 0xa1, 0x1c, 0xb9, 0xe7, 0xbb, 0xdb, 0x98, 0x37, 0x46, 0x0a, 0xd6, 0x57, 0x98, 0x38, 0x1a, 0x62,
    0x34, 0x70, 0x90, 0xe2, 0x49, 0xb1, 0x8f, 0xe5, 0x7c, 0x9d, 0x7a, 0x54, 0xe7, 0x75, 0xe4, 0x81, 0x62, 0x45, 0xf7, 0xff, 0x01, 0x5c, 0x16, 0xb6,
    0xde, 0xff]
    [0xb9, 0x37, 0x7d, 0x9b, 0xdd, 0xf4, 0x0c, 0xe1, 0x76, 0x28, 0xb4, 0x57, 0x0a, 0xce, 0xd9, 0xe4, 0xb1, 0x32, 0xe6, 0x55, 0xd4, 0xa5, 0x35,
    0xaf, 0x35, 0x75, 0x2f, 0xc3, 0x2f, 0x1c, 0xb4, 0x04, 0x40, 0xb8, 0xbd, 0x96, 0xc4, 0xbb, 0x3f, 0xa7, 0x03, 0xe4, 0x53, 0x02, 0x6e, 0x6e, 0x95,
    0xe1, 0x26, 0x87, 0xc9, 0x03, 0xbe, 0x03, 0xc5, 0xff, 0x42, 0x52, 0x8b, 0xd8, 0x78, 0xaf, 0xb5, 0xd1, 0x65, 0x9b, 0x16, 0x83, 0x13, 0x8a, 0x9e,
    0x2c, 0x92, 0xdc, 0x7e, 0x4a, 0x3d, 0x0e, 0x8d, 0x69, 0x3e, 0x32, 0xea, 0x39, 0x55, 0x9c, 0xe3, 0xe3, 0xd5, 0xdf, 0x16, 0x9d, 0xef, 0xf8, 0xd6,
    0x7d, 0x32, 0xc8, 0xd1, 0x8a, 0x53, 0xc8, 0xef, 0x19, 0x2a, 0xf8, 0x7d, 0x57, 0xfe, 0x18, 0x8a, 0x22, 0x02, 0x1b, 0x91, 0x1d, 0x1f, 0xd9, 0x59,
    0x03, 0xf4, 0x04, 0x1a, 0x3b, 0x1c, 0x5d, 0xe1, 0xad]
    [0x43, 0x5e, 0x4a, 0xc3, 0x7f, 0x87, 0x31, 0x52, 0x15, 0x1b, 0xa0, 0x89, 0xe7, 0xf3, 0x92, 0x5c, 0xcf, 0x37, 0x46, 0xdf, 0x52, 0x5b, 0x41,
    0xcc] = true := by decide +kernel

/-- `HMAC_klen_128_tag_len_32_count_150_alg_sha512`. -/
example : hmacTest 3
    [0x39, 0xca, 0xde, 0x38, 0x95, 0xb0, 0x7a, 0xbb, 0x4c, 0x10, 0x0d, 0x2a, 0xc9, 0x75, 0x86, 0x06, 0x9e, 0xfd, 0x1c, 0xfb, 0xd3, 0x5c, 0x41,
    0x09, 0x7e, 0x23, 0xd1, 0xe1, 0x94, 0x43, 0x90, 0x92, 0xff, 0xcc, 0xd3, 0x64, 0xf1, 0xfb, 0x7d, 0x04, 0x77, 0x74, 0x2d, 0xe2, 0x51, 0xcc, 0xb6,
    0xd8, 0x01, 0x4a, 0xd0, 0x0c, 0x22, 0xef, 0x0d, 0x17, 0xfb, 0xb3, 0x0e, 0x67, 0x54, 0x12, 0xf6, 0xe1, 0x88, 0xc7, 0x1f, 0xcb, 0xdc, 0xd8, 0x0c,
    0xea, 0x0f, 0xd2, 0x9f, 0xe7, 0x33, 0x56, 0x8c, 0xf8, 0xbb, 0xd4, 0x0e, 0xbc, 0xd4, 0x97, 0xd9, 0x66, 0xf9, 0x02, 0x4f, 0x1d, 0xc1, 0x19, 0xf6,
    0xa3, 0xfc, 0x43, 0x2a, 0x35, 0xff, 0x4d, 0x0f, 0xb3, 0x3c, 0xb3, 0xca, 0x01, 0x16, 0x1b, 0xf1, 0xad, 0xf3, 0x23, 0x3f, 0xd2, 0x92, 0x5c, 0x8d,
    0x3c, 0x9f, 0x96, 0xfd, 0xcc, 0x84, 0x5f, 0x79, 0x1e]
    [0xff, 0xb6, 0xb2, 0x07, 0x1a, 0xde, 0x0e, 0xbb, 0xec, 0xdf, 0xe6, 0xdc, 0xc8, 0xcc, 0xd5, 0x2f, 0xae, 0xbb, 0x66, 0xa1, 0x28, 0x1b, 0x1c,
    0x39, 0x72, 0x48, 0xb6, 0x4c, 0xdd, 0x5d, 0xb0, 0xf0, 0x75, 0x4a, 0x0d, 0xb2, 0xe2, 0x26, 0x54, 0x8c, 0x8c, 0xc6, 0xd9, 0x11, 0x03, 0x8e, 0x3d,
    0xeb, 0x9d, 0x87, 0x38, 0x87, 0x61, 0xb2, 0x96, 0x0f, 0x23, 0x9c, 0x80, 0x99, 0xf1, 0x33, 0xfd, 0x9e, 0xae, 0xd8, 0xb9, 0xad, 0xfd, 0xb5, 0x04,
    0x60, 0x61, 0x51, 0x1d, 0x90, 0xa2, 0x61, 0xb1, 0xc5, 0x72, 0xe2, 0x9f, 0xf0, 0x50, 0x64, 0xfe, 0x5d, 0xad, 0xa9, 0x61, 0xe3, 0x4d, 0x6e, 0x59,
    0x5e, 0xf1, 0x89, 0x3c, 0x5f, 0x33, 0x34, 0x25, 0x21, 0xb1, 0xa9, 0x3c, 0xbf, 0x6d, 0xef, 0x38, 0xa5, 0x74, 0xf3, 0x22, 0x44, 0xbe, 0xda, 0x5b,
    0x0b, 0x56, 0x96, 0xe0, 0x92, 0xba, 0xb7, 0xcd, 0x18]
    [0xd4, 0x08, 0x0a, 0xb3, 0x7e, 0x75, 0x98, 0xc7, 0x8f, 0xb4, 0xc5, 0xe4, 0x3e, 0x95, 0x48, 0x30, 0x78, 0xc1, 0xe1, 0x5e, 0x2b, 0x01, 0x5e,
    0xdb, 0x30, 0xa5, 0xdf, 0xe3, 0xc7, 0x39, 0xe5, 0xa9] = true := by decide +kernel

/-- `HMAC_klen_142_tag_len_32_count_300_alg_sha512`. -/
example : hmacTest 3
    [0x1b, 0xca, 0xf9, 0x6d, 0xfd, 0xba, 0xab, 0x10, 0x28, 0x39, 0x68, 0x65, 0xbf, 0xf3, 0xfd, 0x9a, 0x87, 0xa6, 0x04, 0x6e, 0x91, 0x30, 0xaa,
    0xe9, 0x1a, 0xed, 0xb5, 0x4a, 0xaf, 0x3f, 0xc5, 0x42, 0x95, 0x6e, 0xd9, 0x5f, 0x67, 0xb3, 0x16, 0xcb, 0x01, 0x8f, 0xc4, 0x36, 0x9d, 0x61, 0x9a,
    0x11, 0x3c, 0x38, 0x3b, 0xfd, 0x48, 0xe6, 0x00, 0x83, 0x77, 0x56, 0xf8, 0x05, 0xf2, 0x1f, 0x2d, 0xf4, 0xb7, 0x58, 0x29, 0x44, 0x3b, 0xaf, 0xb9,
    0x1d, 0x54, 0xb5, 0xf1, 0xd4, 0x57, 0x7c, 0x70, 0x19, 0x7d, 0x64, 0xe6, 0x72, 0x8c, 0x32, 0xd3, 0xe8, 0xb3, 0x62, 0x91, 0xff, 0xb5, 0xbf, 0x94,
    0xec, 0x4a, 0x30, 0xf1, 0x03, 0xc2, 0xd5, 0x1d, 0x6f, 0xeb, 0x52, 0xf7, 0x25, 0x35, 0x6b, 0x09, 0x1b, 0x14, 0xd2, 0x0b, 0xb4, 0xa6, 0x3c, 0xa9,
    0x7f, 0x96, 0xba, 0x87, 0x22, 0x40, 0x47, 0x81, 0x91, 0x15, 0x9d, 0x37, 0x84, 0x41, 0x4e, 0xc9, 0x27, 0x8c, 0x0f, 0xdf, 0x13, 0x7e, 0x57]
    [0x9d, 0x1c, 0x57, 0xb3, 0xe6, 0x25, 0xd6, 0xa7, 0xf3, 0x84, 0x62, 0x45, 0x9c, 0x44, 0x2e, 0xfd, 0x5d, 0x84, 0x2c, 0x0b, 0x57, 0x6c, 0x31,
    0x04, 0x97, 0x66, 0x54, 0xaf, 0x9b, 0x8a, 0x97, 0x17, 0x12, 0x59, 0xc9, 0xde, 0xe4, 0xaf, 0xaa, 0xd4, 0x72, 0xf3, 0x51, 0xc8, 0x1f, 0x91, 0xcb,
    0x9f, 0x0f, 0xaa, 0x05, 0xa3, 0x2f, 0x0a, 0xeb, 0x1d, 0x75, 0x5a, 0xd2, 0x25, 0x69, 0x96, 0x13, 0xb9, 0xe4, 0xc2, 0xf9, 0x0d, 0x17, 0xd9, 0xde,
    0x22, 0xd0, 0x07, 0x90, 0x9a, 0xf9, 0x17, 0xfa, 0xcb, 0x61, 0x2f, 0x00, 0x12, 0xc0, 0xbb, 0xaa, 0x69, 0xf5, 0xa7, 0x85, 0x3c, 0x91, 0xd1, 0x46,
    0x79, 0x99, 0xbe, 0xb1, 0xe7, 0x88, 0x8c, 0xb9, 0xb8, 0x94, 0x27, 0xe9, 0x61, 0x32, 0xc0, 0x02, 0xa9, 0xdc, 0x7b, 0xe6, 0x00, 0x12, 0x68, 0xb4,
    0x13, 0x9f, 0xb5, 0x35, 0x9d, 0x1d, 0x22, 0x77, 0x80]
    [0xca, 0x7f, 0x6a, 0xbe, 0xd1, 0xc2, 0x25, 0x2f, 0xb7, 0xf0, 0x87, 0x06, 0xd1, 0x19, 0xfe, 0xdd, 0x83, 0xdf, 0x9e, 0x09, 0xc1, 0x2e, 0x48,
    0x12, 0x67, 0xef, 0x73, 0x3b, 0xc0, 0x53, 0xf9, 0x45] = true := by decide +kernel

/-! ## HKDF -/

/-- `hkdf_ikmlen_0_klen_20_saltlen_0_infolen_0_alg_sha224`. -/
example : hkdfTest 0
    []
    []
    []
    [0x5c, 0xe1, 0x4f, 0x72, 0x89, 0x46, 0x62, 0x21, 0x3e, 0x27, 0x48, 0xd2, 0xa6, 0xba, 0x23, 0x4b, 0x74, 0x26, 0x39, 0x10, 0xce, 0xdd, 0xe2,
    0xf5, 0xa9, 0x27, 0x15, 0x24]
    [0xba, 0x93, 0xac, 0x4d, 0x2e, 0xd5, 0x48, 0x68, 0xa9, 0x19, 0x2c, 0x04, 0xca, 0x06, 0x53, 0x66, 0xdc, 0x8d, 0x8d, 0xa8] = true := by decide +kernel

/-- `hkdf_ikmlen_20_klen_64_saltlen_32_infolen_64_alg_sha256`. -/
example : hkdfTest 1
    [0xfb, 0xc1, 0x56, 0xa2, 0x48, 0xc1, 0x80, 0xd6, 0x3e, 0xbf, 0x8b, 0xf7, 0x57, 0x41, 0x32, 0x51, 0x20, 0xd3, 0x3f, 0x60]
    [0x21, 0x62, 0x26, 0x12, 0x5d, 0x75, 0x40, 0xd4, 0xa2, 0x53, 0xc0, 0xc4, 0xec, 0xd3, 0xf3, 0x54, 0x58, 0xef, 0xa0, 0x83, 0xb0, 0xc7, 0xd6,
    0x08, 0x14, 0x65, 0xf2, 0xaa, 0xcc, 0x57, 0x10, 0xbf]
    [0x61, 0x07, 0x09, 0x8d, 0x8a, 0x0e, 0x0f, 0xd0, 0xba, 0xd7, 0xa7, 0x36, 0xd3, 0xc4, 0x6a, 0xac, 0xa7, 0xa0, 0x53, 0x1b, 0x84, 0x23, 0x15,
    0xb7, 0x1d, 0x8e, 0x67, 0xd7, 0x3e, 0xef, 0x5f, 0x33, 0xd3, 0xb3, 0xb1, 0x4f, 0xb3, 0x1c, 0x82, 0x2a, 0x8b, 0x50, 0xd9, 0x80, 0x72, 0xcc, 0x38,
    0x55, 0xa5, 0x84, 0x57, 0x61, 0x6c, 0x35, 0xfb, 0x8e, 0xa7, 0x0e, 0x39, 0x4c, 0x02, 0xfd, 0x1b, 0xc6]
    [0x3f, 0xd0, 0xd2, 0x63, 0x96, 0x82, 0xb1, 0x51, 0xa2, 0x11, 0xa5, 0x0a, 0x74, 0x95, 0x4f, 0xb1, 0x24, 0xf8, 0x85, 0x85, 0x95, 0xbe, 0xbb,
    0x60, 0xbd, 0xd3, 0xe0, 0x0b, 0xda, 0xb6, 0x26, 0x95]
    [0x31, 0xb0, 0x73, 0x99, 0xde, 0x21, 0x0e, 0x0f, 0x5d, 0x11, 0xb0, 0x39, 0x5c, 0xb4, 0x87, 0x9e, 0x1e, 0x60, 0x6b, 0xc9, 0x76, 0xa5, 0x02,
    0x71, 0xb6, 0x0f, 0x33, 0x47, 0xa6, 0x9b, 0x8c, 0x95, 0x5d, 0x12, 0x1c, 0xc8, 0xde, 0xbf, 0xff, 0x1e, 0x22, 0xb4, 0x42, 0x48, 0x50, 0x3a, 0xc8,
    0xb5, 0x02, 0x88, 0x5a, 0xd2, 0x5d, 0x7e, 0x46, 0xaf, 0xe5, 0x07, 0xa4, 0xee, 0x4f, 0x06, 0x0e, 0x53] = true := by decide +kernel

/-- `hkdf_ikmlen_0_klen_20_saltlen_0_infolen_0_alg_sha384`. -/
example : hkdfTest 2
    []
    []
    []
    [0x6c, 0x1f, 0x2e, 0xe9, 0x38, 0xfa, 0xd2, 0xe2, 0x4b, 0xd9, 0x12, 0x98, 0x47, 0x43, 0x82, 0xca, 0x21, 0x8c, 0x75, 0xdb, 0x3d, 0x83, 0xe1,
    0x14, 0xb3, 0xd4, 0x36, 0x77, 0x76, 0xd1, 0x4d, 0x35, 0x51, 0x28, 0x9e, 0x75, 0xe8, 0x20, 0x9c, 0xd4, 0xb7, 0x92, 0x30, 0x28, 0x40, 0x23, 0x4a,
    0xdc]
    [0x47, 0x0c, 0xc6, 0x53, 0x87, 0xca, 0x4a, 0x10, 0xc7, 0xa6, 0x8a, 0x3b, 0x51, 0x48, 0xc8, 0xe5, 0x13, 0xda, 0xa6, 0x31] = true := by decide +kernel

/-- `hkdf_ikmlen_20_klen_64_saltlen_32_infolen_64_alg_sha512`. -/
example : hkdfTest 3
    [0x9d, 0x82, 0xaf, 0xb0, 0x20, 0x0d, 0x0d, 0xe9, 0x86, 0x57, 0x23, 0x3d, 0x7d, 0x10, 0x76, 0x1c, 0x82, 0x4d, 0xbd, 0xdf]
    [0x98, 0x23, 0xae, 0x33, 0xc2, 0xaf, 0xd9, 0x03, 0x49, 0x06, 0x6b, 0x48, 0x51, 0x68, 0x78, 0x03, 0xd1, 0xf9, 0x13, 0xfe, 0xe0, 0x55, 0x0b,
    0xb8, 0xec, 0xf9, 0x4c, 0xeb, 0xbc, 0xc7, 0x94, 0xe0]
    [0xaf, 0x1c, 0xe2, 0xbe, 0x6d, 0x1c, 0x0a, 0x28, 0xba, 0x13, 0xfd, 0x7c, 0x29, 0x95, 0xf5, 0x4b, 0xbb, 0xb9, 0xb2, 0x2c, 0x55, 0xe0, 0x5d,
    0xa3, 0xba, 0xf1, 0xa0, 0x52, 0x47, 0x90, 0x8d, 0x4b, 0xe3, 0xeb, 0x2c, 0xc5, 0x54, 0x6b, 0x55, 0xf3, 0x8c, 0x14, 0x45, 0x85, 0xa3, 0x26, 0xc9,
    0x1f, 0xfc, 0x85, 0xf6, 0x63, 0x51, 0x93, 0x39, 0x46, 0x52, 0xed, 0xde, 0x41, 0x2b, 0x1d, 0x4a, 0xb6]
    [0x7a, 0xf0, 0xec, 0xf6, 0x18, 0x3b, 0xc8, 0xf8, 0xa4, 0xb3, 0x04, 0xc1, 0xd1, 0xb8, 0x05, 0xa9, 0x6d, 0xe5, 0x99, 0x67, 0x87, 0x9a, 0x1a,
    0x57, 0xe3, 0x75, 0x47, 0x39, 0xf6, 0x01, 0x34, 0xa2, 0x50, 0x83, 0x85, 0x9d, 0x7f, 0x74, 0xa0, 0xe0, 0x83, 0x8f, 0x42, 0x18, 0x0a, 0xa7, 0x3c,
    0xe5, 0x5f, 0x41, 0x36, 0x9d, 0x76, 0x69, 0xd1, 0x16, 0xfc, 0x13, 0xf2, 0x02, 0xc8, 0xb2, 0x5d, 0x7a]
    [0xa8, 0x13, 0x92, 0xa1, 0xb5, 0x52, 0x8a, 0x53, 0x0a, 0xf9, 0x81, 0x1b, 0xeb, 0x12, 0x90, 0xe2, 0xf4, 0x65, 0x12, 0x96, 0xb6, 0xb8, 0x89,
    0x9e, 0xcb, 0x32, 0xa7, 0xc8, 0xa7, 0x12, 0x1b, 0x73, 0xe5, 0x15, 0xaa, 0x5a, 0x3e, 0xbe, 0xda, 0x0f, 0xc3, 0xbf, 0x64, 0xe3, 0xae, 0x5f, 0x45,
    0x7b, 0x3b, 0xd4, 0x70, 0xd0, 0x09, 0x0f, 0x3d, 0x07, 0x57, 0x43, 0x68, 0xaa, 0x6a, 0x05, 0xff, 0xbf] = true := by decide +kernel

end Nat20.Vectors
