import Verif.Model.Mem
/-!
# Model of `src/crypto/nat20/sha256.c` and `src/crypto/nat20/sha512.c`

The two files have the same text up to the word type, the constants and the block geometry.  The model has the text once, with
what differs collected in `ShaCode`, and cites the lines of both files.
-/

namespace Nat20

/-- What differs between `sha256.c` and `sha512.c`; `w` is the width of a word
(`src/crypto/nat20/sha256.c` 20-226, `src/crypto/nat20/sha512.c` 20-242). -/
structure ShaCode (w : Nat) where
  /-- `j >> 2` resp. `j >> 3` selects a word -/
  shift : Nat
  /-- octets of a block, 64 resp. 128 -/
  block : Nat
  /-- 56 resp. 112 in `if (i > ...)` of finalize -/
  padLimit : Nat
  /-- 56 resp. 120, where the length starts -/
  lengthAt : Nat
  /-- 64 resp. 80 -/
  rounds : Nat
  K : List (BitVec w)
  SIGMA0 : BitVec w → BitVec w
  SIGMA1 : BitVec w → BitVec w
  sigma0 : BitVec w → BitVec w
  sigma1 : BitVec w → BitVec w

/-- `include/nat20/crypto/nat20/sha.h` 64-69 and the corresponding `n20_sha384_sha512_state_s`. -/
structure ShaState (w : Nat) where
  W : Vector (BitVec w) 16
  H : Vector (BitVec w) 8
  fill : UInt32
  total : UInt64

/-! ## Constants -/

/-- `state = {0}` and the assignments to `state.H` (`sha256.c` 21-30, `sha512.c` 21-30). -/
def shaInit {w : Nat} (H : Vector (BitVec w) 8) : ShaState w := ⟨Vector.replicate 16 0, H, 0, 0⟩

/-- `sha256.c` 20-33: `n20_sha256_init`. -/
def sha256Init : ShaState 32 := shaInit #v[
  0x6a09e667, 0xbb67ae85, 0x3c6ef372, 0xa54ff53a,
  0x510e527f, 0x9b05688c, 0x1f83d9ab, 0x5be0cd19]

/-- `sha256.c` 35-48: `n20_sha224_init`. -/
def sha224Init : ShaState 32 := shaInit #v[
  0xc1059ed8, 0x367cd507, 0x3070dd17, 0xf70e5939,
  0xffc00b31, 0x68581511, 0x64f98fa7, 0xbefa4fa4]

/-- `sha512.c` 20-33: `n20_sha512_init`. -/
def sha512Init : ShaState 64 := shaInit #v[
  0x6a09e667f3bcc908, 0xbb67ae8584caa73b, 0x3c6ef372fe94f82b, 0xa54ff53a5f1d36f1,
  0x510e527fade682d1, 0x9b05688c2b3e6c1f, 0x1f83d9abfb41bd6b, 0x5be0cd19137e2179]

/-- `sha512.c` 35-48: `n20_sha384_init`. -/
def sha384Init : ShaState 64 := shaInit #v[
  0xcbbb9d5dc1059ed8, 0x629a292a367cd507, 0x9159015a3070dd17, 0x152fecd8f70e5939,
  0x67332667ffc00b31, 0x8eb44a8768581511, 0xdb0c2e0d64f98fa7, 0x47b5481dbefa4fa4]

/-- `sha256.c` 51-59: `K_256`. -/
def K_256 : List (BitVec 32) := [
  0x428a2f98, 0x71374491, 0xb5c0fbcf, 0xe9b5dba5, 0x3956c25b, 0x59f111f1, 0x923f82a4, 0xab1c5ed5,
  0xd807aa98, 0x12835b01, 0x243185be, 0x550c7dc3, 0x72be5d74, 0x80deb1fe, 0x9bdc06a7, 0xc19bf174,
  0xe49b69c1, 0xefbe4786, 0x0fc19dc6, 0x240ca1cc, 0x2de92c6f, 0x4a7484aa, 0x5cb0a9dc, 0x76f988da,
  0x983e5152, 0xa831c66d, 0xb00327c8, 0xbf597fc7, 0xc6e00bf3, 0xd5a79147, 0x06ca6351, 0x14292967,
  0x27b70a85, 0x2e1b2138, 0x4d2c6dfc, 0x53380d13, 0x650a7354, 0x766a0abb, 0x81c2c92e, 0x92722c85,
  0xa2bfe8a1, 0xa81a664b, 0xc24b8b70, 0xc76c51a3, 0xd192e819, 0xd6990624, 0xf40e3585, 0x106aa070,
  0x19a4c116, 0x1e376c08, 0x2748774c, 0x34b0bcb5, 0x391c0cb3, 0x4ed8aa4a, 0x5b9cca4f, 0x682e6ff3,
  0x748f82ee, 0x78a5636f, 0x84c87814, 0x8cc70208, 0x90befffa, 0xa4506ceb, 0xbef9a3f7, 0xc67178f2]

/-- `sha512.c` 51-71: `K_512`. -/
def K_512 : List (BitVec 64) := [
  0x428a2f98d728ae22, 0x7137449123ef65cd, 0xb5c0fbcfec4d3b2f, 0xe9b5dba58189dbbc,
  0x3956c25bf348b538, 0x59f111f1b605d019, 0x923f82a4af194f9b, 0xab1c5ed5da6d8118,
  0xd807aa98a3030242, 0x12835b0145706fbe, 0x243185be4ee4b28c, 0x550c7dc3d5ffb4e2,
  0x72be5d74f27b896f, 0x80deb1fe3b1696b1, 0x9bdc06a725c71235, 0xc19bf174cf692694,
  0xe49b69c19ef14ad2, 0xefbe4786384f25e3, 0x0fc19dc68b8cd5b5, 0x240ca1cc77ac9c65,
  0x2de92c6f592b0275, 0x4a7484aa6ea6e483, 0x5cb0a9dcbd41fbd4, 0x76f988da831153b5,
  0x983e5152ee66dfab, 0xa831c66d2db43210, 0xb00327c898fb213f, 0xbf597fc7beef0ee4,
  0xc6e00bf33da88fc2, 0xd5a79147930aa725, 0x06ca6351e003826f, 0x142929670a0e6e70,
  0x27b70a8546d22ffc, 0x2e1b21385c26c926, 0x4d2c6dfc5ac42aed, 0x53380d139d95b3df,
  0x650a73548baf63de, 0x766a0abb3c77b2a8, 0x81c2c92e47edaee6, 0x92722c851482353b,
  0xa2bfe8a14cf10364, 0xa81a664bbc423001, 0xc24b8b70d0f89791, 0xc76c51a30654be30,
  0xd192e819d6ef5218, 0xd69906245565a910, 0xf40e35855771202a, 0x106aa07032bbd1b8,
  0x19a4c116b8d2d0c8, 0x1e376c085141ab53, 0x2748774cdf8eeb99, 0x34b0bcb5e19b48a8,
  0x391c0cb3c5c95a63, 0x4ed8aa4ae3418acb, 0x5b9cca4f7763e373, 0x682e6ff3d6b2b8a3,
  0x748f82ee5defb2fc, 0x78a5636f43172f60, 0x84c87814a1f0ab72, 0x8cc702081a6439ec,
  0x90befffa23631e28, 0xa4506cebde82bde9, 0xbef9a3f7b2c67915, 0xc67178f2e372532b,
  0xca273eceea26619c, 0xd186b8c721c0c207, 0xeada7dd6cde0eb1e, 0xf57d4f7fee6ed178,
  0x06f067aa72176fba, 0x0a637dc5a2c898a6, 0x113f9804bef90dae, 0x1b710b35131c471b,
  0x28db77f523047d84, 0x32caab7b40c72493, 0x3c9ebe0a15c9bebc, 0x431d67c49c100d4c,
  0x4cc5d4becb3e42b6, 0x597f299cfc657e2a, 0x5fcb6fab3ad6faec, 0x6c44198c4a475817]

/-! ## Functions -/

/-- `sha256.c` 61, `sha512.c` 73: `ch`. -/
def shaCh {w : Nat} (x y z : BitVec w) : BitVec w := (x &&& y) ^^^ (~~~x &&& z)

/-- `sha256.c` 63, `sha512.c` 75: `majority`. -/
def shaMajority {w : Nat} (x y z : BitVec w) : BitVec w := (x &&& y) ^^^ (x &&& z) ^^^ (y &&& z)

/-- `sha256.c` 65, `sha512.c` 77: `rotr`; only called with `0 < n < w`, for which the shifts are defined. -/
def shaRotr {w : Nat} (x : BitVec w) (n : Nat) : BitVec w := (x >>> n) ||| (x <<< (w - n))

/-- `sha256.c` 67-73: `SIGMA0`, `SIGMA1`, `sigma0`, `sigma1`, and the literals of the file. -/
def sha256Code : ShaCode 32 where
  shift := 2
  block := 64
  padLimit := 56
  lengthAt := 56
  rounds := 64
  K := K_256
  SIGMA0 x := shaRotr x 2 ^^^ shaRotr x 13 ^^^ shaRotr x 22
  SIGMA1 x := shaRotr x 6 ^^^ shaRotr x 11 ^^^ shaRotr x 25
  sigma0 x := shaRotr x 7 ^^^ shaRotr x 18 ^^^ (x >>> 3)
  sigma1 x := shaRotr x 17 ^^^ shaRotr x 19 ^^^ (x >>> 10)

/-- `sha512.c` 79-85: `SIGMA0`, `SIGMA1`, `sigma0`, `sigma1`, and the literals of the file. -/
def sha512Code : ShaCode 64 where
  shift := 3
  block := 128
  padLimit := 112
  lengthAt := 120
  rounds := 80
  K := K_512
  SIGMA0 x := shaRotr x 28 ^^^ shaRotr x 34 ^^^ shaRotr x 39
  SIGMA1 x := shaRotr x 14 ^^^ shaRotr x 18 ^^^ shaRotr x 41
  sigma0 x := shaRotr x 1 ^^^ shaRotr x 8 ^^^ (x >>> 7)
  sigma1 x := shaRotr x 19 ^^^ shaRotr x 61 ^^^ (x >>> 6)

/-- `sha256.c` 75, `sha512.c` 87: `R_INDEX`, computed in `size_t`. -/
def rIndex (i x : Nat) : Fin 8 := Fin.ofNat 8 ((((0 : UInt64) - UInt64.ofNat i) + UInt64.ofNat x) &&& 7).toNat

/-- `sha256.c` 84, `sha512.c` 96: `W_INDEX`. -/
def wIndex (i : Nat) : Fin 16 := Fin.ofNat 16 (i &&& 15)

section
variable {w : Nat} (P : ShaCode w)

/-- `sha256.c` 98-104 and 111-117, `sha512.c` 110-116 and 123-129: one round, `t1` is the word of the schedule.
Simplification: reading `K` past its end gives 0; `K` has `rounds` elements (C39). -/
def shaRound (j : Nat) (t1 : BitVec w) (R : Vector (BitVec w) 8) : Vector (BitVec w) 8 :=
  let t1 := t1 + R[rIndex j 7]
  let t1 := t1 + P.SIGMA1 R[rIndex j 4]
  let t1 := t1 + shaCh R[rIndex j 4] R[rIndex j 5] R[rIndex j 6]
  let t1 := t1 + P.K.getD j 0
  let R := R.set (rIndex j 7) (t1 + P.SIGMA0 R[rIndex j 0] + shaMajority R[rIndex j 0] R[rIndex j 1] R[rIndex j 2])
  R.set (rIndex j 3) (R[rIndex j 3] + t1)

/-- `sha256.c` 95-105, `sha512.c` 107-117: the first `n` of the sixteen rounds that use the block directly. -/
def shaRounds16 (W : Vector (BitVec w) 16) (R : Vector (BitVec w) 8) : Nat → Vector (BitVec w) 8
  | 0 => R
  | j + 1 => shaRound P j W[wIndex j] (shaRounds16 W R j)

/-- `sha256.c` 107-118, `sha512.c` 119-130: `n` further rounds. -/
def shaRoundsExt (s : Vector (BitVec w) 16 × Vector (BitVec w) 8) : Nat → Vector (BitVec w) 16 × Vector (BitVec w) 8
  | 0 => s
  | n + 1 =>
    let (W, R) := shaRoundsExt s n
    let j := 16 + n
    let t1 := W[wIndex j] + (P.sigma1 W[wIndex (j - 2)] + W[wIndex (j - 7)] + P.sigma0 W[wIndex (j - 15)])
    (W.set (wIndex j) t1, shaRound P j t1 R)

/-- `sha256.c` 86-129, `sha512.c` 98-141: `n20_sha256_main`, `n20_sha512_main`.  Erasing `R` and `t1` is in `Model/Steps`. -/
def shaMain (s : ShaState w) : ShaState w :=
  let (W, R) := shaRoundsExt P (s.W, shaRounds16 P s.W s.H 16) (P.rounds - 16)
  { s with W := W, H := Vector.zipWith (· + ·) s.H R, fill := 0 }

/-- `state->W[j >> 2] <<= 8; state->W[j >> 2] |= b;`
(`sha256.c` 144-145, 172-173, 182-183, 197-198, 207-208; `sha512.c` 156-157, 184-185, 194-195, 213-214, 223-224). -/
def shaShiftIn (s : ShaState w) (j : Nat) (b : UInt8) : Except UB (ShaState w) :=
  if h : j >>> P.shift < 16 then
    .ok { s with W := s.W.set (j >>> P.shift) ((s.W[j >>> P.shift] <<< 8) ||| BitVec.ofNat w b.toNat) }
  else .error .oobWrite

/-- `sha256.c` 142-145, `sha512.c` 154-157: the inner loop; the result has the new `j` and the octets left. -/
def shaFill (s : ShaState w) (j : Nat) : Bytes → Except UB (ShaState w × Nat × Bytes)
  | [] => .ok (s, j, [])
  | b :: rest =>
    if j < P.block then do
      let s ← shaShiftIn P s j b
      shaFill s (j + 1) rest
    else .ok (s, j, b :: rest)

/-- `sha256.c` 139-153, `sha512.c` 151-165: the outer loop.  The first argument bounds the number of iterations; it is chosen
such that it is never used up, as every iteration but perhaps the first consumes an octet. -/
def shaUpdateLoop : Nat → ShaState w → Bytes → Except UB (ShaState w)
  | 0, s, _ => .ok s
  | fuel + 1, s, data =>
    if data = [] then .ok s
    else do
      let (s, j, rest) ← shaFill P s s.fill.toNat data
      if j < P.block then .ok { s with fill := UInt32.ofNat j } else shaUpdateLoop fuel (shaMain P s) rest

/-- `sha256.c` 131-154, `sha512.c` 143-166: `n20_sha256_update`, `n20_sha512_update`. -/
def shaUpdate (state : Option (ShaState w)) (data : Slice) : Except UB (Option (ShaState w)) :=
  match state, data.buffer with
  | some s, some p =>
    if p.data.length < data.size.toNat then .error .oobRead
    else do
      let s := { s with total := s.total + data.size }
      let s ← shaUpdateLoop P (data.size.toNat + 1) s (p.data.take data.size.toNat)
      .ok (some s)
  | state, _ => .ok state

/-- `for (; i < limit; ++i)` with the octets `f i` shifted in; `n` is `limit - i`
(`sha256.c` 181-184, 196-199, 206-209; `sha512.c` 193-196, 212-215, 222-225). -/
def shaShiftLoop (f : Nat → UInt8) : Nat → Nat → ShaState w → Except UB (ShaState w)
  | 0, _, s => .ok s
  | n + 1, i, s => do
    let s ← shaShiftIn P s i (f i)
    shaShiftLoop f n (i + 1) s

/-- `sha256.c` 181-188, `sha512.c` 193-200: the case of a block without space for the length. -/
def shaFinishBlock (s : ShaState w) (i : Nat) : Except UB (ShaState w × Nat) :=
  if i > P.padLimit then do
    let s ← shaShiftLoop P (fun _ => 0) (P.block - i) i s
    .ok (shaMain P s, 0)
  else .ok (s, i)

/-- `sha256.c` 204 and 211, `sha512.c` 220 and 227: octet `i` of the length. -/
def shaLengthByte (total : UInt64) (i : Nat) : UInt8 := UInt8.ofNat ((total * 8).toNat >>> (8 * (P.block - 1 - i)))

/-- `sha256.c` 215-217, `sha512.c` 231-233: octet `i` of the digest. -/
def shaDigestByte (H : Vector (BitVec w) 8) (i : Nat) : UInt8 :=
  UInt8.ofNat ((H.toList.getD (i >>> P.shift) 0).toNat >>> (8 * (2 ^ P.shift - 1 - (i &&& (2 ^ P.shift - 1)))))

/-- `sha256.c` 159-218, `sha512.c` 171-234: `n20_sha224_sha256_finalize`, `n20_sha384_sha512_finalize`; `digest` is the
accessible memory at the output pointer.  Returns the new state and the new contents of that memory. -/
def shaFinalize (state : Option (ShaState w)) (digest : Option Bytes) (size : Nat) :
    Except UB (Option (ShaState w) × Option Bytes) :=
  match state with
  | none => .ok (none, digest)
  | some s => do
    let i := s.fill.toNat
    let s ← shaShiftIn P s i 0x80
    let (s, i) ← shaFinishBlock P s (i + 1)
    let s ← shaShiftLoop P (fun _ => 0) (P.lengthAt - i) i s
    let s ← shaShiftLoop P (shaLengthByte P s.total) (P.block - P.lengthAt) P.lengthAt s
    let s := shaMain P s
    match digest with
    | none => .error .nullDeref
    | some d =>
      if d.length < size then .error .oobWrite
      else .ok (some s, some ((List.range size).map (shaDigestByte P s.H) ++ d.drop size))

end

/-- `sha256.c` 131-157: `n20_sha256_update`, of which `n20_sha224_update` is an alias. -/
def sha256Update := shaUpdate sha256Code
/-- `sha512.c` 143-169: `n20_sha512_update`, of which `n20_sha384_update` is an alias. -/
def sha512Update := shaUpdate sha512Code
/-- `sha256.c` 220-222: `n20_sha256_finalize`. -/
def sha256Finalize (s : Option (ShaState 32)) (d : Option Bytes) := shaFinalize sha256Code s d 32
/-- `sha256.c` 224-226: `n20_sha224_finalize`. -/
def sha224Finalize (s : Option (ShaState 32)) (d : Option Bytes) := shaFinalize sha256Code s d 28
/-- `sha512.c` 236-238: `n20_sha512_finalize`. -/
def sha512Finalize (s : Option (ShaState 64)) (d : Option Bytes) := shaFinalize sha512Code s d 64
/-- `sha512.c` 240-242: `n20_sha384_finalize`. -/
def sha384Finalize (s : Option (ShaState 64)) (d : Option Bytes) := shaFinalize sha512Code s d 48

end Nat20
