import Verif.Spec.Der
/-!
# FIPS 180-4, the SHA-2 hash functions

Written from the standard, for messages that are sequences of octets.  The constants are not copied: they are computed from
the square and cube roots of the first primes.
-/

namespace Nat20.Fips

/-- Primes below 410; there are 80 of them. -/
def isPrime (n : Nat) : Bool := decide (2 ≤ n) && (List.range n).all fun d => decide (d < 2) || decide (n % d ≠ 0)

def primes : List Nat := (List.range 410).filter isPrime

/-- The largest `r < 2 ^ k` with `r ^ e ≤ n`, bit by bit. -/
def iroot (e n : Nat) : Nat → Nat
  | 0 => 0
  | k + 1 =>
    let r := 2 * iroot e (n / 2 ^ e) k
    if (r + 1) ^ e ≤ n then r + 1 else r

/-- The first `w` bits of the fractional part of the `e`-th root of `p`; the integer part must be less than `2 ^ 16`. -/
def rootBits (e w p : Nat) : Nat := iroot e (p * 2 ^ (e * w)) (16 + w) % 2 ^ w

/-- 4.2.2, 4.2.3: the round constants, from the cube roots of the first primes. -/
def roundConstants (w rounds : Nat) : List (BitVec w) := (primes.take rounds).map fun p => BitVec.ofNat w (rootBits 3 w p)

/-- 5.3.3, 5.3.5: square roots of the first eight primes. -/
def initialFirst (w : Nat) : List (BitVec w) := (primes.take 8).map fun p => BitVec.ofNat w (rootBits 2 w p)

/-- 5.3.4: square roots of the ninth through sixteenth primes. -/
def initialSha384 : List (BitVec 64) := ((primes.drop 8).take 8).map fun p => BitVec.ofNat 64 (rootBits 2 64 p)

/-- 5.3.2: the second 32 bits of the fractional parts of the square roots of the ninth through sixteenth primes. -/
def initialSha224 : List (BitVec 32) := ((primes.drop 8).take 8).map fun p => BitVec.ofNat 32 (rootBits 2 64 p)

/-- What distinguishes the two families SHA-224/256 and SHA-384/512. -/
structure Family where
  /-- octets of a word -/
  wordBytes : Nat
  rounds : Nat
  /-- rotation amounts of Σ0, Σ1 -/
  big0 : Nat × Nat × Nat
  big1 : Nat × Nat × Nat
  /-- rotation amounts and shift amount of σ0, σ1 -/
  small0 : Nat × Nat × Nat
  small1 : Nat × Nat × Nat

/-- 4.1.2, 6.2 -/
def family256 : Family := ⟨4, 64, (2, 13, 22), (6, 11, 25), (7, 18, 3), (17, 19, 10)⟩

/-- 4.1.3, 6.4 -/
def family512 : Family := ⟨8, 80, (28, 34, 39), (14, 18, 41), (1, 8, 7), (19, 61, 6)⟩

/-- `n` as `k` octets, most significant first. -/
def toBE (k n : Nat) : Bytes := (List.range k).map fun i => UInt8.ofNat (n / 256 ^ (k - 1 - i))

namespace Family

variable (F : Family)

abbrev w : Nat := 8 * F.wordBytes
abbrev Word := BitVec F.w

/-- 16 words. -/
def blockBytes : Nat := 16 * F.wordBytes

/-- 4.1: Ch, Maj, Σ and σ. -/
def ch (x y z : F.Word) : F.Word := (x &&& y) ^^^ (~~~x &&& z)
def maj (x y z : F.Word) : F.Word := (x &&& y) ^^^ (x &&& z) ^^^ (y &&& z)
def bigSigma (r : Nat × Nat × Nat) (x : F.Word) : F.Word := x.rotateRight r.1 ^^^ x.rotateRight r.2.1 ^^^ x.rotateRight r.2.2
def smallSigma (r : Nat × Nat × Nat) (x : F.Word) : F.Word := x.rotateRight r.1 ^^^ x.rotateRight r.2.1 ^^^ (x >>> r.2.2)

/-- 3.1: the words of an octet string, most significant octet first. -/
def word (block : Bytes) (t : Nat) : F.Word := BitVec.ofNat F.w (Der.fromBE ((block.drop (F.wordBytes * t)).take F.wordBytes))

/-- 6.2.2 step 1, 6.4.2 step 1: the message schedule. -/
def schedule (block : Bytes) (t : Nat) : F.Word :=
  if _h : t < 16 then F.word block t
  else F.smallSigma F.small1 (schedule block (t - 2)) + schedule block (t - 7) +
    F.smallSigma F.small0 (schedule block (t - 15)) + schedule block (t - 16)

/-- The working variables a, ..., h. -/
structure Vars where
  a : F.Word
  b : F.Word
  c : F.Word
  d : F.Word
  e : F.Word
  f : F.Word
  g : F.Word
  h : F.Word

/-- 6.2.2 step 3, 6.4.2 step 3: one round. -/
def round (k wt : F.Word) (v : F.Vars) : F.Vars :=
  let t1 := v.h + F.bigSigma F.big1 v.e + F.ch v.e v.f v.g + k + wt
  let t2 := F.bigSigma F.big0 v.a + F.maj v.a v.b v.c
  ⟨t1 + t2, v.a, v.b, v.c, v.d + t1, v.e, v.f, v.g⟩

/-- The first `n` rounds for one block. -/
def runRounds (block : Bytes) (v : F.Vars) : Nat → F.Vars
  | 0 => v
  | t + 1 => F.round ((roundConstants F.w F.rounds).getD t 0) (F.schedule block t) (runRounds block v t)

/-- A hash value: eight words. -/
abbrev Hash := Vector F.Word 8

/-- 6.2.2, 6.4.2: the next intermediate hash value. -/
def compress (H : F.Hash) (block : Bytes) : F.Hash :=
  let v := F.runRounds block ⟨H[0], H[1], H[2], H[3], H[4], H[5], H[6], H[7]⟩ F.rounds
  #v[v.a + H[0], v.b + H[1], v.c + H[2], v.d + H[3], v.e + H[4], v.f + H[5], v.g + H[6], v.h + H[7]]

/-- Number of zero octets in the padding: the smallest that makes the whole a multiple of the block size.  The length field has
two words. -/
def zeroCount (len : Nat) : Nat := (F.blockBytes - (len + 1 + 2 * F.wordBytes) % F.blockBytes) % F.blockBytes

/-- 5.1: a one bit, zero bits, the length in bits. -/
def pad (m : Bytes) : Bytes := m ++ 0x80 :: (List.replicate (F.zeroCount m.length) 0 ++ toBE (2 * F.wordBytes) (8 * m.length))

/-- 5.2, 6.2.2, 6.4.2: all blocks in order. -/
def absorb (H : F.Hash) (m : Bytes) : F.Hash :=
  if _h : F.blockBytes ≤ m.length ∧ F.blockBytes ≠ 0 then absorb (F.compress H (m.take F.blockBytes)) (m.drop F.blockBytes) else H
termination_by m.length
decreasing_by simp; omega

/-- The concatenation of the words of a hash value. -/
def output (H : F.Hash) : Bytes := (H.toList.map fun x => toBE F.wordBytes x.toNat).flatten

end Family

/-- The four hash functions, with the octets of the result. -/
inductive Alg where
  | sha224
  | sha256
  | sha384
  | sha512
  deriving DecidableEq

def Alg.size : Alg → Nat
  | .sha224 => 28
  | .sha256 => 32
  | .sha384 => 48
  | .sha512 => 64

/-- Octets of a block. -/
def Alg.block : Alg → Nat
  | .sha224 => 64
  | .sha256 => 64
  | .sha384 => 128
  | .sha512 => 128

/-- Eight words as a hash value. -/
def hashOf {F : Family} (l : List F.Word) : F.Hash := Vector.ofFn fun i : Fin 8 => l.getD i.val 0

/-- The SHA-2 hash of a message. -/
def sha2 (a : Alg) (m : Bytes) : Bytes :=
  match a with
  | .sha224 => (family256.output (family256.absorb (hashOf initialSha224) (family256.pad m))).take 28
  | .sha256 => family256.output (family256.absorb (hashOf (initialFirst 32)) (family256.pad m))
  | .sha384 => (family512.output (family512.absorb (hashOf initialSha384) (family512.pad m))).take 48
  | .sha512 => family512.output (family512.absorb (hashOf (initialFirst 64)) (family512.pad m))

end Nat20.Fips
