import Verif.Spec.Sha2
import Verif.Spec.Stream
import Verif.Model.Digest
/-!
# Specification of the digest context: RFC 2104, RFC 5869 and the meaning of arguments
-/

namespace Nat20

open Fips

/-- The enumerator of an algorithm. -/
def algId : Alg → UInt32
  | .sha224 => 0
  | .sha256 => 1
  | .sha384 => 2
  | .sha512 => 3

/-- RFC 2104, FIPS 198-1: the key is hashed if it is longer than a block, and padded with zeros. -/
def hmacKeyBlock (a : Alg) (key : Bytes) : Bytes :=
  let k := if key.length > a.block then sha2 a key else key
  k ++ List.replicate (a.block - k.length) 0

/-- RFC 2104: H(K xor opad, H(K xor ipad, text)). -/
def hmac (a : Alg) (key msg : Bytes) : Bytes :=
  let K := hmacKeyBlock a key
  sha2 a (K.map (· ^^^ 0x5c) ++ sha2 a (K.map (· ^^^ 0x36) ++ msg))

/-- RFC 5869 2.2: HMAC of the input key material, keyed with the salt; without salt, HashLen zeros. -/
def hkdfExtract (a : Alg) (salt ikm : Bytes) : Bytes := hmac a (if salt = [] then List.replicate a.size 0 else salt) ikm

/-- RFC 5869 2.3: T(i). -/
def hkdfT (a : Alg) (prk info : Bytes) : Nat → Bytes
  | 0 => []
  | i + 1 => hmac a prk (hkdfT a prk info i ++ info ++ [UInt8.ofNat (i + 1)])

/-- T(1) | ... | T(n) -/
def hkdfBlocks (a : Alg) (prk info : Bytes) (n : Nat) : Bytes := ((List.range n).map fun i => hkdfT a prk info (i + 1)).flatten

/-- RFC 5869 2.3: the first L octets of T(1) | ... | T(N), N = ceil(L / HashLen), for L up to 255 * HashLen. -/
def hkdfExpand (a : Alg) (prk info : Bytes) (L : Nat) : Option Bytes :=
  if L ≤ 255 * a.size then some ((hkdfBlocks a prk info ((L + a.size - 1) / a.size)).take L) else none

/-- The slices of a gather list. -/
def GatherList.slices (g : GatherList) : List Slice := (g.list.getD []).take g.count.toNat

/-- The octets of a gather list. -/
def GatherList.bytes (g : GatherList) : Bytes := (g.slices.map Slice.bytes).flatten

/-- The memory a gather list refers to can be read. -/
structure GatherList.Valid (g : GatherList) : Prop where
  list : ∀ l, g.list = some l → g.count.toNat ≤ l.length
  slices : ∀ s ∈ g.slices, s.Valid

/-- No slice announces octets at NULL. -/
def GatherList.NoNullSlice (g : GatherList) : Prop := ∀ s ∈ g.slices, s.buffer = none → s.size = 0

/-- A list of slices at NULL has no elements. -/
def GatherList.NoNullList (g : GatherList) : Prop := g.list = none → g.count = 0

instance (g : GatherList) : Decidable g.NoNullList := by unfold GatherList.NoNullList; exact inferInstance
instance (g : GatherList) : Decidable g.NoNullSlice := by unfold GatherList.NoNullSlice; exact inferInstance

end Nat20
