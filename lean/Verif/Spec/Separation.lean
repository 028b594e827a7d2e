import Verif.Spec.KeyApi
/-!
# Specification: what has to be found to derive one secret twice
-/

namespace Nat20

open Fips

/-- Two different messages for which the first `n` octets of SHA-512 agree. -/
structure Collision (n : Nat) (x y : Bytes) : Prop where
  differ : x ≠ y
  agree : (sha2 .sha512 x).take n = (sha2 .sha512 y).take n

/-- RFC 2104: K xor ipad, the text. -/
def innerMessage (K text : Bytes) : Bytes := (hmacKeyBlock .sha512 K).map (· ^^^ 0x36) ++ text

/-- RFC 2104: K xor opad, the hash of the inner message. -/
def outerMessage (K text : Bytes) : Bytes := (hmacKeyBlock .sha512 K).map (· ^^^ 0x5c) ++ sha2 .sha512 (innerMessage K text)

/-- Two computations of HMAC-SHA-512 in which different messages have the same hash, or different messages have hashes that agree in the first half. -/
def HmacCollision (K text K' text' : Bytes) : Prop :=
  Collision 64 (innerMessage K text) (innerMessage K' text') ∨ Collision 32 (outerMessage K text) (outerMessage K' text')

/-- The computations of HMAC (key and text) in steps d to g of RFC 6979 3.2 for the octets `x`. -/
def startCalls (x : Bytes) : List (Bytes × Bytes) :=
  let V := List.replicate 64 1
  let K := List.replicate 64 0
  let K1 := hmac .sha512 K (V ++ [0x00] ++ x)
  let V1 := hmac .sha512 K1 V
  [(K, V ++ [0x00] ++ x), (K1, V), (K1, V1 ++ [0x01] ++ x), (hmac .sha512 K1 (V1 ++ [0x01] ++ x), V1)]

/-- The computations of HMAC in step h, for groups of up to 512 bits. -/
def attemptCalls (K V : Bytes) : List (Bytes × Bytes) :=
  let V1 := hmac .sha512 K V
  [(K, V), (K, V1 ++ [0x00]), (hmac .sha512 K (V1 ++ [0x00]), V1)]

/-- The computations of HMAC when an EC key is derived: one for the octets, the others in RFC 6979. -/
def HmacCall (q : Nat) (cdi context : Bytes) (call : Bytes × Bytes) : Prop :=
  call = (cdi, context ++ [1]) ∨ call ∈ startCalls (derivedOctets cdi context) ∨
    ∃ n, call ∈ attemptCalls (rfcState .sha512 q (derivedOctets cdi context) n).1 (rfcState .sha512 q (derivedOctets cdi context) n).2

/-- The handle refers to a CDI or to an Ed25519 key, and this is the secret: the octets of the CDI, the 32 octets of RFC 8032. -/
def HasSecret (w : World) (handle : Nat) (secret : Bytes) : Prop := Live w handle ⟨4, .inl secret⟩ ∨ Live w handle ⟨3, .inr (.ed25519 secret)⟩

end Nat20
