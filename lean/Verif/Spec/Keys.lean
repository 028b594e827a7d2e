import Verif.Model.Boringssl
/-!
# Specification of the key operations of the reference context: RFC 6979, key derivation and the meaning of handles
-/

namespace Nat20

open Fips

/-! ## RFC 6979 -/

/-- The number of binary digits. -/
def binaryLength (q : Nat) : Nat := if _h : q = 0 then 0 else binaryLength (q / 2) + 1
termination_by q
decreasing_by omega

/-- RFC 6979 2.3.2: the integer given by the leftmost `qlen` bits. -/
def bits2int (qlen : Nat) (b : Bytes) : Nat := Der.fromBE b / 2 ^ (8 * b.length - qlen)

/-- RFC 6979 2.3.4, 2.3.3: reduced modulo `q`, as `rlen / 8` octets. -/
def bits2octets (q : Nat) (b : Bytes) : Bytes := toBE ((binaryLength q + 7) / 8) (bits2int (binaryLength q) b % q)

/-- RFC 6979 3.2 step h 2: `V = HMAC_K(V); T = T || V` while `T` has less than `qlen` bits; at most `steps` times. -/
def rfcFill (a : Alg) (qlen : Nat) (K : Bytes) : Nat → Bytes → Bytes → Bytes × Bytes
  | 0, V, T => (V, T)
  | steps + 1, V, T => if 8 * T.length < qlen then rfcFill a qlen K steps (hmac a K V) (T ++ hmac a K V) else (V, T)

/-- `K` and `V` after steps b to g; `seed` is what is fed in after `V || 0x00` and `V || 0x01`. -/
def rfcStart (a : Alg) (seed : Bytes) : Bytes × Bytes :=
  let V := List.replicate a.size 1
  let K := List.replicate a.size 0
  let K := hmac a K (V ++ [0x00] ++ seed)
  let V := hmac a K V
  let K := hmac a K (V ++ [0x01] ++ seed)
  let V := hmac a K V
  (K, V)

/-- `V` and `T` at the end of step h 2, given `K` and `V`.  Every repetition adds at least one bit, so `qlen` of them are enough. -/
def rfcOctets (a : Alg) (q : Nat) (st : Bytes × Bytes) : Bytes × Bytes := rfcFill a (binaryLength q) st.1 (binaryLength q) st.2 []

/-- `K` and `V` before attempt `n`. -/
def rfcState (a : Alg) (q : Nat) (seed : Bytes) : Nat → Bytes × Bytes
  | 0 => rfcStart a seed
  | n + 1 =>
    let K := (rfcState a q seed n).1
    let V := (rfcOctets a q (rfcState a q seed n)).1
    let K := hmac a K (V ++ [0x00])
    (K, hmac a K V)

/-- The number tried in attempt `n`. -/
def rfcCandidate (a : Alg) (q : Nat) (seed : Bytes) (n : Nat) : Nat :=
  bits2int (binaryLength q) (rfcOctets a q (rfcState a q seed n)).2

/-- Step h 3: acceptable numbers. -/
def Acceptable (q k : Nat) : Prop := 1 ≤ k ∧ k ≤ q - 1

/-- `k` is the outcome of attempt `n`, the first acceptable one. -/
def IsNonce (a : Alg) (q : Nat) (seed : Bytes) (n k : Nat) : Prop :=
  k = rfcCandidate a q seed n ∧ Acceptable q k ∧ ∀ m < n, ¬ Acceptable q (rfcCandidate a q seed m)

/-- What is fed into the generator: the private key and, if there is one, the message digest. -/
def rfcSeedOctets (a : Alg) (q : Nat) (x : Bytes) (m : Option Bytes) : Bytes :=
  x ++ match m with
    | none => []
    | some m => bits2octets q (sha2 a m)

/-! ## Key derivation -/

/-- The octets a key is made of. -/
def derivedOctets (cdi context : Bytes) : Bytes := (hkdfExpand .sha512 cdi context 32).getD []

/-- The curve of a key type (`include/nat20/crypto.h` 66-99). -/
def curveOf (type : UInt32) : Option Curve := if type = 1 then some .p256 else if type = 2 then some .p384 else none

/-- `k` is the key of a type derived from a CDI in a context: for CDIs and Ed25519 the derived octets are the secret, for EC keys
they are the input of the deterministic generator of RFC 6979. -/
def IsDerived (cdi context : Bytes) (type : UInt32) (k : BsslKey) : Prop :=
  k.type = type ∧
    ((type = 4 ∧ k.body = .inl (derivedOctets cdi context)) ∨
     (type = 3 ∧ k.body = .inr (.ed25519 (derivedOctets cdi context))) ∨
     (∃ c d n, curveOf type = some c ∧ k.body = .inr (.ec c d) ∧ IsNonce .sha512 c.order (derivedOctets cdi context) n d))

/-! ## Handles -/

/-- A key object whose type member says what it is. -/
def KeyOk (k : BsslKey) : Prop :=
  match k.body with
  | .inl _ => k.type = 4
  | .inr (.ed25519 seed) => k.type = 3 ∧ seed.length = 32
  | .inr (.ec c d) => curveOf k.type = some c ∧ 1 ≤ d ∧ d < c.order

/-- All key objects that were not destroyed are. -/
def World.Ok (w : World) : Prop := ∀ (p : Nat) (k : BsslKey), w.heap[p]? = some (some k) → KeyOk k

/-- The handle refers to a key object that was not destroyed. -/
def Live (w : World) (p : Nat) (k : BsslKey) : Prop := w.heap[p]? = some (some k)

/-- `e` reports that a library call between `w` and `w'` failed. -/
def LibFailure (lib : Lib) (w w' : World) (e : N20Error) : Prop :=
  (e = .noResources ∨ e = .implementationSpecific) ∧ ∃ i, w.calls ≤ i ∧ i < w'.calls ∧ lib.fails i = true

/-- `c`, started in `w`, ends without undefined behaviour and leaves key objects alone; its result satisfies `Q`, or it satisfies `F` and
its error reports a failure of the library. -/
def RepliesAt {α : Type} (lib : Lib) (err : α → N20Error) (c : B α) (Q F : α → Prop) (w : World) : Prop :=
  ∃ r w', c w = .ok (r, w') ∧ w'.heap = w.heap ∧ w.calls ≤ w'.calls ∧ (Q r ∨ (F r ∧ LibFailure lib w w' (err r)))

/-- This holds whenever `c` is started. -/
def Replies {α : Type} (lib : Lib) (err : α → N20Error) (c : B α) (Q F : α → Prop) : Prop := ∀ w, RepliesAt lib err c Q F w

/-- What is assumed about the elliptic curve operations of the library. -/
structure Lib.Standard (lib : Lib) : Prop where
  edPublic : ∀ seed, (lib.edPublic seed).length = 32
  edSign : ∀ seed m, (lib.edSign seed m).length = 64
  ecSign : ∀ c d h n, 1 ≤ (lib.ecSign c d h n).1 ∧ (lib.ecSign c d h n).1 < c.order ∧
    1 ≤ (lib.ecSign c d h n).2 ∧ (lib.ecSign c d h n).2 < c.order

end Nat20
