import Verif.Spec.Keys
/-!
# Specification of the key functions of a crypto context, after `include/nat20/crypto.h`
-/

namespace Nat20

open Fips

/-- The error for a gather list argument. -/
def gatherError (g : Option GatherList) : N20Error :=
  match g with
  | none => .nullData
  | some g => if ¬ g.NoNullList then .nullList else if ¬ g.NoNullSlice then .nullSlice else .ok

/-- The key object a handle refers to. -/
def World.object (w : World) (key : Option Nat) : Option BsslKey := key.bind fun p => (w.heap[p]?).join

/-- Handles that may be passed to the functions: NULL, and those of key objects that were not destroyed. -/
def HandleOk (w : World) (key : Option Nat) : Prop := ∀ p, key = some p → ∃ k, Live w p k

/-- `crypto.h` 566-588: the error of `kdf`, in the order of precedence; `keyIn` is the key object, none for NULL. -/
def documentedKdfError (ctx : Option Unit) (keyIn : Option BsslKey) (type : UInt32) (context : Option GatherList) (keyOut : Option (Option Nat)) : N20Error :=
  match ctx, keyIn with
  | none, _ => .invalidContext
  | _, none => .nullKeyIn
  | _, some k =>
    if k.type ≠ 4 then .invalidKey
    else if keyOut = none then .nullKeyOut
    else if gatherError context ≠ .ok then gatherError context
    else if type ≠ 1 ∧ type ≠ 2 ∧ type ≠ 3 ∧ type ≠ 4 then .invalidKeyType
    else .ok

/-- `crypto.h` 600-614: octets of a signature made with a key of a type; CDIs do not sign. -/
def documentedSignatureSize (type : UInt32) : Option UInt64 :=
  if type = 1 then some 64 else if type = 2 then some 96 else if type = 3 then some 64 else none

/-- `crypto.h` 656-668: octets of a public key. -/
def documentedPublicKeySize (type : UInt32) : Option UInt64 :=
  if type = 1 then some 64 else if type = 2 then some 96 else if type = 3 then some 32 else none

/-- `crypto.h` 616-646: the error of `sign`. -/
def documentedSignError (ctx : Option Unit) (key : Option BsslKey) (msg : Option GatherList) (out : Option Bytes) (size : Option UInt64) : N20Error :=
  match ctx, key, size with
  | none, _, _ => .invalidContext
  | _, none, _ => .nullKeyIn
  | _, _, none => .nullSize
  | _, some k, some sz =>
    match documentedSignatureSize k.type with
    | none => .invalidKey
    | some n => if out = none ∨ sz < n then .insufficientBufferSize else gatherError msg

/-- `crypto.h` 683-703: the error of `key_get_public_key`. -/
def documentedPublicKeyError (ctx : Option Unit) (key : Option BsslKey) (out : Option Bytes) (size : Option UInt64) : N20Error :=
  match ctx, key, size with
  | none, _, _ => .invalidContext
  | _, none, _ => .nullKeyIn
  | _, _, none => .nullSize
  | _, some k, some sz =>
    match documentedPublicKeySize k.type with
    | none => .invalidKey
    | some n => if out = none ∨ sz < n then .insufficientBufferSize else .ok

/-- The error of `n20_crypto_boringssl_make_secret`.  `include/nat20/crypto_bssl/crypto.h` 67-91 does not name any; these are the ones the other
functions use for the same mistakes, and the secret must not be empty. -/
def documentedSecretError (ctx : Option Unit) (secret : Option Slice) (keyOut : Option (Option Nat)) : N20Error :=
  match ctx, secret with
  | none, _ => .invalidContext
  | _, none => .nullData
  | _, some s => if s.buffer = none ∨ s.size = 0 then .nullData else if keyOut = none then .nullKeyOut else .ok

/-- The hash function that goes with a curve. -/
def Curve.digest : Curve → Alg
  | .p256 => .sha256
  | .p384 => .sha384

/-- `crypto.h` 600-614: `sig` is a signature of `text` with `key`: for Ed25519 what the library computes; for ECDSA the integers `r` and `s`
the library computes for the hash of the text, each big-endian with as many octets as the curve has. -/
def IsSignature (lib : Lib) (key : PKey) (text sig : Bytes) : Prop :=
  match key with
  | .ed25519 seed => sig = lib.edSign seed text
  | .ec c d => ∃ n, sig = toBE c.octets (lib.ecSign c d (sha2 c.digest text) n).1 ++ toBE c.octets (lib.ecSign c d (sha2 c.digest text) n).2

/-- `crypto.h` 656-668: the public key: for Ed25519 what the library computes, for EC keys the coordinates of the point. -/
def publicKeyOf (lib : Lib) (key : PKey) : Bytes :=
  match key with
  | .ed25519 seed => lib.edPublic seed
  | .ec c d => toBE c.octets (lib.ecPublic c d).1 ++ toBE c.octets (lib.ecPublic c d).2

/-- The effects of `sign` and `key_get_public_key` with a key that yields `need` octets: errors leave the output alone, and the size too, unless
the error is about the size, which is then reported; success writes `need` octets, which satisfy `V`, and reports `need`. -/
def SizedEffects (need : Option UInt64) (V : Bytes → Prop) (out : Option Bytes) (size : Option UInt64) (r : Reply) : Prop :=
  match r.err with
  | .ok => ∃ n d v, need = some n ∧ out = some d ∧ v.length = n.toNat ∧ V v ∧ r.out = some (v ++ d.drop n.toNat) ∧ r.size = some n
  | .insufficientBufferSize => r.out = out ∧ r.size = need
  | _ => r.out = out ∧ r.size = size

/-- All candidates for the private key of an EC key, as far as they are looked at, are to be rejected. -/
def NoPrivateKey (lib : Lib) (type : UInt32) (derived : Bytes) : Prop :=
  ∃ c, curveOf type = some c ∧ ∀ n < lib.patience, ¬ Acceptable c.order (rfcCandidate .sha512 c.order derived n)

/-! ## Histories -/

/-- Calls of the functions that deal with keys. -/
inductive KeyOp where
  | kdf (ctx : Option Unit) (keyIn : Option Nat) (type : UInt32) (context : Option GatherList) (keyOut : Option (Option Nat))
  | sign (ctx : Option Unit) (key : Option Nat) (msg : Option GatherList) (out : Option Bytes) (size : Option UInt64)
  | publicKey (ctx : Option Unit) (key : Option Nat) (out : Option Bytes) (size : Option UInt64)
  | free (ctx : Option Unit) (key : Option Nat)
  | makeSecret (ctx : Option Unit) (secret : Option Slice) (keyOut : Option (Option Nat))

/-- Executing one. -/
def KeyOp.run (lib : Lib) : KeyOp → B N20Error
  | .kdf ctx keyIn type context keyOut => do return (← bsslKdf lib ctx keyIn type context keyOut).1
  | .sign ctx key msg out size => do return (← bsslSign lib ctx key msg out size).err
  | .publicKey ctx key out size => do return (← bsslPublicKey lib ctx key out size).err
  | .free ctx key => bsslKeyFree ctx key
  | .makeSecret ctx secret keyOut => do return (← bsslMakeSecret ctx secret keyOut).1

/-- Calls a program may make: handles are NULL or refer to key objects that were not destroyed, the memory that is passed can be accessed. -/
def KeyOp.Legal (w : World) : KeyOp → Prop
  | .kdf _ keyIn _ context _ => HandleOk w keyIn ∧ ∀ g, context = some g → g.Valid
  | .sign _ key msg out size => HandleOk w key ∧ (∀ g, msg = some g → g.Valid) ∧ ∀ d sz, out = some d → size = some sz → sz.toNat ≤ d.length
  | .publicKey _ key out size => HandleOk w key ∧ ∀ d sz, out = some d → size = some sz → sz.toNat ≤ d.length
  | .free _ key => HandleOk w key
  | .makeSecret _ secret _ => ∀ s, secret = some s → s.Valid

/-- The call destroys the key object. -/
def KeyOp.Destroys (p : Nat) : KeyOp → Prop
  | .free ctx key => ctx = some () ∧ key = some p
  | _ => False

/-- A derivation for which no private key is found. -/
def KeyOp.Stuck (lib : Lib) (w : World) (op : KeyOp) : Prop :=
  ∃ ctx p type g keyOut cdi, op = .kdf ctx (some p) type (some g) keyOut ∧ Live w p ⟨4, .inl cdi⟩ ∧ NoPrivateKey lib type (derivedOctets cdi g.bytes)

/-- Sequences of legal calls that returned, and the errors they returned. -/
inductive History (lib : Lib) : World → List (KeyOp × N20Error) → World → Prop where
  | nil (w : World) : History lib w [] w
  | cons {w w1 w2 : World} {op : KeyOp} {e : N20Error} {ops : List (KeyOp × N20Error)} : op.Legal w → op.run lib w = .ok (e, w1) →
      History lib w1 ops w2 → History lib w ((op, e) :: ops) w2

end Nat20
