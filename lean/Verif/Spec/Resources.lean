import Verif.Model.Resources
import Verif.Spec.KeyApi
/-!
# Which objects of the library exist

Between two calls the library objects that exist are those that belong to the key objects that exist.
-/

namespace Nat20

/-- The library objects `l` belong to the key object at handle `p`: none to a CDI, an `EVP_PKEY` to an Ed25519 key, an `EVP_PKEY` and its `EC_KEY` to an EC key. -/
inductive OwnsObjs (s : RWorld) (p : Nat) : Bytes ⊕ PKey → List Nat → Prop where
  | cdi (bits : Bytes) : s.member p = none → OwnsObjs s p (.inl bits) []
  | ed25519 (seed : Bytes) (i : Nat) : s.member p = some i → s.live i = some ⟨.pkey, none⟩ → OwnsObjs s p (.inr (.ed25519 seed)) [i]
  | ec (curve : Curve) (d : Nat) (i j : Nat) : s.member p = some i → s.live i = some ⟨.pkey, some j⟩ → s.live j = some ⟨.ecKey, none⟩ →
      OwnsObjs s p (.inr (.ec curve d)) [i, j]

/-- All library objects are accounted for. -/
structure RWorld.Accounted (s : RWorld) : Prop where
  /-- numbers that were not given out yet are not in use -/
  fresh : ∀ i, s.next ≤ i → s.live i = none
  /-- every key object has the library objects that it needs -/
  holds : ∀ p k, Live s.world p k → ∃ l, OwnsObjs s p k.body l
  /-- no two key objects share one -/
  disjoint : ∀ p q k k' l l' i, Live s.world p k → Live s.world q k' → OwnsObjs s p k.body l → OwnsObjs s q k'.body l' → i ∈ l → i ∈ l' → p = q
  /-- no library object is lost -/
  complete : ∀ i o, s.live i = some o → ∃ p k l, Live s.world p k ∧ OwnsObjs s p k.body l ∧ i ∈ l

/-- Calls of the reference context. -/
inductive ApiOp where
  | key (op : KeyOp)
  | digest (ctx : Option Unit) (alg : UInt32) (msg : Option (List GatherList)) (count : UInt64) (out : Option Bytes) (size : Option UInt64)
  | hmac (ctx : Option Unit) (alg : UInt32) (key : Slice) (msg : Option GatherList) (out : Option Bytes) (size : Option UInt64)
  | hkdf (ctx : Option Unit) (alg : UInt32) (ikm salt info : Slice) (keyOctets : UInt64) (out : Option Bytes)
  | extract (ctx : Option Unit) (alg : UInt32) (ikm salt : Slice) (prk : Option Bytes) (size : Option UInt64)
  | expand (ctx : Option Unit) (alg : UInt32) (prk info : Slice) (keyOctets : UInt64) (out : Option Bytes)

/-- What a call leaves: the error, and the output, its size and the key handle, as far as there are such parameters. -/
structure ApiReply where
  err : N20Error
  out : Option Bytes := none
  size : Option UInt64 := none
  key : Option (Option Nat) := none
  deriving DecidableEq, Repr

/-- As `ApiReply`. -/
def Reply.api (r : Reply) : ApiReply := ⟨r.err, r.out, r.size, none⟩

/-- As `ApiReply`. -/
def KeyReply.api (r : KeyReply) : ApiReply := { err := r.1, key := r.2 }

/-- As `ApiReply`. -/
def outReply (r : N20Error × Option Bytes) : ApiReply := { err := r.1, out := r.2 }

/-- Executing a call, without a look at the objects (`Model/Boringssl.lean`). -/
def ApiOp.run (lib : Lib) : ApiOp → B ApiReply
  | .key (.kdf ctx keyIn type context keyOut) => do return (← bsslKdf lib ctx keyIn type context keyOut).api
  | .key (.sign ctx k msg out size) => do return (← bsslSign lib ctx k msg out size).api
  | .key (.publicKey ctx k out size) => do return (← bsslPublicKey lib ctx k out size).api
  | .key (.free ctx k) => do return { err := ← bsslKeyFree ctx k }
  | .key (.makeSecret ctx secret keyOut) => do return (← bsslMakeSecret ctx secret keyOut).api
  | .digest ctx alg msg count out size => do return (← bsslDigest lib ctx alg msg count out size).api
  | .hmac ctx alg k msg out size => do return (← bsslHmac lib ctx alg k msg out size).api
  | .hkdf ctx alg ikm salt info n out => do return outReply (← bsslHkdf lib ctx alg ikm salt info n out)
  | .extract ctx alg ikm salt prk size => do return (← bsslExtract lib ctx alg ikm salt prk size).api
  | .expand ctx alg prk info n out => do return outReply (← bsslExpand lib ctx alg prk info n out)

/-- Executing a call, with the objects (`Model/Resources.lean`).  The three HKDF functions take none. -/
def ApiOp.runR (lib : Lib) : ApiOp → R ApiReply
  | .key (.kdf ctx keyIn type context keyOut) => do return (← bsslKdfR lib ctx keyIn type context keyOut).api
  | .key (.sign ctx k msg out size) => do return (← bsslSignR lib ctx k msg out size).api
  | .key (.publicKey ctx k out size) => do return (← bsslPublicKeyR lib ctx k out size).api
  | .key (.free ctx k) => do return { err := ← bsslKeyFreeR ctx k }
  | .key (.makeSecret ctx secret keyOut) => do return (← bsslMakeSecretR ctx secret keyOut).api
  | .digest ctx alg msg count out size => do return (← bsslDigestR lib ctx alg msg count out size).api
  | .hmac ctx alg k msg out size => do return (← bsslHmacR lib ctx alg k msg out size).api
  | .hkdf ctx alg ikm salt info n out => do return outReply (← liftW (bsslHkdf lib ctx alg ikm salt info n out))
  | .extract ctx alg ikm salt prk size => do return (← liftW (bsslExtract lib ctx alg ikm salt prk size)).api
  | .expand ctx alg prk info n out => do return outReply (← liftW (bsslExpand lib ctx alg prk info n out))

/-- Sequences of calls that returned, with any arguments. -/
inductive RHistory (lib : Lib) : RWorld → List (ApiOp × ApiReply) → RWorld → Prop where
  | nil (s : RWorld) : RHistory lib s [] s
  | cons {s s1 s2 : RWorld} {op : ApiOp} {r : ApiReply} {ops : List (ApiOp × ApiReply)} : op.runR lib s = .ok (r, s1) →
      RHistory lib s1 ops s2 → RHistory lib s ((op, r) :: ops) s2

/-- Nothing has happened yet. -/
def RWorld.start : RWorld := ⟨⟨0, []⟩, fun _ => none, 0, fun _ => none⟩

end Nat20
