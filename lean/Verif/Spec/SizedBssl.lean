import Verif.Spec.SizedDigest
import Verif.Model.SizedBssl
/-!
# Calls of the reference context on a platform with another `size_t`, and on one with 64 bits
-/

namespace Nat20.Sized

variable {w : Nat}

/-- A call of a function of the reference context, on a platform with a `size_t` of `w` bits; the first argument is the context. -/
inductive BsslCall (w : Nat) where
  | digest (ctx : Option Unit) (alg : UInt32) (msg : Option (List (GatherList w))) (count : BitVec w) (out : Option Bytes) (size : Option (BitVec w))
  | hmac (ctx : Option Unit) (alg : UInt32) (key : Slice w) (msg : Option (GatherList w)) (out : Option Bytes) (size : Option (BitVec w))
  | hkdf (ctx : Option Unit) (alg : UInt32) (ikm salt info : Slice w) (keyOctets : BitVec w) (out : Option Bytes)
  | extract (ctx : Option Unit) (alg : UInt32) (ikm salt : Slice w) (prk : Option Bytes) (size : Option (BitVec w))
  | expand (ctx : Option Unit) (alg : UInt32) (prk info : Slice w) (keyOctets : BitVec w) (out : Option Bytes)
  | secret (ctx : Option Unit) (secret : Option (Slice w)) (keyOut : Option (Option Nat))
  | kdf (ctx : Option Unit) (keyIn : Option Nat) (type : UInt32) (context : Option (GatherList w)) (keyOut : Option (Option Nat))
  | sign (ctx : Option Unit) (key : Option Nat) (msg : Option (GatherList w)) (out : Option Bytes) (size : Option (BitVec w))
  | publicKey (ctx : Option Unit) (key : Option Nat) (out : Option Bytes) (size : Option (BitVec w))
  | free (ctx : Option Unit) (key : Option Nat)

/-- What a call leaves: the error code, the output buffer and the size (as a number), or the key handle. -/
inductive BsslAnswer where
  | octets (err : N20Error) (out : Option Bytes) (size : Option Nat)
  | key (reply : KeyReply)
  | none_ (err : N20Error)
  deriving DecidableEq

/-- The call on its platform. -/
def BsslCall.run (lib : Lib) : BsslCall w → B BsslAnswer
  | .digest ctx alg msg count out size => (fun r => .octets r.err r.out (r.size.map (·.toNat))) <$> bsslDigest lib ctx alg msg count out size
  | .hmac ctx alg key msg out size => (fun r => .octets r.err r.out (r.size.map (·.toNat))) <$> bsslHmac lib ctx alg key msg out size
  | .hkdf ctx alg ikm salt info n out => (fun r => .octets r.1 r.2 none) <$> bsslHkdf lib ctx alg ikm salt info n out
  | .extract ctx alg ikm salt prk size => (fun r => .octets r.err r.out (r.size.map (·.toNat))) <$> bsslExtract lib ctx alg ikm salt prk size
  | .expand ctx alg prk info n out => (fun r => .octets r.1 r.2 none) <$> bsslExpand lib ctx alg prk info n out
  | .secret ctx s keyOut => .key <$> bsslMakeSecret ctx s keyOut
  | .kdf ctx keyIn type context keyOut => .key <$> bsslKdf lib ctx keyIn type context keyOut
  | .sign ctx key msg out size => (fun r => .octets r.err r.out (r.size.map (·.toNat))) <$> bsslSign lib ctx key msg out size
  | .publicKey ctx key out size => (fun r => .octets r.err r.out (r.size.map (·.toNat))) <$> bsslPublicKey lib ctx key out size
  | .free ctx key => .none_ <$> bsslKeyFree ctx key

/-- The same call, with the same arguments, on a platform with a `size_t` of 64 bits. -/
def BsslCall.runWide (lib : Lib) : BsslCall w → B BsslAnswer
  | .digest ctx alg msg count out size =>
    (fun r => .octets r.err r.out (r.size.map (·.toNat))) <$> Nat20.bsslDigest lib ctx alg (msg.map (·.map GatherList.wide)) (toUInt64 count) out (size.map toUInt64)
  | .hmac ctx alg key msg out size => (fun r => .octets r.err r.out (r.size.map (·.toNat))) <$> Nat20.bsslHmac lib ctx alg key.wide (msg.map GatherList.wide) out (size.map toUInt64)
  | .hkdf ctx alg ikm salt info n out => (fun r => .octets r.1 r.2 none) <$> Nat20.bsslHkdf lib ctx alg ikm.wide salt.wide info.wide (toUInt64 n) out
  | .extract ctx alg ikm salt prk size => (fun r => .octets r.err r.out (r.size.map (·.toNat))) <$> Nat20.bsslExtract lib ctx alg ikm.wide salt.wide prk (size.map toUInt64)
  | .expand ctx alg prk info n out => (fun r => .octets r.1 r.2 none) <$> Nat20.bsslExpand lib ctx alg prk.wide info.wide (toUInt64 n) out
  | .secret ctx s keyOut => .key <$> Nat20.bsslMakeSecret ctx (s.map Slice.wide) keyOut
  | .kdf ctx keyIn type context keyOut => .key <$> Nat20.bsslKdf lib ctx keyIn type (context.map GatherList.wide) keyOut
  | .sign ctx key msg out size => (fun r => .octets r.err r.out (r.size.map (·.toNat))) <$> Nat20.bsslSign lib ctx key (msg.map GatherList.wide) out (size.map toUInt64)
  | .publicKey ctx key out size => (fun r => .octets r.err r.out (r.size.map (·.toNat))) <$> Nat20.bsslPublicKey lib ctx key out (size.map toUInt64)
  | .free ctx key => .none_ <$> bsslKeyFree ctx key

/-- The Ed25519 signatures and public keys of the library have fewer than 65536 octets. -/
def Lib.ShortEd (lib : Lib) : Prop := (∀ seed text, (lib.edSign seed text).length < 65536) ∧ ∀ seed, (lib.edPublic seed).length < 65536

/-- A program that makes at most `n` calls one after the other; each may depend on the answers to the earlier ones, as `next` says. -/
def client (next : List BsslAnswer → Option (BsslCall w)) (run : BsslCall w → B BsslAnswer) : Nat → List BsslAnswer → B (List BsslAnswer)
  | 0, answers => pure answers
  | n + 1, answers =>
    match next answers with
    | none => pure answers
    | some c => do
      let a ← run c
      client next run n (answers ++ [a])

end Nat20.Sized
