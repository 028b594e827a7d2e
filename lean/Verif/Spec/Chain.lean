import Verif.Spec.Issue
/-!
# Chains of certificates (RFC 5280 6.1)

Nothing in here refers to the functions that make certificates.
-/

namespace Nat20.Pki

open Der

/-- The names in a certificate. -/
def HasNames (cert : Bytes) (issuer subject : Der) : Prop :=
  ∃ version serial algorithm validity more rest,
    Der.parse cert = some (.cons 0 16 (.cons 0 16 (version :: serial :: algorithm :: issuer :: validity :: subject :: more) :: rest))

/-- The types of keys that can sign: NIST P-256, NIST P-384, Ed25519. -/
def SigningType (type : UInt32) : Prop := type = 1 ∨ type = 2 ∨ type = 3

/-- RFC 5280 6.1: starting with the type, the key and the name of a trust anchor, each certificate is verified with the key and has to be issued in the name of the one before;
its own key and name are used for the next.  The rest of RFC 5280 6.1 (validity periods, policies, constraints) is left out. -/
inductive PathValid (v : Verifier) : UInt32 → Bytes → Der → List Bytes → UInt32 → Bytes → Der → Prop where
  | nil (type : UInt32) (key : Bytes) (name : Der) : PathValid v type key name [] type key name
  | cons {type type' type'' : UInt32} {key key' key'' cert : Bytes} {name name' name'' : Der} {certs : List Bytes} : Verifies v type key cert → HasNames cert name name' →
      SigningType type' → Certifies type' key' cert → PathValid v type' key' name' certs type'' key'' name'' → PathValid v type key name (cert :: certs) type'' key'' name''

end Nat20.Pki
