import Verif.Spec.Keys
import Verif.Spec.KeyApi
import Verif.Spec.X509
/-!
# Verifying certificates (RFC 5280, RFC 3279, RFC 5480, RFC 8410)

What somebody who gets a certificate does with it: it is taken apart as DER, and the signature is checked over the octets of the first element.
Nothing in here refers to the functions that make certificates.
-/

namespace Nat20.Pki

open Der Fips

/-- The verification algorithms: whether `(r, s)` is a signature of a hash under a point, and whether an Ed25519 signature is one of a message
under a public key. -/
structure Verifier where
  ec : Curve → Nat × Nat → Bytes → Nat × Nat → Prop
  ed : Bytes → Bytes → Bytes → Prop

/-- The signatures the library makes are valid under the public keys it computes, and the coordinates of points are below the size of the field. -/
structure Verifier.Accepts (v : Verifier) (lib : Lib) : Prop where
  ec : ∀ c d h n, 1 ≤ d → d < c.order → v.ec c (lib.ecPublic c d) h (lib.ecSign c d h n)
  ed : ∀ seed m, seed.length = 32 → v.ed (lib.edPublic seed) m (lib.edSign seed m)
  point : ∀ c d, (lib.ecPublic c d).1 < 256 ^ c.octets ∧ (lib.ecPublic c d).2 < 256 ^ c.octets

/-- The octets of the first element, and the rest. -/
def splitElement (bs : Bytes) : Option (Bytes × Bytes) :=
  match parseTlv bs with
  | some (_, rest) => some (bs.take (bs.length - rest.length), rest)
  | none => none

/-- The certificate has these three parts: the octets of the TBS certificate, the algorithm, the octets of the signature. -/
def HasParts (cert tbs : Bytes) (algorithm : Der) (signature : Bytes) : Prop :=
  ∃ body r1 alg r2, parseTlv cert = some ((0, true, 16, body), []) ∧ splitElement body = some (tbs, r1) ∧ splitElement r1 = some (alg, r2) ∧
    Der.parse alg = some algorithm ∧ Der.parse r2 = some (.prim 0 3 (0 :: signature))

/-- The TBS certificate has these algorithms and this public key. -/
def HasKey (tbs : Bytes) (algorithm keyAlgorithm : Der) (key : Bytes) : Prop :=
  ∃ version serial issuer validity subject more,
    Der.parse tbs = some (.cons 0 16 (version :: serial :: algorithm :: issuer :: validity :: subject ::
      .cons 0 16 [keyAlgorithm, .prim 0 3 (0 :: key)] :: more))

/-- An OBJECT IDENTIFIER with at least two arcs. -/
def oid (arcs : List Nat) : Der := .prim 0 6 ((oidContent arcs).getD [])

/-- RFC 5758 3.2 and RFC 8410 3: the signature algorithm for a key type; no parameters. -/
def signatureAlgorithm (type : UInt32) : Der :=
  if type = 3 then .cons 0 16 [oid [1, 3, 101, 112]]
  else if type = 1 then .cons 0 16 [oid [1, 2, 840, 10045, 4, 3, 2]]
  else .cons 0 16 [oid [1, 2, 840, 10045, 4, 3, 3]]

/-- RFC 5480 2.1.1 and RFC 8410 3: the algorithm of public keys. -/
def keyAlgorithm (type : UInt32) : Der :=
  if type = 3 then .cons 0 16 [oid [1, 3, 101, 112]]
  else if type = 1 then .cons 0 16 [oid [1, 2, 840, 10045, 2, 1], oid [1, 2, 840, 10045, 3, 1, 7]]
  else .cons 0 16 [oid [1, 2, 840, 10045, 2, 1], oid [1, 3, 132, 0, 34]]

/-- RFC 5480 2.2 (SEC 1 2.3.4): an uncompressed point. -/
def decodePoint (c : Curve) : Bytes → Option (Nat × Nat)
  | 0x04 :: rest => if rest.length = 2 * c.octets then some (fromBE (rest.take c.octets), fromBE (rest.drop c.octets)) else none
  | _ => none

/-- RFC 3279 2.2.3: an ECDSA signature is a SEQUENCE of two INTEGERs, in DER. -/
def IsEcdsaSignature (signature : Bytes) (r s : Nat) : Prop :=
  ∃ a b, Der.parse signature = some (.cons 0 16 [.prim 0 2 a, .prim 0 2 b]) ∧
    MinimalInteger a ∧ MinimalInteger b ∧ twosComplement a = r ∧ twosComplement b = s

/-- The signature is one of the message under the public key as it is in certificates. -/
def SignatureValid (v : Verifier) (type : UInt32) (key message signature : Bytes) : Prop :=
  if type = 3 then v.ed key message signature
  else ∃ c p r s, curveOf type = some c ∧ decodePoint c key = some p ∧ IsEcdsaSignature signature r s ∧ v.ec c p (sha2 c.digest message) (r, s)

/-- The certificate is signed with the key that belongs to the public key. -/
def Verifies (v : Verifier) (type : UInt32) (key cert : Bytes) : Prop :=
  ∃ tbs signature, HasParts cert tbs (signatureAlgorithm type) signature ∧ SignatureValid v type key tbs signature ∧
    ∃ keyAlgorithm subject, HasKey tbs (signatureAlgorithm type) keyAlgorithm subject

/-- The certificate is one for the public key. -/
def Certifies (type : UInt32) (key cert : Bytes) : Prop :=
  ∃ tbs algorithm signature, HasParts cert tbs algorithm signature ∧ HasKey tbs algorithm (keyAlgorithm type) key

/-- The public key as it is in certificates. -/
def certifiedKey (lib : Lib) (key : PKey) : Bytes :=
  match key with
  | .ed25519 _ => publicKeyOf lib key
  | .ec _ _ => 0x04 :: publicKeyOf lib key

/-- The certificate with the fields `t` says, these types of keys, this public key and this signature; `content` is what the callbacks of the extensions
render. -/
def issuedDer (content : Extension → Bytes) (t : Tbs) (issuerType subjectType : UInt32) (key signature : Bytes) : Der :=
  .cons 0 16 [
    .cons 0 16 ([
      .cons 2 0 [integer 2],
      serialDer (serialValue t.serialNumber),
      signatureAlgorithm issuerType,
      nameDer (nameValue (some t.issuerName)),
      (periodValue t.validity).der,
      nameDer (nameValue (some t.subjectName)),
      .cons 0 16 [keyAlgorithm subjectType, .prim 0 3 (0 :: key)]] ++ extensionsDers (extensionsValue content t.extensions)),
    signatureAlgorithm issuerType,
    .prim 0 3 (0 :: signature)]

end Nat20.Pki
