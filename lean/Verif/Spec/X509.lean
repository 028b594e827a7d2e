import Verif.Spec.Asn1
import Verif.Model.X509
/-!
# X.509 certificates (RFC 5280), written from the RFC

First the abstract field values of a certificate and their DER trees, then which field values the arguments of the library
functions denote.
-/

namespace Nat20.Pki

open Der

/-! ## Field values and their DER trees -/

/-- An OBJECT IDENTIFIER; `none` is the ASN.1 NULL placeholder the library documents for OIDs that cannot be rendered.  The
contents octets are the X.690 ones for standard arcs (`C14_standard_content_partial`). -/
def oidDer : Option (List Nat) → Der
  | none => null
  | some arcs => .prim 0 6 (oidCodeContent arcs)

/-- RFC 5280 4.1.2.4: AttributeTypeAndValue; all values are PrintableStrings. -/
structure Attribute where
  type : Option (List Nat)
  value : Bytes

/-- A RelativeDistinguishedName with one element. -/
def Attribute.der (a : Attribute) : Der := set [sequence [oidDer a.type, printableString a.value]]

/-- An RDNSequence; `none` is the placeholder for a name that cannot be rendered. -/
def nameDer : Option (List Attribute) → Der
  | none => sequence [null]
  | some l => sequence (l.map Attribute.der)

/-- Algorithm parameters. -/
inductive Params where
  | absent
  | null
  | curve (arcs : List Nat)

def Params.ders : Params → List Der
  | .absent => []
  | .null => [Der.null]
  | .curve arcs => [oidDer (some arcs)]

/-- RFC 5280 4.1.1.2: AlgorithmIdentifier. -/
structure Algorithm where
  oid : Option (List Nat)
  params : Params

def Algorithm.der (a : Algorithm) : Der := sequence (oidDer a.oid :: a.params.ders)

/-- RFC 5280 4.1.2.7: SubjectPublicKeyInfo. -/
structure Spki where
  algorithm : Algorithm
  key : List Bool

def Spki.der (k : Spki) : Der := sequence [k.algorithm.der, bitString k.key]

/-- RFC 5280 4.1.2.5: Validity, both as GeneralizedTime. -/
structure Period where
  notBefore : Bytes
  notAfter : Bytes

def Period.der (p : Period) : Der := sequence [generalizedTime p.notBefore, generalizedTime p.notAfter]

/-- RFC 5280 4.1.2.9: Extension; `critical` is DEFAULT FALSE, so DER omits it when false. -/
structure Ext where
  oid : Option (List Nat)
  critical : Bool
  value : Bytes

def Ext.der (e : Ext) : Der :=
  sequence (oidDer e.oid :: ((if e.critical then [boolean true] else []) ++ [octetString e.value]))

/-- The `extensions [3]` field, absent if there are none. -/
def extensionsDers : List Ext → List Der
  | [] => []
  | l => [.cons 2 3 [sequence (l.map Ext.der)]]

/-- A serial number; `none` is the placeholder for one that cannot be rendered. -/
def serialDer : Option Nat → Der
  | none => null
  | some n => integer n

/-- RFC 5280 4.1.2: TBSCertificate. -/
structure TbsValue where
  serial : Option Nat
  signature : Algorithm
  issuer : Option (List Attribute)
  validity : Period
  subject : Option (List Attribute)
  spki : Spki
  extensions : List Ext

def TbsValue.der (t : TbsValue) : Der :=
  sequence ([.cons 2 0 [integer 2], serialDer t.serial, t.signature.der, nameDer t.issuer, t.validity.der,
    nameDer t.subject, t.spki.der] ++ extensionsDers t.extensions)

/-- RFC 5280 4.1: Certificate; without TBS input the library renders an empty sequence in its place. -/
structure CertValue where
  tbs : Option TbsValue
  algorithm : Algorithm
  signature : List Bool

def tbsDer : Option TbsValue → Der
  | none => sequence []
  | some t => t.der

def CertValue.der (c : CertValue) : Der := sequence [tbsDer c.tbs, c.algorithm.der, bitString c.signature]

/-! ## Field values in which all OIDs are standard -/

def ArcsOk (o : Option (List Nat)) : Prop := ∀ arcs, o = some arcs → StandardArcs arcs
def NameOk (n : Option (List Attribute)) : Prop := ∀ l, n = some l → ∀ a ∈ l, ArcsOk a.type
def Params.Ok : Params → Prop
  | .curve arcs => StandardArcs arcs
  | _ => True
def Algorithm.Ok (a : Algorithm) : Prop := ArcsOk a.oid ∧ a.params.Ok
structure TbsValue.Ok (t : TbsValue) : Prop where
  signature : t.signature.Ok
  issuer : NameOk t.issuer
  subject : NameOk t.subject
  spki : t.spki.algorithm.Ok
  extensions : ∀ e ∈ t.extensions, ArcsOk e.oid
structure CertValue.Ok (c : CertValue) : Prop where
  tbs : ∀ t, c.tbs = some t → t.Ok
  algorithm : c.algorithm.Ok

/-! ## Field values denoted by arguments -/

/-- NULL and OIDs claiming more elements than the array has denote no OID. -/
def oidValue : Option Oid → Option (List Nat)
  | none => none
  | some o => if 10 < o.elemCount.toNat then none else some o.arcs

/-- One lower case hexadecimal digit in ASCII. -/
def hexDigit (n : Nat) : UInt8 := if n < 10 then UInt8.ofNat (48 + n) else UInt8.ofNat (97 + (n - 10))

/-- Two lower case hexadecimal digits per byte. -/
def hexString (l : Bytes) : Bytes := l.flatMap fun b => [hexDigit (b.toNat / 16), hexDigit (b.toNat % 16)]

/-- The serialNumber attribute type. -/
def serialNumberArcs : List Nat := [2, 5, 4, 5]

def attributeValue (r : Rdn) : Attribute :=
  ⟨oidValue r.type, if oidValue r.type = some serialNumberArcs then hexString r.value.bytes else r.value.bytes⟩

/-- NULL and names claiming more elements than the array has denote no name. -/
def nameValue : Option Name → Option (List Attribute)
  | none => none
  | some n =>
    if 8 < n.elementCount.toNat then none else some ((n.elements.toList.take n.elementCount.toNat).map attributeValue)

def paramsValue (a : AlgorithmIdentifier) : Params :=
  if a.variant = 1 then .null
  else if a.variant = 2 then
    match oidValue a.ecCurve with
    | none => .null
    | some arcs => .curve arcs
  else .absent

def algorithmValue (a : AlgorithmIdentifier) : Algorithm := ⟨oidValue a.oid, paramsValue a⟩

/-- The first `bits` bits at a pointer; none for NULL. -/
def bitsValue (p : Option Ptr) (bits : UInt64) : List Bool :=
  match p with
  | none => []
  | some p => (bitsOf p.data).take bits.toNat

def spkiValue (k : PublicKeyInfo) : Spki := ⟨algorithmValue k.algorithmIdentifier, bitsValue k.publicKey k.publicKeyBits⟩

/-- The ASCII codes of a text. -/
def ascii (s : String) : Bytes := s.toList.map fun c => UInt8.ofNat c.toNat

def periodValue (v : Validity) : Period :=
  ⟨if v.notBefore.buffer = none then ascii "19700101000000Z" else v.notBefore.bytes,
   if v.notAfter.buffer = none then ascii "99991231235959Z" else v.notAfter.bytes⟩

/-- `content e` is what the callback of extension `e` renders. -/
def extValue (content : Extension → Bytes) (e : Extension) : Ext := ⟨oidValue e.oid, e.critical, content e⟩

def extensionsValue (content : Extension → Bytes) (e : Extensions) : List Ext :=
  match e.extensions with
  | none => []
  | some l => (l.take e.extensionsCount.toNat).map (extValue content)

/-- An empty serial number is zero, otherwise it is an unsigned big-endian number. -/
def serialValue (s : Slice) : Option Nat :=
  if s.size = 0 then some 0 else if s.buffer = none then none else some (fromBE s.bytes)

def tbsValue (content : Extension → Bytes) (t : Tbs) : TbsValue where
  serial := serialValue t.serialNumber
  signature := algorithmValue t.signatureAlgorithm
  issuer := nameValue (some t.issuerName)
  validity := periodValue t.validity
  subject := nameValue (some t.subjectName)
  spki := spkiValue t.subjectPublicKeyInfo
  extensions := extensionsValue content t.extensions

def certValue (content : Extension → Bytes) (x : X509) : CertValue where
  tbs := x.tbs.map (tbsValue content)
  algorithm := algorithmValue x.signatureAlgorithm
  signature := bitsValue x.signature x.signatureBits

/-! ## Legal arguments -/

def NameArg (n : Name) : Prop := n.elementCount.toNat ≤ 8 → ∀ r ∈ n.elements.toList.take n.elementCount.toNat, r.value.Valid

/-- The pointer is NULL or points to enough memory for that many bits, and the number of bits can be rounded up to bytes
without wrapping (`C13_wraps`). -/
def BitsArg (p : Option Ptr) (bits : UInt64) : Prop := ∀ q, p = some q → bits.toNat + 7 < 2 ^ 64 ∧ bits.toNat ≤ 8 * q.data.length

def SpkiArg (k : PublicKeyInfo) : Prop := BitsArg k.publicKey k.publicKeyBits

def ValidityArg (v : Validity) : Prop := v.notBefore.Valid ∧ v.notAfter.Valid

/-- The callback of the extension renders `content`; a NULL callback renders nothing. -/
def Renders (e : Extension) (content : Bytes) : Prop :=
  match e.contentCb with
  | none => content = []
  | some cb => Prepends cb content

/-- All elements announced are accessible and `content` says what the callbacks render. -/
def ExtensionsArg (content : Extension → Bytes) (e : Extensions) : Prop :=
  ∀ l, e.extensions = some l →
    e.extensionsCount.toNat ≤ l.length ∧
    ∀ x ∈ l.take e.extensionsCount.toNat, Renders x (content x)

/-- The serial number is accessible, and so is the byte the code reads in addition when it is zero (`C12_reads_outside`). -/
def SerialArg (fr : Frame) (s : Slice) : Prop :=
  s.Valid ∧ (s.size = 0 → fr.adjacent ≠ []) ∧
  (s.size ≠ 0 → s.buffer ≠ none → s.NeighbourReadable false ∨ fromBE s.bytes ≠ 0)

structure TbsArg (fr : Frame) (content : Extension → Bytes) (t : Tbs) : Prop where
  serial : SerialArg fr t.serialNumber
  issuer : NameArg t.issuerName
  validity : ValidityArg t.validity
  subject : NameArg t.subjectName
  spki : SpkiArg t.subjectPublicKeyInfo
  extensions : ExtensionsArg content t.extensions

structure CertArg (fr : Frame) (content : Extension → Bytes) (x : X509) : Prop where
  tbs : ∀ t, x.tbs = some t → TbsArg fr content t
  signature : BitsArg x.signature x.signatureBits

/-! ## Extension contents -/

/-- RFC 5280 4.2.1.9: BasicConstraints. -/
def basicConstraintsDer (isCa : Bool) (pathLength : Option Nat) : Der :=
  sequence (if isCa then boolean true :: (pathLength.toList.map fun n : Nat => integer n) else [])

end Nat20.Pki
