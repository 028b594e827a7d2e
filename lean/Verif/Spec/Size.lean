import Verif.Spec.Dice
/-!
# How many octets a certificate has

The sizes of DER elements as arithmetic on the sizes of the fields (X.690 8.1.3, RFC 5280 4.1), and what it means that the
fields of one certificate are at most as long as those of another.
-/

namespace Nat20.Size

/-- `w` renders `n` octets: a sizing pass (NULL buffer) reports exactly `n`, or that the count overflowed; a buffer is reported as
too small exactly if it has less than `n` octets, and otherwise `n` octets are reported. -/
structure Renders (w : W Unit) (n : Nat) : Prop where
  sizing : ∀ anySize, ∃ s, w (some (streamInit none anySize)) = .ok ((), some s) ∧
    (streamHasWritePositionOverflow (some s) = true ↔ 2 ^ 64 ≤ n) ∧
    (streamHasWritePositionOverflow (some s) = false → (streamByteCount (some s)).toNat = n)
  buffer : ∀ (mem : Bytes) (size : UInt64), size.toNat ≤ mem.length →
    ∃ s, w (some (streamInit (some mem) size)) = .ok ((), some s) ∧
      (streamHasBufferOverflow (some s) = true ↔ size.toNat < n) ∧
      (streamHasBufferOverflow (some s) = false → (streamByteCount (some s)).toNat = n)

/-- The number of binary digits; zero has none. -/
def bitLength (n : Nat) : Nat := if n = 0 then 0 else Nat.log2 n + 1

/-- X.690 8.1.3 and 10.1: the length octets in front of that many contents octets. -/
def lengthField (content : Nat) : Nat := if content < 128 then 1 else 1 + (bitLength content + 7) / 8

/-- An element with a tag below 31. -/
def element (content : Nat) : Nat := 1 + lengthField content + content

/-- The placeholder 05 00. -/
def null : Nat := 2

/-- X.690 8.3: an INTEGER; `-n-1` needs as many octets as `n`. -/
def integer : Int → Nat
  | .ofNat n => element (bitLength n / 8 + 1)
  | .negSucc n => element (bitLength n / 8 + 1)

/-- X.690 8.19: one octet for the first two arcs and seven bits per octet for each other. -/
def oid : Option Oid → Nat
  | none => null
  | some o =>
    if 10 < o.elemCount.toNat then null
    else element (1 + ((o.arcs.drop 2).map fun a => max 1 ((bitLength a + 6) / 7)).sum)

/-- X.690 8.6: a BIT STRING; NULL is the empty one. -/
def bits (p : Option Ptr) (n : UInt64) : Nat := element (1 + (if p = none then 0 else (n.toNat + 7) / 8))

/-- The octets of an attribute value: two digits per octet for serial numbers. -/
def attributeOctets (r : Rdn) : Nat := (if Pki.oidValue r.type = some [2, 5, 4, 5] then 2 else 1) * r.value.bytes.length

/-- One element of a name. -/
def rdn (r : Rdn) : Nat := element (element (oid r.type + element (attributeOctets r)))

/-- A name. -/
def name (n : Name) : Nat :=
  element (if 8 < n.elementCount.toNat then null else ((n.elements.toList.take n.elementCount.toNat).map rdn).sum)

/-- An AlgorithmIdentifier. -/
def algorithm (a : AlgorithmIdentifier) : Nat :=
  element (oid a.oid + (if a.variant = 1 then null else if a.variant = 2 then oid a.ecCurve else 0))

/-- SubjectPublicKeyInfo. -/
def publicKeyInfo (k : PublicKeyInfo) : Nat := element (algorithm k.algorithmIdentifier + bits k.publicKey k.publicKeyBits)

/-- The octets of a point in time; the default has 15 characters. -/
def timeOctets (s : Slice) : Nat := if s.buffer = none then 15 else s.bytes.length

/-- Validity. -/
def validity (v : Validity) : Nat := element (element (timeOctets v.notBefore) + element (timeOctets v.notAfter))

/-- The serial number. -/
def serial (s : Slice) : Nat :=
  if s.size = 0 then integer 0 else if s.buffer = none then null else integer (Der.fromBE s.bytes)

/-- One extension; `content e` is the number of octets the callback of `e` renders. -/
def extension (content : Extension → Nat) (e : Extension) : Nat :=
  element (oid e.oid + (if e.critical then 3 else 0) + element (content e))

/-- The announced elements of the list of extensions. -/
def announced (e : Extensions) : List Extension := (e.extensions.getD []).take e.extensionsCount.toNat

/-- The field `extensions [3]`, absent if there are none. -/
def extensions (content : Extension → Nat) (e : Extensions) : Nat :=
  if announced e = [] then 0 else element (element ((announced e).map (extension content)).sum)

/-- TBSCertificate; the version has 5 octets. -/
def tbs (content : Extension → Nat) (t : Tbs) : Nat :=
  element (5 + serial t.serialNumber + algorithm t.signatureAlgorithm + name t.issuerName + validity t.validity + name t.subjectName +
    publicKeyInfo t.subjectPublicKeyInfo + extensions content t.extensions)

/-- Certificate. -/
def certificate (content : Extension → Nat) (x : X509) : Nat :=
  element ((match x.tbs with | none => element 0 | some t => tbs content t) + algorithm x.signatureAlgorithm + bits x.signature x.signatureBits)

/-! ## Extension contents -/

/-- A member that is present unless its buffer is NULL. -/
def optional (s : Slice) (size : Nat → Nat) : Nat := if s.buffer = none then 0 else size s.bytes.length

/-- Explicitly tagged string. -/
def explicitString (n : Nat) : Nat := element (element n)

/-- BasicConstraints. -/
def basicConstraints (bc : BasicConstraints) : Nat :=
  element (if bc.isCa then 3 + (if bc.hasPathLength then integer bc.pathLength.toNat else 0) else 0)

/-- OpenDiceInput. -/
def openDiceInput (i : OpenDiceInput) : Nat :=
  element (optional i.codeHash explicitString + optional i.codeDescriptor explicitString + optional i.configurationHash explicitString +
    optional i.configurationDescriptor explicitString + optional i.authorityHash explicitString + optional i.authorityDescriptor explicitString +
    element (integer i.mode.toNat) + optional i.profileName explicitString)

/-- FWID. -/
def fwid (f : Fwid) : Nat := element (oid (some f.hashAlgo) + element f.digest.bytes.length)

/-- The list of firmware identifiers. -/
def fwids (t : TcbInfo) : Nat :=
  match t.fwids with
  | none => 0
  | some l => element ((l.take t.fwidsCount.toNat).map fwid).sum

/-- DiceTcbInfo; the flags have 7 octets each. -/
def tcbInfo (t : TcbInfo) : Nat :=
  element (optional t.vendor element + optional t.model element + optional t.version element + integer t.svn.toInt + integer t.layer.toInt +
    integer t.index.toInt + fwids t + 7 +
    optional t.vendorInfo element + optional t.type element + 7)

/-- DiceTcbInfoSeq. -/
def multiTcbInfo (m : MultiTcbInfo) : Nat := element (((m.list.getD []).take m.count.toNat).map tcbInfo).sum

/-! ## Fields that are at most as long -/

/-- Same attribute type, value at most as long. -/
def RdnLe (r r' : Rdn) : Prop := Pki.oidValue r.type = Pki.oidValue r'.type ∧ r.value.bytes.length ≤ r'.value.bytes.length

/-- At most as many elements, each at most as long. -/
def NameLe (n n' : Name) : Prop :=
  n.elementCount ≤ n'.elementCount ∧ n'.elementCount ≤ 8 ∧
  ∀ i, (h : i < 8) → i < n.elementCount.toNat → RdnLe n.elements[i] n'.elements[i]

/-- At most as many bits. -/
def BitsLe (p : Option Ptr) (n : UInt64) (p' : Option Ptr) (n' : UInt64) : Prop := (p' = none → p = none) ∧ n ≤ n'

/-- The serial number is at most as large. -/
def SerialLe (s s' : Slice) : Prop := s'.buffer ≠ none ∧ (s.size ≠ 0 → s.buffer ≠ none) ∧ Der.fromBE s.bytes ≤ Der.fromBE s'.bytes

/-- Same OID and criticality, content at most as long. -/
def ExtensionLe (content content' : Extension → Nat) (e e' : Extension) : Prop :=
  Pki.oidValue e.oid = Pki.oidValue e'.oid ∧ (e.critical = true → e'.critical = true) ∧ content e ≤ content' e'

/-- At most as many extensions, each at most as long. -/
def ExtensionsLe (content content' : Extension → Nat) (e e' : Extensions) : Prop :=
  (announced e).length ≤ (announced e').length ∧
  ∀ (i : Nat) (x y : Extension), (announced e)[i]? = some x → (announced e')[i]? = some y → ExtensionLe content content' x y

/-- Same algorithms, all other fields at most as long. -/
structure TbsLe (content content' : Extension → Nat) (t t' : Tbs) : Prop where
  serial : SerialLe t.serialNumber t'.serialNumber
  algorithm : t.signatureAlgorithm = t'.signatureAlgorithm
  issuer : NameLe t.issuerName t'.issuerName
  notBefore : timeOctets t.validity.notBefore ≤ timeOctets t'.validity.notBefore
  notAfter : timeOctets t.validity.notAfter ≤ timeOctets t'.validity.notAfter
  subject : NameLe t.subjectName t'.subjectName
  keyAlgorithm : t.subjectPublicKeyInfo.algorithmIdentifier = t'.subjectPublicKeyInfo.algorithmIdentifier
  key : BitsLe t.subjectPublicKeyInfo.publicKey t.subjectPublicKeyInfo.publicKeyBits t'.subjectPublicKeyInfo.publicKey t'.subjectPublicKeyInfo.publicKeyBits
  extensions : ExtensionsLe content content' t.extensions t'.extensions

/-- Same algorithms, all other fields at most as long. -/
structure CertLe (content content' : Extension → Nat) (x x' : X509) : Prop where
  tbs : ∃ t t', x.tbs = some t ∧ x'.tbs = some t' ∧ TbsLe content content' t t'
  algorithm : x.signatureAlgorithm = x'.signatureAlgorithm
  signature : BitsLe x.signature x.signatureBits x'.signature x'.signatureBits

end Nat20.Size
