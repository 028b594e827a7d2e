import Verif.Spec.X509
/-!
# The certificate profile of RFC 5280, as a predicate on DER trees

Written from RFC 5280 sections 4.1 and 4.2 and appendix A, RFC 5480, RFC 5758, RFC 8410 and RFC 3279, without reference to the
model.  Only the last part, `Documented`, is about arguments of the library: it lists, field by field, what the caller must pass.

Not part of the profile: rules about the contents of single extensions (C27, C28, C34-C36 say what they are), and about
certificates that belong together (a chain).  Recommendations (SHOULD) are left out.
-/

namespace Nat20.Profile

open Der Pki

/-! ## Object identifiers -/

/-- The arcs of an OBJECT IDENTIFIER (X.690 8.19); none for anything else. -/
def oidOf : Der → Option (List Nat)
  | .prim 0 6 c => parseOid c
  | _ => none

/-! ## Times (RFC 5280 4.1.2.5) -/

structure Moment where
  year : Nat
  month : Nat
  day : Nat
  hour : Nat
  minute : Nat
  second : Nat
deriving DecidableEq

def leapYear (y : Nat) : Bool := y % 4 == 0 && (y % 100 != 0 || y % 400 == 0)

def daysIn (y m : Nat) : Nat :=
  if m = 2 then (if leapYear y then 29 else 28) else if m = 4 ∨ m = 6 ∨ m = 9 ∨ m = 11 then 30 else 31

/-- A moment of the Gregorian calendar (with leap seconds) whose year has four digits. -/
def Moment.Ok (t : Moment) : Prop :=
  t.year ≤ 9999 ∧ 1 ≤ t.month ∧ t.month ≤ 12 ∧ 1 ≤ t.day ∧ t.day ≤ daysIn t.year t.month ∧ t.hour ≤ 23 ∧ t.minute ≤ 59 ∧ t.second ≤ 60

instance (t : Moment) : Decidable t.Ok := inferInstanceAs (Decidable (_ ∧ _))

/-- Two decimal digits in ASCII. -/
def two (n : Nat) : Bytes := [UInt8.ofNat (48 + n / 10), UInt8.ofNat (48 + n % 10)]

/-- `YYMMDDHHMMSSZ`. -/
def Moment.short (t : Moment) : Bytes := two (t.year % 100) ++ two t.month ++ two t.day ++ two t.hour ++ two t.minute ++ two t.second ++ [0x5a]

/-- `YYYYMMDDHHMMSSZ`. -/
def Moment.long (t : Moment) : Bytes := two (t.year / 100) ++ t.short

/-- RFC 5280 4.1.2.5: "CAs conforming to this profile MUST always encode certificate validity dates through the year 2049 as UTCTime; certificate validity dates in
2050 or later MUST be encoded as GeneralizedTime"; with seconds, without fractions, in UTC.  (UTCTime expresses the years from 1950 on.) -/
def TimeOk (d : Der) : Prop :=
  ∃ t : Moment, t.Ok ∧ ((1950 ≤ t.year ∧ t.year ≤ 2049 ∧ d = .prim 0 23 t.short) ∨ (2050 ≤ t.year ∧ d = .prim 0 24 t.long))

/-- A weaker rule, which many certificate parsers apply: GeneralizedTime for any year. -/
def AnyTimeOk (d : Der) : Prop :=
  ∃ t : Moment, t.Ok ∧ ((1950 ≤ t.year ∧ t.year ≤ 2049 ∧ d = .prim 0 23 t.short) ∨ d = .prim 0 24 t.long)

/-! ## Names (RFC 5280 4.1.2.4, appendix A) -/

/-- X.680 41.4: the characters of a PrintableString: letters, digits, space and `'()+,-./:=?`. -/
def Printable (b : UInt8) : Bool :=
  (0x41 ≤ b && b ≤ 0x5a) || (0x61 ≤ b && b ≤ 0x7a) || (0x30 ≤ b && b ≤ 0x39) ||
    [0x20, 0x27, 0x28, 0x29, 0x2b, 0x2c, 0x2d, 0x2e, 0x2f, 0x3a, 0x3d, 0x3f].contains b

/-- RFC 5280 appendix A.1: how many characters an attribute value has, at least and at most: common name, serial number, country, locality, state or province,
organization, organizational unit. -/
def sizeBounds (type : List Nat) : Option (Nat × Nat) :=
  if type = [2, 5, 4, 3] then some (1, 64)
  else if type = [2, 5, 4, 5] then some (1, 64)
  else if type = [2, 5, 4, 6] then some (2, 2)
  else if type = [2, 5, 4, 7] then some (1, 128)
  else if type = [2, 5, 4, 8] then some (1, 128)
  else if type = [2, 5, 4, 10] then some (1, 64)
  else if type = [2, 5, 4, 11] then some (1, 64)
  else none

/-- The text is one an attribute of this type may have. -/
def TextOk (type : List Nat) (text : Bytes) : Prop :=
  (∀ b ∈ text, Printable b) ∧ ∀ lo hi, sizeBounds type = some (lo, hi) → lo ≤ text.length ∧ text.length ≤ hi

/-- AttributeTypeAndValue.  Nothing is demanded of values of other types than PrintableString: the library does not render any. -/
def AttributeOk (d : Der) : Prop :=
  ∃ t v arcs, d = sequence [t, v] ∧ oidOf t = some arcs ∧ ∀ text, v = printableString text → TextOk arcs text

/-- RelativeDistinguishedName: one attribute or more. -/
def RdnOk (d : Der) : Prop := ∃ l, l ≠ [] ∧ d = Der.set l ∧ ∀ a ∈ l, AttributeOk a

/-! ## Algorithms (RFC 5280 4.1.1.2) -/

def ecPublicKey : List Nat := [1, 2, 840, 10045, 2, 1]

/-- Ed25519 (RFC 8410 3) and ECDSA with SHA-224, SHA-256, SHA-384, SHA-512 (RFC 5758 3.2): parameters MUST be absent. -/
def withoutParameters : List (List Nat) :=
  [[1, 3, 101, 112], [1, 2, 840, 10045, 4, 3, 1], [1, 2, 840, 10045, 4, 3, 2], [1, 2, 840, 10045, 4, 3, 3], [1, 2, 840, 10045, 4, 3, 4]]

/-- RSA keys (RFC 3279 2.3.1) and signatures with SHA-256 (RFC 4055 5): parameters MUST be NULL. -/
def withNull : List (List Nat) := [[1, 2, 840, 113549, 1, 1, 1], [1, 2, 840, 113549, 1, 1, 11]]

/-- AlgorithmIdentifier; a curve is named by its OID (RFC 5480 2.1.1). -/
def AlgorithmOk (d : Der) : Prop :=
  ∃ o ps arcs, d = sequence (o :: ps) ∧ oidOf o = some arcs ∧ ps.length ≤ 1 ∧
    (arcs = ecPublicKey → ∃ p, ps = [p] ∧ (oidOf p).isSome) ∧ (arcs ∈ withoutParameters → ps = []) ∧ (arcs ∈ withNull → ps = [null])

/-! ## Extensions (RFC 5280 4.1.2.9, 4.2) -/

/-- An extension with this OID and criticality; `critical` DEFAULT FALSE is left out when false (X.690 11.5). -/
def ExtensionOk (d : Der) (arcs : List Nat) (critical : Bool) : Prop :=
  ∃ o value, oidOf o = some arcs ∧ d = sequence (o :: ((if critical then [boolean true] else []) ++ [octetString value]))

/-- The extensions `(OID, critical)` of a certificate: "A certificate MUST NOT include more than one instance of a particular extension"; the field is absent if
there are none. -/
def ExtensionsOk (field : List Der) (exts : List (List Nat × Bool)) : Prop :=
  (exts.map (·.1)).Nodup ∧
    ((exts = [] ∧ field = []) ∨
      (exts ≠ [] ∧ ∃ ds, field = [.cons 2 3 [sequence ds]] ∧ ds.length = exts.length ∧ ∀ p ∈ ds.zip exts, ExtensionOk p.1 p.2.1 p.2.2))

def subjectAltName : List Nat := [2, 5, 29, 17]

/-! ## Certificates (RFC 5280 4.1) -/

/-- RFC 5280 4.1.2.2: a positive integer of at most 20 octets. -/
def SerialOk (d : Der) : Prop := ∃ n : Nat, 0 < n ∧ (intContent n).length ≤ 20 ∧ d = integer n

/-- A version 3 certificate, with a rule for the times.
* the signature algorithm is the same outside and inside (4.1.1.2);
* the issuer is not empty (4.1.2.4);
* the subject is empty only if there is a critical subject alternative name (4.1.2.6);
* there are no unique identifiers (4.1.2.8). -/
def CertificateOk (time : Der → Prop) (d : Der) : Prop :=
  ∃ serial algorithm issuer notBefore notAfter subject keyAlgorithm key field exts signature,
    d = sequence [
      sequence ([.cons 2 0 [integer 2], serial, algorithm, sequence issuer, sequence [notBefore, notAfter], sequence subject,
        sequence [keyAlgorithm, bitString key]] ++ field),
      algorithm, bitString signature] ∧
    SerialOk serial ∧ AlgorithmOk algorithm ∧
    issuer ≠ [] ∧ (∀ r ∈ issuer, RdnOk r) ∧
    time notBefore ∧ time notAfter ∧
    (∀ r ∈ subject, RdnOk r) ∧ (subject = [] → (subjectAltName, true) ∈ exts) ∧
    AlgorithmOk keyAlgorithm ∧
    ExtensionsOk field exts

/-! ## What the caller has to pass -/

/-- An OID that can be rendered, with the parameters that belong to it. -/
def AlgorithmDocumented (a : AlgorithmIdentifier) : Prop :=
  ∃ arcs, oidValue a.oid = some arcs ∧
    (arcs = ecPublicKey → a.variant = 2 ∧ oidValue a.ecCurve ≠ none) ∧
    (arcs ∈ withoutParameters → a.variant ≠ 1 ∧ a.variant ≠ 2) ∧
    (arcs ∈ withNull → a.variant = 1 ∨ (a.variant = 2 ∧ oidValue a.ecCurve = none))

/-- An attribute: of a serial number at least one and at most 32 octets, of any other type a text of printable characters of the size prescribed
(`include/nat20/x509.h` 91-99). -/
def RdnDocumented (r : Rdn) : Prop :=
  ∃ arcs, oidValue r.type = some arcs ∧
    if arcs = [2, 5, 4, 5] then 1 ≤ r.value.bytes.length ∧ r.value.bytes.length ≤ 32 else TextOk arcs r.value.bytes

/-- A name of at most 8 such attributes. -/
def NameDocumented (n : Name) : Prop :=
  n.elementCount.toNat ≤ 8 ∧ ∀ r ∈ n.elements.toList.take n.elementCount.toNat, RdnDocumented r

/-- The extensions announced. -/
def announced (e : Extensions) : List Extension := (e.extensions.getD []).take e.extensionsCount.toNat

/-- Everything except the times. -/
structure Documented (x : X509) (t : Tbs) : Prop where
  serial : 0 < fromBE t.serialNumber.bytes ∧ fromBE t.serialNumber.bytes < 2 ^ 159
  algorithm : AlgorithmDocumented t.signatureAlgorithm
  same : algorithmValue t.signatureAlgorithm = algorithmValue x.signatureAlgorithm
  issuer : NameDocumented t.issuerName ∧ t.issuerName.elementCount ≠ 0
  subject : NameDocumented t.subjectName ∧
    (t.subjectName.elementCount = 0 → ∃ e ∈ announced t.extensions, oidValue e.oid = some subjectAltName ∧ e.critical = true)
  key : AlgorithmDocumented t.subjectPublicKeyInfo.algorithmIdentifier
  extensions : (∀ e ∈ announced t.extensions, oidValue e.oid ≠ none) ∧ ((announced t.extensions).map fun e => oidValue e.oid).Nodup

/-- The time given, or the default for a NULL pointer, denotes this moment. -/
def Given (s : Slice) (default : Bytes) (m : Moment) : Prop := m.Ok ∧ (if s.buffer = none then default else s.bytes) = m.long

end Nat20.Profile
