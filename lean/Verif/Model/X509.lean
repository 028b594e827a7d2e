import Verif.Model.Oid
/-!
# Model of `src/core/x509.c`

Functions which end up in `n20_asn1_uint64` or `n20_asn1_int64` take the `Frame` around the parameter of these functions.
Simplification: the same frame is used for all calls made by one function; the output does not depend on its contents
(`C11_uint64_partial`).
-/

namespace Nat20

/-- An array of which `elements` are accessible, at index `i`
(`src/core/x509.c` 84, 98, `src/core/x509_ext_tcg_dice_tcb_info.c` 47, 135). -/
def readElement {α : Type} (elements : List α) (i : Nat) : Except UB α :=
  match elements[i]? with
  | some x => .ok x
  | none => .error .oobRead

/-- `if (c) w;` (e.g. `src/core/x509.c` 114, 147). -/
def whenW (c : Bool) (w : W Unit) : W Unit := if c then w else Pure.pure ()

/-- A string literal (`src/core/x509.c` 22-23). -/
def asciiBytes (s : String) : Bytes := s.toList.map fun c => UInt8.ofNat c.toNat

/-- `src/core/x509.c` 22: `n20_x509_no_expiration`. -/
def x509NoExpiration : Slice := ⟨15, some ⟨[], asciiBytes "99991231235959Z"⟩⟩

/-- `src/core/x509.c` 23: `n20_x509_unix_epoch`. -/
def x509UnixEpoch : Slice := ⟨15, some ⟨[], asciiBytes "19700101000000Z"⟩⟩

/-- `src/core/x509.c` 25-26: `nibble2ascii`. -/
def nibble2ascii : Bytes :=
  [0x30, 0x31, 0x32, 0x33, 0x34, 0x35, 0x36, 0x37, 0x38, 0x39, 0x61, 0x62, 0x63, 0x64, 0x65, 0x66]

/-- `src/core/x509.c` 33-38: the loop of `n20_x509_serial_as_hex_content` with `i` bytes left to write. -/
def serialHexLoop (p : Ptr) : Nat → W Unit
  | 0 => Pure.pure ()
  | i + 1 => do
    let c ← liftM (p.read i)
    let hi ← liftM (readElement nibble2ascii (c >>> 4).toNat)
    let lo ← liftM (readElement nibble2ascii (c &&& 0x0f).toNat)
    prependLocal [hi, lo]
    serialHexLoop p i

/-- `src/core/x509.c` 28-40: `n20_x509_serial_as_hex_content`. -/
def serialHexContent (slice : Option Slice) : W Unit :=
  match slice with
  | none => Pure.pure ()
  | some slice =>
    match slice.buffer with
    | none => Pure.pure ()
    | some p => serialHexLoop p slice.size.toNat

/-- `src/core/x509.c` 42-52: `n20_x509_serial_as_hex_string`. -/
def serialHexString (slice : Option Slice) (tagInfo : TagInfo) : W Unit :=
  asn1HeaderWithContent classUniversal false 0x13 (some (serialHexContent slice)) tagInfo

/-- `include/nat20/x509.h` 76-117: `n20_x509_rdn_t`.  The two variants of the union are slice types with the same layout. -/
structure Rdn where
  type : Option Oid
  value : Slice

/-- `src/core/x509.c` 57-62: the attribute value. -/
def rdnValue (rdn : Rdn) (isSerial : Bool) : W Unit :=
  if isSerial then serialHexString (some rdn.value) tagInfoNoOverride
  else asn1PrintableString (some rdn.value) tagInfoNoOverride

/-- `src/core/x509.c` 54-64: `n20_x509_rdn_content`. -/
def rdnContent (rdn : Rdn) : W Unit := do
  let isSerial ← liftM (oidEquals rdn.type (some OID_SERIAL_NUMBER))
  rdnValue rdn isSerial
  asn1ObjectIdentifier rdn.type tagInfoNoOverride

/-- `src/core/x509.c` 66-74: `n20_x509_rdn`. -/
def x509Rdn (rdn : Rdn) : W Unit := do
  let mark ← byteCount
  asn1Sequence (some (rdnContent rdn)) tagInfoNoOverride
  let count ← byteCount
  asn1Header classUniversal true 0x11 (count - mark)

/-- `include/nat20/x509.h` 153-164: `n20_x509_name_t`; the array has `N20_X509_NAME_MAX_NAME_ELEMENTS` = 8 elements. -/
structure Name where
  elementCount : UInt64
  elements : Vector Rdn 8

/-- `include/nat20/types.h` 128-129: `N20_STR_C(literal)`.  The literal is its characters; in memory a zero follows, which the size does not count. -/
def strC (literal : Bytes) : Slice := ⟨UInt64.ofNat (literal ++ [0]).length - 1, some ⟨[], literal ++ [0]⟩⟩

/-- `include/nat20/x509.h` 137-138: `N20_X509_RDN(type, literal)`. -/
def mkRdn (type : Option Oid) (literal : Bytes) : Rdn := ⟨type, strC literal⟩

/-- `include/nat20/x509.h` 186-192: `N20_X509_NAME(...)`: the element count is the number of arguments, the array is initialised with them and zero
filled.  More than 8 arguments do not compile. -/
def mkName (rdns : List Rdn) : Name :=
  ⟨UInt64.ofNat rdns.length, Vector.ofFn fun i : Fin 8 => (rdns[i.val]?).getD ⟨none, Slice.null⟩⟩

/-- `src/core/x509.c` 83-85: the loop of `n20_x509_name_content`, with `k` elements left to write. -/
def nameLoop (elements : List Rdn) : Nat → W Unit
  | 0 => Pure.pure ()
  | k + 1 => do
    let rdn ← liftM (readElement elements k)
    x509Rdn rdn
    nameLoop elements k

/-- `src/core/x509.c` 76-86: `n20_x509_name_content`. -/
def nameContent (name : Option Name) : W Unit :=
  match name with
  | none => asn1Null tagInfoNoOverride
  | some name =>
    if name.elementCount > 8 then asn1Null tagInfoNoOverride
    else nameLoop name.elements.toList name.elementCount.toNat

/-- `src/core/x509.c` 88-90: `n20_x509_name`. -/
def x509Name (name : Option Name) : W Unit := asn1Sequence (some (nameContent name)) tagInfoNoOverride

/-- `include/nat20/x509.h` 226-262: `n20_x509_extension_t`; a callback together with its context is a writer. -/
structure Extension where
  oid : Option Oid
  critical : Bool
  contentCb : Option (W Unit)

/-- `include/nat20/x509.h` 277-301: `n20_x509_extensions_t`; `extensions` are the accessible elements of the array. -/
structure Extensions where
  extensionsCount : UInt64
  extensions : Option (List Extension)

/-- `src/core/x509.c` 97-129: one iteration of the loop of `n20_x509_extension_content`. -/
def extensionItem (ext : Extension) : W Unit := do
  let mark ← byteCount
  callContent ext.contentCb
  let count ← byteCount
  asn1Header classUniversal false 0x4 (count - mark)
  whenW ext.critical (asn1Boolean true tagInfoNoOverride)
  asn1ObjectIdentifier ext.oid tagInfoNoOverride
  let count ← byteCount
  asn1Header classUniversal true 0x10 (count - mark)

/-- `src/core/x509.c` 97-129: the loop of `n20_x509_extension_content`, with `k` elements left to write. -/
def extensionLoop (extensions : List Extension) : Nat → W Unit
  | 0 => Pure.pure ()
  | k + 1 => do
    let ext ← liftM (readElement extensions k)
    extensionItem ext
    extensionLoop extensions k

/-- `src/core/x509.c` 92-130: `n20_x509_extension_content`. -/
def extensionContent (exts : Extensions) : W Unit :=
  match exts.extensions with
  | none => if exts.extensionsCount = 0 then Pure.pure () else liftM (Except.error UB.nullDeref : Except UB Unit)
  | some extensions => extensionLoop extensions exts.extensionsCount.toNat

/-- `src/core/x509.c` 132-138: `n20_x509_extension`. -/
def x509Extension (exts : Option Extensions) : W Unit :=
  match exts with
  | none => Pure.pure ()
  | some exts =>
    if exts.extensions.isNone ∨ exts.extensionsCount = 0 then Pure.pure ()
    else asn1Sequence (some (extensionContent exts)) (tagInfoExplicit 3)

/-- `include/nat20/x509.h` 379-398: `n20_x509_ext_basic_constraints_t`. -/
structure BasicConstraints where
  isCa : Bool
  hasPathLength : Bool
  pathLength : UInt32

/-- `src/core/x509.c` 147-152: the contents of the sequence. -/
def basicConstraintsBody (fr : Frame) (bc : BasicConstraints) : W Unit :=
  if bc.isCa then do
    whenW bc.hasPathLength (asn1UInt64 fr bc.pathLength.toUInt64 tagInfoNoOverride)
    asn1Boolean true tagInfoNoOverride
  else Pure.pure ()

/-- `src/core/x509.c` 140-158: `n20_x509_ext_basic_constraints_content`. -/
def basicConstraintsContent (fr : Frame) (context : Option BasicConstraints) : W Unit :=
  match context with
  | none => Pure.pure ()
  | some bc => do
    let mark ← byteCount
    basicConstraintsBody fr bc
    let count ← byteCount
    asn1Header classUniversal true 0x10 (count - mark)

/-- `include/nat20/x509.h` 517-526: `n20_x509_ext_key_usage_t`. -/
structure KeyUsage where
  mask0 : UInt8
  mask1 : UInt8
  deriving DecidableEq, Repr

/-- `include/nat20/x509.h` 448-486: the nine macros `N20_X509_KEY_USAGE_SET_*` in the order of RFC 5280 4.2.1.3. -/
def keyUsageSet (i : Fin 9) (ku : KeyUsage) : KeyUsage :=
  match i with
  | 0 => { ku with mask0 := ku.mask0 ||| 0x80 }
  | 1 => { ku with mask0 := ku.mask0 ||| 0x40 }
  | 2 => { ku with mask0 := ku.mask0 ||| 0x20 }
  | 3 => { ku with mask0 := ku.mask0 ||| 0x10 }
  | 4 => { ku with mask0 := ku.mask0 ||| 0x08 }
  | 5 => { ku with mask0 := ku.mask0 ||| 0x04 }
  | 6 => { ku with mask0 := ku.mask0 ||| 0x02 }
  | 7 => { ku with mask0 := ku.mask0 ||| 0x01 }
  | 8 => { ku with mask1 := ku.mask1 ||| 0x80 }

/-- `src/core/x509.c` 168-185: the number of bits. -/
def keyUsageBitCount (ku : KeyUsage) : UInt8 :=
  if ku.mask1 ≠ 0 then 9
  else if ku.mask0 ≠ 0 then
    let bits : UInt8 := 8
    let c := ku.mask0
    let (bits, c) := if c &&& 0xf = 0 then (bits - 4, c >>> 4) else (bits, c)
    let (bits, c) := if c &&& 3 = 0 then (bits - 2, c >>> 2) else (bits, c)
    if c &&& 1 = 0 then bits - 1 else bits
  else 0

/-- `src/core/x509.c` 160-188: `n20_x509_ext_key_usage_content`. -/
def keyUsageContent (context : Option KeyUsage) : W Unit :=
  match context with
  | none => Pure.pure ()
  | some ku => asn1Bitstring (localPtr [ku.mask0, ku.mask1]) (keyUsageBitCount ku).toUInt64 tagInfoNoOverride

/-- `include/nat20/x509.h` 556-635: `n20_x509_algorithm_identifier_t`; `variant` is the enum as a number, `ecCurve` the only
member of the union. -/
structure AlgorithmIdentifier where
  oid : Option Oid
  variant : UInt32
  ecCurve : Option Oid

/-- `src/core/x509.c` 196-205: the algorithm parameters. -/
def algorithmParams (alg : AlgorithmIdentifier) : W Unit :=
  if alg.variant = 1 then asn1Null tagInfoNoOverride
  else if alg.variant = 2 then asn1ObjectIdentifier alg.ecCurve tagInfoNoOverride
  else Pure.pure ()

/-- `src/core/x509.c` 190-208: `n20_x509_algorithm_identifier_content`. -/
def algorithmIdentifierContent (context : Option AlgorithmIdentifier) : W Unit :=
  match context with
  | none => Pure.pure ()
  | some alg => do
    algorithmParams alg
    asn1ObjectIdentifier alg.oid tagInfoNoOverride

/-- `src/core/x509.c` 210-216: `n20_x509_algorithm_identifier`. -/
def x509AlgorithmIdentifier (alg : Option AlgorithmIdentifier) : W Unit :=
  asn1Sequence (some (algorithmIdentifierContent alg)) tagInfoNoOverride

/-- `include/nat20/x509.h` 655-680: `n20_x509_public_key_info_t`. -/
structure PublicKeyInfo where
  algorithmIdentifier : AlgorithmIdentifier
  publicKeyBits : UInt64
  publicKey : Option Ptr

/-- `src/core/x509.c` 218-225: `n20_x509_public_key_info_content`. -/
def publicKeyInfoContent (context : Option PublicKeyInfo) : W Unit :=
  match context with
  | none => liftM (Except.error UB.nullDeref : Except UB Unit)
  | some info => do
    asn1Bitstring info.publicKey info.publicKeyBits tagInfoNoOverride
    x509AlgorithmIdentifier (some info.algorithmIdentifier)

/-- `src/core/x509.c` 227-233: `n20_x509_public_key_info`. -/
def x509PublicKeyInfo (info : Option PublicKeyInfo) : W Unit :=
  asn1Sequence (some (publicKeyInfoContent info)) tagInfoNoOverride

/-- `include/nat20/x509.h` 690-710: `n20_x509_validity_t`. -/
structure Validity where
  notBefore : Slice
  notAfter : Slice

/-- `src/core/x509.c` 235-247: `n20_x509_validity_content`. -/
def validityContent (context : Option Validity) : W Unit :=
  match context with
  | none => liftM (Except.error UB.nullDeref : Except UB Unit)
  | some v => do
    asn1GeneralizedTime (some (if v.notAfter.buffer ≠ none then v.notAfter else x509NoExpiration)) tagInfoNoOverride
    asn1GeneralizedTime (some (if v.notBefore.buffer ≠ none then v.notBefore else x509UnixEpoch)) tagInfoNoOverride

/-- `src/core/x509.c` 249-252: `n20_x509_validity`. -/
def x509Validity (v : Option Validity) : W Unit := asn1Sequence (some (validityContent v)) tagInfoNoOverride

/-- `src/core/x509.c` 254-259: `n20_x509_version_3`. -/
def x509Version3 : W Unit := prependLocal [0xa0, 0x03, 0x02, 0x01, 0x02]

/-- `include/nat20/x509.h` 729-795: `n20_x509_tbs_t`. -/
structure Tbs where
  serialNumber : Slice
  signatureAlgorithm : AlgorithmIdentifier
  issuerName : Name
  validity : Validity
  subjectName : Name
  subjectPublicKeyInfo : PublicKeyInfo
  extensions : Extensions

/-- `src/core/x509.c` 288-299: the serial number. -/
def tbsSerial (fr : Frame) (serial : Slice) : W Unit :=
  if serial.size = 0 then asn1UInt64 fr 0 tagInfoNoOverride
  else asn1Integer serial false false tagInfoNoOverride

/-- `src/core/x509.c` 261-303: `n20_x509_cert_tbs_content`. -/
def certTbsContent (fr : Frame) (context : Option Tbs) : W Unit :=
  match context with
  | none => Pure.pure ()
  | some tbs => do
    x509Extension (some tbs.extensions)
    x509PublicKeyInfo (some tbs.subjectPublicKeyInfo)
    x509Name (some tbs.subjectName)
    x509Validity (some tbs.validity)
    x509Name (some tbs.issuerName)
    x509AlgorithmIdentifier (some tbs.signatureAlgorithm)
    tbsSerial fr tbs.serialNumber
    x509Version3

/-- `src/core/x509.c` 305-307: `n20_x509_cert_tbs`. -/
def x509CertTbs (fr : Frame) (tbs : Option Tbs) : W Unit := asn1Sequence (some (certTbsContent fr tbs)) tagInfoNoOverride

/-- `include/nat20/x509.h` 809-862: `n20_x509_t`. -/
structure X509 where
  tbs : Option Tbs
  signatureAlgorithm : AlgorithmIdentifier
  signatureBits : UInt64
  signature : Option Ptr

/-- `src/core/x509.c` 309-317: `n20_x509_cert_content`. -/
def certContent (fr : Frame) (context : Option X509) : W Unit :=
  match context with
  | none => Pure.pure ()
  | some x509 => do
    asn1Bitstring x509.signature x509.signatureBits tagInfoNoOverride
    x509AlgorithmIdentifier (some x509.signatureAlgorithm)
    x509CertTbs fr x509.tbs

/-- `src/core/x509.c` 319-321: `n20_x509_cert`. -/
def x509Cert (fr : Frame) (x509 : Option X509) : W Unit := asn1Sequence (some (certContent fr x509)) tagInfoNoOverride

end Nat20
