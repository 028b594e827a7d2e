import Verif.Model.X509
/-!
# Model of the rendering functions with callbacks that have a memory

In `Model/X509.lean` a callback together with its context is a writer, which does the same whenever it is called.  Here a callback may read and change a memory
(its context object, or whatever else callbacks share): it gets the memory and returns the changed one.  The functions that call callbacks are modelled once more, with
the memory passed along.
-/

namespace Nat20.Callbacks

/-- `include/nat20/asn1.h` 613-623: `n20_asn1_content_cb_t`, a callback together with its context, and the memory `σ` it may use. -/
abbrev Callback (σ : Type) := σ → W σ

variable {σ : Type}

/-- `src/core/asn1.c` 398-400 and `src/core/x509.c` 104-106: calling a callback unless it is NULL. -/
def callContent (contentCb : Option (Callback σ)) (m : σ) : W σ :=
  match contentCb with
  | some cb => cb m
  | none => Pure.pure m

/-- `src/core/asn1.c` 390-420: `n20_asn1_header_with_content`. -/
def asn1HeaderWithContent (class_ : UInt8) (constructed : Bool) (tag : UInt32) (contentCb : Option (Callback σ)) (tagInfo : TagInfo) (m : σ) : W σ := do
  let mark ← byteCount
  let m ← callContent contentCb m
  let class_ : UInt8 := if tagInfo.type = .implicit then classContextSpecific else class_
  let tag : UInt32 := if tagInfo.type = .implicit then tagInfo.tag else tag
  let count ← byteCount
  asn1Header class_ constructed tag (count - mark)
  explicitHeader tagInfo mark
  Pure.pure m

/-- `src/core/asn1.c` 422-433: `n20_asn1_sequence`. -/
def asn1Sequence (contentCb : Option (Callback σ)) (tagInfo : TagInfo) (m : σ) : W σ :=
  asn1HeaderWithContent classUniversal true 0x10 contentCb tagInfo m

/-- `include/nat20/x509.h` 226-262: `n20_x509_extension_t`. -/
structure Extension (σ : Type) where
  oid : Option Oid
  critical : Bool
  contentCb : Option (Callback σ)

/-- `include/nat20/x509.h` 277-301: `n20_x509_extensions_t`; `extensions` are the accessible elements of the array. -/
structure Extensions (σ : Type) where
  extensionsCount : UInt64
  extensions : Option (List (Extension σ))

/-- `src/core/x509.c` 97-129: one iteration of the loop of `n20_x509_extension_content`. -/
def extensionItem (ext : Extension σ) (m : σ) : W σ := do
  let mark ← byteCount
  let m ← callContent ext.contentCb m
  let count ← byteCount
  asn1Header classUniversal false 0x4 (count - mark)
  whenW ext.critical (asn1Boolean true tagInfoNoOverride)
  asn1ObjectIdentifier ext.oid tagInfoNoOverride
  let count ← byteCount
  asn1Header classUniversal true 0x10 (count - mark)
  Pure.pure m

/-- `src/core/x509.c` 97-129: the loop of `n20_x509_extension_content`, with `k` elements left to write. -/
def extensionLoop (extensions : List (Extension σ)) : Nat → Callback σ
  | 0, m => Pure.pure m
  | k + 1, m => do
    let ext ← liftM (readElement extensions k)
    let m ← extensionItem ext m
    extensionLoop extensions k m

/-- `src/core/x509.c` 92-130: `n20_x509_extension_content`. -/
def extensionContent (exts : Extensions σ) : Callback σ := fun m =>
  match exts.extensions with
  | none => if exts.extensionsCount = 0 then Pure.pure m else liftM (Except.error UB.nullDeref : Except UB σ)
  | some extensions => extensionLoop extensions exts.extensionsCount.toNat m

/-- `src/core/x509.c` 132-138: `n20_x509_extension`. -/
def x509Extension (exts : Option (Extensions σ)) : Callback σ := fun m =>
  match exts with
  | none => Pure.pure m
  | some exts =>
    if exts.extensions.isNone ∨ exts.extensionsCount = 0 then Pure.pure m
    else asn1Sequence (some (extensionContent exts)) (tagInfoExplicit 3) m

/-- `include/nat20/x509.h` 729-795: `n20_x509_tbs_t`. -/
structure Tbs (σ : Type) where
  serialNumber : Slice
  signatureAlgorithm : AlgorithmIdentifier
  issuerName : Name
  validity : Validity
  subjectName : Name
  subjectPublicKeyInfo : PublicKeyInfo
  extensions : Extensions σ

/-- `src/core/x509.c` 261-303: `n20_x509_cert_tbs_content`. -/
def certTbsContent (fr : Frame) (context : Option (Tbs σ)) : Callback σ := fun m =>
  match context with
  | none => Pure.pure m
  | some tbs => do
    let m ← x509Extension (some tbs.extensions) m
    x509PublicKeyInfo (some tbs.subjectPublicKeyInfo)
    x509Name (some tbs.subjectName)
    x509Validity (some tbs.validity)
    x509Name (some tbs.issuerName)
    x509AlgorithmIdentifier (some tbs.signatureAlgorithm)
    tbsSerial fr tbs.serialNumber
    x509Version3
    Pure.pure m

/-- `src/core/x509.c` 305-307: `n20_x509_cert_tbs`. -/
def x509CertTbs (fr : Frame) (tbs : Option (Tbs σ)) : Callback σ := asn1Sequence (some (certTbsContent fr tbs)) tagInfoNoOverride

/-- `include/nat20/x509.h` 809-862: `n20_x509_t`. -/
structure X509 (σ : Type) where
  tbs : Option (Tbs σ)
  signatureAlgorithm : AlgorithmIdentifier
  signatureBits : UInt64
  signature : Option Ptr

/-- `src/core/x509.c` 309-317: `n20_x509_cert_content`. -/
def certContent (fr : Frame) (context : Option (X509 σ)) : Callback σ := fun m =>
  match context with
  | none => Pure.pure m
  | some x509 => do
    asn1Bitstring x509.signature x509.signatureBits tagInfoNoOverride
    x509AlgorithmIdentifier (some x509.signatureAlgorithm)
    x509CertTbs fr x509.tbs m

/-- `src/core/x509.c` 319-321: `n20_x509_cert`. -/
def x509Cert (fr : Frame) (x509 : Option (X509 σ)) : Callback σ := asn1Sequence (some (certContent fr x509)) tagInfoNoOverride

end Nat20.Callbacks
