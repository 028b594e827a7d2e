import Verif.Model.X509
import Verif.Model.Oid
import Verif.Model.Boringssl
/-!
# Model of a program that issues certificates with the library

The library has no function for this; the steps are those of `src/core/test/x509.cpp`, which is the only description of how the parts
are to be put together.  The generalisation: the key that is certified and the key that signs are two keys, which may be the same one,
and the program frees no keys.
-/

namespace Nat20

/-- `p + n` (`src/core/test/x509.cpp` 621-631). -/
def Ptr.advance (p : Ptr) (n : Nat) : Ptr := ⟨p.before ++ p.data.take n, p.data.drop n⟩

/-- `src/core/test/x509.cpp` 621-631: `n20_x509_rs_content`. -/
def x509RsContent (signature : Ptr) (size : UInt64) : W Unit := do
  asn1Integer ⟨size / 2, some (signature.advance (size / 2).toNat)⟩ false false tagInfoNoOverride
  asn1Integer ⟨size / 2, some signature⟩ false false tagInfoNoOverride

/-- `src/core/test/x509.cpp` 633-635: `n20_x509_rs`. -/
def x509Rs (signature : Ptr) (size : UInt64) : W Unit := asn1Sequence (some (x509RsContent signature size)) tagInfoNoOverride

/-- `src/core/test/x509.cpp` 718-723, 739-742, 757-760: a stream on the whole buffer, rendering, and the checks of both flags.  The result is the
buffer afterwards, the offset `n20_stream_data` returns and the byte count; none if a flag is set. -/
def renderInto (w : W Unit) (buffer : Bytes) : Except UB (Option (Bytes × UInt64 × UInt64)) := do
  let r ← w (some (streamInit (some buffer) (UInt64.ofNat buffer.length)))
  if streamHasBufferOverflow r.2 || streamHasWritePositionOverflow r.2 then return none
  else
    match r.2.bind Stream.begin_, streamData r.2 with
    | some mem, some off => return some (mem, off, streamByteCount r.2)
    | _, _ => .error .nullDeref

/-- `src/core/test/x509.cpp` 525-568: the signature algorithm for a key type. -/
def signatureAlgorithmFor (type : UInt32) : AlgorithmIdentifier :=
  if type = 3 then ⟨some OID_ED25519, 0, none⟩
  else if type = 1 then ⟨some OID_ECDSA_WITH_SHA256, 0, none⟩
  else ⟨some OID_ECDSA_WITH_SHA384, 0, none⟩

/-- `src/core/test/x509.cpp` 525-568: the algorithm of the public key for a key type. -/
def keyAlgorithmFor (type : UInt32) : AlgorithmIdentifier :=
  if type = 3 then ⟨some OID_ED25519, 0, none⟩
  else if type = 1 then ⟨some OID_EC_PUBLIC_KEY, 2, some OID_SECP256R1⟩
  else ⟨some OID_EC_PUBLIC_KEY, 2, some OID_SECP384R1⟩

/-- What becomes of the attempt: an error of a function of the crypto context, a buffer that is too small, or a certificate
(the assertions in `src/core/test/x509.cpp` 639-760). -/
inductive Issued where
  | failed (e : N20Error)
  | tooSmall
  | certificate (c : Bytes)

/-- `src/core/test/x509.cpp` 646-657: the public key, which is `key` at the second octet of the array, with the prefix of an
uncompressed point for EC keys; and the size of it in bits. -/
def keyInfo (type : UInt32) (first : UInt8) (key : Bytes) (size : UInt64) : PublicKeyInfo :=
  if type ≠ 3 then ⟨keyAlgorithmFor type, (size + 1) * 8, some ⟨[], 0x04 :: key⟩⟩
  else ⟨keyAlgorithmFor type, size * 8, some ⟨[first], key⟩⟩

/-- `src/core/test/x509.cpp` 684-715: the TBS certificate; the fields that do not depend on keys are those of `t`. -/
def tbsFor (t : Tbs) (issuerType : UInt32) (info : PublicKeyInfo) : Tbs :=
  { t with signatureAlgorithm := signatureAlgorithmFor issuerType, subjectPublicKeyInfo := info }

/-- `src/core/test/x509.cpp` 751-760: the complete certificate, as read through `n20_stream_data` and `n20_stream_byte_count`. -/
def issueCert (fr : Frame) (tbs : Tbs) (signature : Bytes) (size : UInt64) (buffer : Bytes) : Except UB Issued := do
  let r ← renderInto (x509Cert fr (some ⟨some tbs, tbs.signatureAlgorithm, size * 8, some ⟨[], signature⟩⟩)) buffer
  match r with
  | none => return .tooSmall
  | some (mem, off, n) => return .certificate ((mem.drop off.toNat).take n.toNat)

/-- `src/core/test/x509.cpp` 735-760: signatures of EC keys are converted. -/
def issueFinish (fr : Frame) (tbs : Tbs) (issuerType : UInt32) (signature : Bytes) (size : UInt64) (buffer : Bytes) : Except UB Issued :=
  if issuerType = 1 ∨ issuerType = 2 then do
    let r ← renderInto (x509Rs ⟨[], signature⟩ size) buffer
    match r with
    | none => return .tooSmall
    | some (mem, off, n) => do
      let signature ← memcpy (some signature) 0 (some ⟨mem.take off.toNat, mem.drop off.toNat⟩) n
      issueCert fr tbs signature n mem
  else issueCert fr tbs signature size buffer

/-- `src/core/test/x509.cpp` 718-760: rendering and signing the TBS certificate, and the rest. -/
def issueSigned (lib : Lib) (fr : Frame) (tbs : Tbs) (issuer : Nat) (issuerType : UInt32) (signature buffer : Bytes) : B Issued := do
  let r ← liftB (renderInto (x509CertTbs fr (some tbs)) buffer)
  match r with
  | none => return .tooSmall
  | some (mem, off, n) => do
    let rep ← bsslSign lib (some ()) (some issuer) (some ⟨1, some [⟨n, some ⟨mem.take off.toNat, mem.drop off.toNat⟩⟩]⟩)
      (some signature) (some (UInt64.ofNat signature.length))
    match rep.err, rep.out, rep.size with
    | .ok, some signature, some size => liftB (issueFinish fr tbs issuerType signature size mem)
    | e, _, _ => return .failed e

/-- `src/core/test/x509.cpp` 639-760: the whole program.  `keyBuffer`, `signature` and `buffer` are the local arrays of which only the contents and
sizes matter (128, 128 and 2000 in the test). -/
def issue (lib : Lib) (fr : Frame) (t : Tbs) (subject : Nat) (subjectType : UInt32) (issuer : Nat) (issuerType : UInt32)
    (first : UInt8) (keyBuffer signature buffer : Bytes) : B Issued := do
  let rep ← bsslPublicKey lib (some ()) (some subject) (some keyBuffer) (some (UInt64.ofNat keyBuffer.length))
  match rep.err, rep.out, rep.size with
  | .ok, some key, some size =>
    issueSigned lib fr (tbsFor t issuerType (keyInfo subjectType first key size)) issuer issuerType signature buffer
  | e, _, _ => return .failed e

end Nat20
