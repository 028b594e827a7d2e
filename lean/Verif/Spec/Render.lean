import Verif.Model.Cbor
import Verif.Model.Dice
/-!
# All rendering functions of the public API

One constructor for every function declared in `include/nat20/stream.h`, `asn1.h`, `cbor.h`, `x509.h` and
`x509_ext_*.h` which takes a stream to write to, with the arguments it takes besides the stream.  `fr` is the memory around
the parameter of `n20_asn1_uint64` / `n20_asn1_int64`.
-/

namespace Nat20

/-- A call of a rendering function. -/
inductive RenderCall where
  | streamPrepend (src : Option Ptr) (len : UInt64)
  | streamPut (c : UInt8)
  | base128Int (n : UInt64)
  | header (class_ : UInt8) (constructed : Bool) (tag : UInt32) (len : UInt64)
  | null (ti : TagInfo)
  | objectIdentifier (oid : Option Oid) (ti : TagInfo)
  | integer (n : Slice) (littleEndian twoComplement : Bool) (ti : TagInfo)
  | uint64 (fr : Frame) (n : UInt64) (ti : TagInfo)
  | int64 (fr : Frame) (n : Int64) (ti : TagInfo)
  | bitstring (b : Option Ptr) (bits : UInt64) (ti : TagInfo)
  | octetstring (s : Option Slice) (ti : TagInfo)
  | utf8String (s : Option Slice) (ti : TagInfo)
  | printablestring (s : Option Slice) (ti : TagInfo)
  | generalizedTime (s : Option Slice) (ti : TagInfo)
  | headerWithContent (class_ : UInt8) (constructed : Bool) (tag : UInt32) (cb : Option (W Unit)) (ti : TagInfo)
  | sequence (cb : Option (W Unit)) (ti : TagInfo)
  | boolean (v : Bool) (ti : TagInfo)
  | cborHeader (type : UInt32) (n : UInt64)
  | cborNull
  | cborBool (b : Bool)
  | cborTag (tag : UInt64)
  | cborUint (n : UInt64)
  | cborInt (n : Int64)
  | cborByteString (s : Slice)
  | cborTextString (s : Slice)
  | cborArrayHeader (n : UInt64)
  | cborMapHeader (n : UInt64)
  | name (n : Option Name)
  | extension (e : Option Extensions)
  | basicConstraints (fr : Frame) (c : Option BasicConstraints)
  | keyUsage (c : Option KeyUsage)
  | certTbs (fr : Frame) (t : Option Tbs)
  | cert (fr : Frame) (c : Option X509)
  | openDiceInput (fr : Frame) (c : Option OpenDiceInput)
  | tcbFreshness (c : Option Slice)
  | tcbInfo (fr : Frame) (c : Option TcbInfo)
  | multiTcbInfo (fr : Frame) (c : Option MultiTcbInfo)
  | ueid (c : Option Slice)

/-- Executing the call. -/
def RenderCall.exec : RenderCall → W Unit
  | streamPrepend src len => Nat20.streamPrepend src len
  | streamPut c => Nat20.streamPut c
  | base128Int n => asn1Base128Int n
  | header class_ constructed tag len => asn1Header class_ constructed tag len
  | null ti => asn1Null ti
  | objectIdentifier oid ti => asn1ObjectIdentifier oid ti
  | integer n littleEndian twoComplement ti => asn1Integer n littleEndian twoComplement ti
  | uint64 fr n ti => asn1UInt64 fr n ti
  | int64 fr n ti => asn1Int64 fr n ti
  | bitstring b bits ti => asn1Bitstring b bits ti
  | octetstring s ti => asn1OctetString s ti
  | utf8String s ti => asn1Utf8String s ti
  | printablestring s ti => asn1PrintableString s ti
  | generalizedTime s ti => asn1GeneralizedTime s ti
  | headerWithContent class_ constructed tag cb ti => asn1HeaderWithContent class_ constructed tag cb ti
  | sequence cb ti => asn1Sequence cb ti
  | boolean v ti => asn1Boolean v ti
  | cborHeader type n => cborWriteHeader type n
  | cborNull => cborWriteNull
  | cborBool b => cborWriteBool b
  | cborTag tag => cborWriteTag tag
  | cborUint n => cborWriteUInt n
  | cborInt n => cborWriteInt n
  | cborByteString s => cborWriteByteString s
  | cborTextString s => cborWriteTextString s
  | cborArrayHeader n => cborWriteArrayHeader n
  | cborMapHeader n => cborWriteMapHeader n
  | name n => x509Name n
  | extension e => x509Extension e
  | basicConstraints fr c => basicConstraintsContent fr c
  | keyUsage c => keyUsageContent c
  | certTbs fr t => x509CertTbs fr t
  | cert fr c => x509Cert fr c
  | openDiceInput fr c => openDiceInputContent fr c
  | tcbFreshness c => freshnessContent c
  | tcbInfo fr c => tcbInfoContent fr c
  | multiTcbInfo fr c => multiTcbInfoContent fr c
  | ueid c => ueidContent c

/-- The content callbacks supplied by the caller. -/
def Extensions.callbacks (e : Extensions) : List (W Unit) := (e.extensions.getD []).filterMap (·.contentCb)

/-- The content callbacks supplied by the caller. -/
def RenderCall.callbacks : RenderCall → List (W Unit)
  | headerWithContent _ _ _ cb _ => cb.toList
  | sequence cb _ => cb.toList
  | extension (some e) => e.callbacks
  | certTbs _ (some t) => t.extensions.callbacks
  | cert _ (some c) => match c.tbs with
    | some t => t.extensions.callbacks
    | none => []
  | _ => []

/-- Executing calls one after the other, which is also what a content callback does. -/
def renderAll : List RenderCall → W Unit
  | [] => Pure.pure ()
  | c :: cs => do c.exec; renderAll cs

end Nat20
