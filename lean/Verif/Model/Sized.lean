import Verif.Model.Dice
import Verif.Model.Cbor
/-!
# The rendering functions on platforms with another `size_t`

`Model/Stream`, `Model/Asn1`, `Model/Cbor`, `Model/X509` and `Model/Dice` are about platforms on which `size_t` has 64 bits.  Here are
the same functions for a `size_t` of `w` bits.  Everything of type `size_t` in the code is a `BitVec w`; the types `uint8_t`, `uint32_t`,
`uint64_t`, `int64_t` and `int` are as before.  What does not depend on `size_t` is shared with the other modules.
-/

namespace Nat20.Sized

variable {w : Nat}

/-- The conversion of a `size_t` to `uint8_t` (`src/core/asn1.c` 65, 72, 79, 85, 293). -/
def toOctet (n : BitVec w) : UInt8 := UInt8.ofNat n.toNat

/-- The conversion of a `size_t` to `uint64_t` (`src/core/cbor.c` 90, 100, 104, 108); no `size_t` is wider. -/
def toUInt64 (n : BitVec w) : UInt64 := UInt64.ofNat n.toNat

/-- `include/nat20/types.h` 46-62 and 96-112: `n20_slice_t` and `n20_string_slice_t`. -/
structure Slice (w : Nat) where
  size : BitVec w
  buffer : Option Ptr
  deriving DecidableEq, Repr

/-- `N20_SLICE_NULL` (`include/nat20/types.h` 78). -/
def Slice.null : Slice w := ⟨0, none⟩

/-- `memcpy(dst + off, src, len)` as in `Model/Mem` (`src/core/stream.c` 77). -/
def memcpy (dst : Option Bytes) (off : BitVec w) (src : Option Ptr) (len : BitVec w) : Except UB Bytes :=
  match dst, src with
  | some d, some p =>
    if p.data.length < len.toNat then .error .oobRead
    else if d.length < off.toNat + len.toNat then .error .oobWrite
    else .ok (d.take off.toNat ++ p.data.take len.toNat ++ d.drop (off.toNat + len.toNat))
  | _, _ => .error .nullMemcpy

/-! ## `Model/Stream` -/

/-- `include/nat20/stream.h` 41-95: `struct n20_stream_s`.  `begin_` is the accessible memory at the `begin` pointer
(`none` = NULL). -/
structure Stream (w : Nat) where
  begin_ : Option Bytes
  size : BitVec w
  writePosition : BitVec w
  bufferOverflow : Bool
  writePositionOverflow : Bool
  deriving DecidableEq, Repr

/-- Rendering functions take a NULL-able pointer to a stream and update the stream: state transformer over
`Option Stream` (`none` is a NULL `n20_stream_t *`) which may end in undefined behaviour
(the first parameter of all functions in `src/core/stream.c` 20-83, `src/core/asn1.c`, `src/core/cbor.c`, `src/core/x509.c`). -/
abbrev W (w : Nat) (α : Type) := StateT (Option (Stream w)) (Except UB) α

/-- `src/core/stream.c` 20-31, `n20_stream_init` for a non-NULL stream (with a NULL stream it does nothing). -/
def streamInit (buffer : Option Bytes) (bufferSize : BitVec w) : Stream w :=
  { begin_ := buffer
    size := if buffer.isNone then 0 else bufferSize
    writePosition := 0
    bufferOverflow := buffer.isNone
    writePositionOverflow := false }

/-- `src/core/stream.c` 33-35, `n20_stream_has_buffer_overflow`. -/
def streamHasBufferOverflow : Option (Stream w) → Bool
  | none => true
  | some s => s.bufferOverflow

/-- `src/core/stream.c` 37-39, `n20_stream_has_write_position_overflow`. -/
def streamHasWritePositionOverflow : Option (Stream w) → Bool
  | none => true
  | some s => s.writePositionOverflow

/-- `src/core/stream.c` 47-49, `n20_stream_byte_count`. -/
def streamByteCount : Option (Stream w) → BitVec w
  | none => 0
  | some s => s.writePosition

/-- `src/core/stream.c` 56-58, `n20_stream_data`: `none` for a NULL stream, otherwise the offset of the returned pointer
from `begin`.  The model returns the (wrapped) offset also where the C pointer arithmetic leaves the buffer (overflowed
stream); the documentation forbids using the pointer then, and no theorem makes a statement about it. -/
def streamData : Option (Stream w) → Option (BitVec w)
  | none => none
  | some s => some (s.size - s.writePosition)

/-- `src/core/stream.c` 64-79, `n20_stream_prepend`. -/
def streamPrepend (src : Option Ptr) (srcLen : BitVec w) : W w Unit := fun sp =>
  match sp with
  | none => .ok ((), none)
  | some s =>
    let oldPos := s.writePosition
    let pos := oldPos + srcLen
    let wpo := s.writePositionOverflow || decide (pos < oldPos)
    let bo := wpo || s.bufferOverflow || decide (s.size < pos)
    let s1 : Stream w :=
      { s with writePosition := pos, writePositionOverflow := wpo, bufferOverflow := bo }
    if bo then .ok ((), some s1)
    else
      match memcpy s.begin_ (s.size - pos) src srcLen with
      | .ok mem => .ok ((), some { s1 with begin_ := some mem })
      | .error e => .error e

/-- `n20_stream_prepend(s, x, n)` for a local array `x` of `n` bytes
(e.g. `src/core/asn1.c` 31, 66, 77, `src/core/cbor.c` 35, `src/core/stream.c` 82). -/
def prependLocal (bs : Bytes) : W w Unit := streamPrepend (localPtr bs) (BitVec.ofNat w bs.length)

/-- `src/core/stream.c` 81-83, `n20_stream_put`. -/
def streamPut (c : UInt8) : W w Unit := prependLocal [c]

/-- `n20_stream_byte_count(s)` used inside of a rendering function (e.g. `src/core/asn1.c` 121, 129, `src/core/x509.c` 67, 73). -/
def byteCount : W w (BitVec w) := fun sp => .ok (streamByteCount sp, sp)

/-! ## `Model/Asn1` -/

/-- `src/core/asn1.c` 30-36: the do-while loop of `n20_asn1_base128_int`. -/
def base128Loop (n : UInt64) (t : UInt8) : W w Unit := do
  prependLocal [t]
  let n' := n >>> 7
  let t' := 0x80 ||| (n' &&& 0x7f).toUInt8
  if n' ≠ 0 then base128Loop n' t' else Pure.pure ()
termination_by n.toNat
decreasing_by
  rename_i h
  have h2 : (n >>> 7).toNat = n.toNat / 128 := by
    rw [UInt64.toNat_shiftRight]; simp [Nat.shiftRight_eq_div_pow]
  have h3 : (n >>> 7).toNat ≠ 0 := by
    intro h0; apply h; apply UInt64.toNat_inj.1; exact h0
  show (n >>> 7).toNat < n.toNat
  omega

/-- `src/core/asn1.c` 25-37: `n20_asn1_base128_int`. -/
def asn1Base128Int (n : UInt64) : W w Unit := base128Loop n (n &&& 0x7f).toUInt8

/-- `src/core/asn1.c` 74-80: the do-while loop writing the long form length; returns the number of bytes. -/
def lengthLoop (len : BitVec w) (l : UInt8) (bytes : BitVec w) : W w (BitVec w) := do
  let bytes := bytes + 1
  prependLocal [l]
  let len' := len >>> 8
  let l' := toOctet (len' &&& 0xff)
  if len' ≠ 0 then lengthLoop len' l' bytes else Pure.pure bytes
termination_by len.toNat
decreasing_by
  rename_i h
  have h2 : (len >>> 8).toNat = len.toNat / 256 := by
    rw [BitVec.toNat_ushiftRight]; simp [Nat.shiftRight_eq_div_pow]
  have h3 : (len >>> 8).toNat ≠ 0 := by
    intro h0; apply h; apply BitVec.eq_of_toNat_eq; rw [h0]; simp
  show (len >>> 8).toNat < len.toNat
  omega

/-- `src/core/asn1.c` 62-87: the length octets of `n20_asn1_header`. -/
def headerLength (len : BitVec w) : W w Unit :=
  if len ≤ 127 then prependLocal [toOctet len]
  else do
    let bytes ← lengthLoop len (toOctet (len &&& 0xff)) 0
    prependLocal [toOctet ((bytes &&& 0x7f) ||| 0x80)]

/-- `src/core/asn1.c` 90-101: the tag of `n20_asn1_header`; returns the low bits of the first identifier octet. -/
def headerTag (tag : UInt32) : W w UInt8 :=
  if tag > 30 then do
    asn1Base128Int tag.toUInt64
    Pure.pure 0x1f
  else Pure.pure (tag &&& 0x1f).toUInt8

/-- `src/core/asn1.c` 54-112: `n20_asn1_header`. -/
def asn1Header (class_ : UInt8) (constructed : Bool) (tag : UInt32) (len : BitVec w) : W w Unit := do
  headerLength len
  let header ← headerTag tag
  let header := header ||| (class_ <<< 6)
  let header := if constructed then header ||| 0x20 else header
  prependLocal [header]

/-- `src/core/asn1.c` 124-130 and 411-419: the extra header of an explicitly tagged structure. -/
def explicitHeader (tagInfo : TagInfo) (mark : BitVec w) : W w Unit :=
  if tagInfo.type = .explicit then do
    let count ← byteCount
    asn1Header classContextSpecific true tagInfo.tag (count - mark)
  else Pure.pure ()

/-- `src/core/asn1.c` 114-131: `n20_asn1_null`. -/
def asn1Null (tagInfo : TagInfo) : W w Unit := do
  let tag : UInt32 := if tagInfo.type = .implicit then tagInfo.tag else 0x5
  let class_ : UInt8 := if tagInfo.type = .implicit then classContextSpecific else classUniversal
  let mark ← byteCount
  asn1Header class_ false tag 0
  explicitHeader tagInfo mark

/-- The invocation of a content callback which may be NULL (`src/core/asn1.c` 398-400).  A callback together with its context
is a writer; `none` is a NULL callback. -/
def callContent : Option (W w Unit) → W w Unit
  | some cb => cb
  | none => Pure.pure ()

/-- `src/core/asn1.c` 390-420: `n20_asn1_header_with_content`. -/
def asn1HeaderWithContent (class_ : UInt8) (constructed : Bool) (tag : UInt32) (contentCb : Option (W w Unit))
    (tagInfo : TagInfo) : W w Unit := do
  let mark ← byteCount
  callContent contentCb
  let class_ : UInt8 := if tagInfo.type = .implicit then classContextSpecific else class_
  let tag : UInt32 := if tagInfo.type = .implicit then tagInfo.tag else tag
  let count ← byteCount
  asn1Header class_ constructed tag (count - mark)
  explicitHeader tagInfo mark

/-- `src/core/asn1.c` 141-144: the loop of `n20_asn1_object_identifier_content`, from element `e - 1` down to element 2;
returns the final `e`. -/
def oidLoop (oid : Oid) : Nat → W w Nat
  | 0 => Pure.pure 0
  | e + 1 =>
    if e + 1 > 2 then do
      let x ← liftM (oid.element e)
      asn1Base128Int x.toUInt64
      oidLoop oid e
    else Pure.pure (e + 1)

/-- `src/core/asn1.c` 133-154: `n20_asn1_object_identifier_content`. -/
def asn1ObjectIdentifierContent (oid : Oid) : W w Unit := do
  let e ← oidLoop oid oid.elemCount.toNat
  let h ← liftM (oidFirstByte oid e)
  prependLocal [h]

/-- `src/core/asn1.c` 156-174: `n20_asn1_object_identifier`. -/
def asn1ObjectIdentifier (oid : Option Oid) (tagInfo : TagInfo) : W w Unit :=
  match oid with
  | none => asn1Null tagInfoNoOverride
  | some oid =>
    if oid.elemCount > 10 then asn1Null tagInfoNoOverride
    else asn1HeaderWithContent classUniversal false 0x6 (some (asn1ObjectIdentifierContent oid)) tagInfo

/-- `src/core/asn1.c` 224-227: the loop writing the remaining bytes, least significant first. Simplification: the byte is
read even when the stream overflowed. -/
def writeLoop (p : Ptr) (inc : Int) (end_ : Int) : Nat → W w Unit
  | 0 => Pure.pure ()
  | rem + 1 => do
    let e := end_ - inc
    let b ← liftM (p.read e)
    prependLocal [b]
    writeLoop p inc e rem

/-- `src/core/asn1.c` 182-232: `n20_asn1_integer_internal_content` for the number given by the `size` bytes at `p`. -/
def asn1IntegerContent (p : Ptr) (size : BitVec w) (littleEndian twoComplement : Bool) : W w Unit := do
  let n : Nat := size.toNat
  let inc : Int := if littleEndian then -1 else 1
  let end_ : Int := if littleEndian then -1 else n
  let negative ← liftM (integerNegative p twoComplement (end_ - n * inc))
  let extra : UInt8 := if negative then 0xff else 0
  let rem ← liftM (stripLoop p extra inc end_ n)
  let addExtra ← liftM (integerAddExtra p negative rem (end_ - rem * inc))
  writeLoop p inc end_ rem
  if addExtra then prependLocal [extra] else Pure.pure ()

/-- `src/core/asn1.c` 234-258: `n20_asn1_integer`. -/
def asn1Integer (n : Slice w) (littleEndian twoComplement : Bool) (tagInfo : TagInfo) : W w Unit :=
  match n.buffer with
  | none => asn1Null tagInfoNoOverride
  | some p =>
    asn1HeaderWithContent classUniversal false 0x2 (some (asn1IntegerContent p n.size littleEndian twoComplement)) tagInfo

/-- `src/core/asn1.c` 260-266: `n20_asn1_uint64`; the slice passed to `n20_asn1_integer` is the object representation of the
parameter `n`, the flag is `LITTLE_ENDIAN == BYTE_ORDER`. -/
def asn1UInt64 (fr : Frame) (n : UInt64) (tagInfo : TagInfo) : W w Unit :=
  asn1Integer ⟨8, some ⟨fr.below, fr.objectBytes n ++ fr.above⟩⟩ (!fr.bigEndian) false tagInfo

/-- `src/core/asn1.c` 268-274: `n20_asn1_int64`; the object representation is two's complement. -/
def asn1Int64 (fr : Frame) (n : Int64) (tagInfo : TagInfo) : W w Unit :=
  asn1Integer ⟨8, some ⟨fr.below, fr.objectBytes n.toUInt64 ++ fr.above⟩⟩ (!fr.bigEndian) true tagInfo

/-- `src/core/asn1.c` 299-302: the loop over the leading bytes of a bit string, from index `bytes - 1` down to 0.
Simplification: the byte is read even when the stream overflowed. -/
def bitstringLoop (p : Ptr) : Nat → W w Unit
  | 0 => Pure.pure ()
  | bytes + 1 => do
    let b ← liftM (p.read bytes)
    prependLocal [b]
    bitstringLoop p bytes

/-- `src/core/asn1.c` 295-303: the contents octets after the first, written when `bytes` is not zero. -/
def bitstringBytes (b : Option Ptr) (bytes : BitVec w) (unused : UInt8) : W w Unit :=
  if bytes = 0 then Pure.pure ()
  else
    match b with
    | none => liftM (Except.error UB.nullDeref : Except UB Unit)
    | some p => do
      let bytes := bytes - 1
      let c ← liftM (p.read bytes.toNat)
      -- `~((1 << unused) - 1)` is computed in `int`, the result is truncated to `uint8_t`
      prependLocal [c &&& ~~~((1 <<< unused) - 1)]
      bitstringLoop p bytes.toNat

/-- `src/core/asn1.c` 281-306: `n20_asn1_bitstring_content`. -/
def asn1BitstringContent (b : Option Ptr) (bits : BitVec w) : W w Unit := do
  let bits : BitVec w := if b.isNone then 0 else bits
  let bytes : BitVec w := (bits + 7) >>> 3
  let unused : UInt8 := toOctet ((8 - (bits &&& 7)) &&& 7)
  bitstringBytes b bytes unused
  prependLocal [unused]

/-- `src/core/asn1.c` 308-325: `n20_asn1_bitstring`. -/
def asn1Bitstring (b : Option Ptr) (bits : BitVec w) (tagInfo : TagInfo) : W w Unit :=
  asn1HeaderWithContent classUniversal false 0x3 (some (asn1BitstringContent b bits)) tagInfo

/-- `src/core/asn1.c` 327-332: `n20_asn1_stringish_content`. -/
def asn1StringishContent (slice : Option (Slice w)) : W w Unit :=
  match slice with
  | none => Pure.pure ()
  | some slice =>
    match slice.buffer with
    | none => Pure.pure ()
    | some p => streamPrepend (some p) slice.size

/-- `src/core/asn1.c` 334-346: `n20_asn1_stringish`. -/
def asn1Stringish (tag : UInt32) (slice : Option (Slice w)) (tagInfo : TagInfo) : W w Unit :=
  asn1HeaderWithContent classUniversal false tag (some (asn1StringishContent slice)) tagInfo

/-- `src/core/asn1.c` 348-352: `n20_asn1_octetstring`. -/
def asn1OctetString (slice : Option (Slice w)) (tagInfo : TagInfo) : W w Unit := asn1Stringish 0x4 slice tagInfo

/-- `src/core/asn1.c` 354-363: `n20_asn1_printablestring`. -/
def asn1PrintableString (str : Option (Slice w)) (tagInfo : TagInfo) : W w Unit :=
  let slice : Slice w := match str with
    | none => Slice.null
    | some s => ⟨s.size, s.buffer⟩
  asn1Stringish 0x13 (some slice) tagInfo

/-- `src/core/asn1.c` 365-374: `n20_asn1_utf8_string`. -/
def asn1Utf8String (str : Option (Slice w)) (tagInfo : TagInfo) : W w Unit :=
  let slice : Slice w := match str with
    | none => Slice.null
    | some s => ⟨s.size, s.buffer⟩
  asn1Stringish 0xC (some slice) tagInfo

/-- `src/core/asn1.c` 376-388: `n20_asn1_generalized_time`. -/
def asn1GeneralizedTime (timeStr : Option (Slice w)) (tagInfo : TagInfo) : W w Unit :=
  match timeStr with
  | none => asn1Null tagInfoNoOverride
  | some s => asn1Stringish 0x18 (some ⟨s.size, s.buffer⟩) tagInfo

/-- `src/core/asn1.c` 422-433: `n20_asn1_sequence`. -/
def asn1Sequence (contentCb : Option (W w Unit)) (tagInfo : TagInfo) : W w Unit :=
  asn1HeaderWithContent classUniversal true 0x10 contentCb tagInfo

/-- `src/core/asn1.c` 435-440: `n20_asn1_boolean_content` (its context is never NULL here). -/
def asn1BooleanContent (v : Bool) : W w Unit := prependLocal [if v then 0xff else 0x00]

/-- `src/core/asn1.c` 442-450: `n20_asn1_boolean`. -/
def asn1Boolean (v : Bool) (tagInfo : TagInfo) : W w Unit :=
  asn1HeaderWithContent classUniversal false 0x1 (some (asn1BooleanContent v)) tagInfo

/-! ## `Model/Cbor` -/

/-- `src/core/cbor.c` 51-54: the loop writing the argument, from byte `i` on with `rem` bytes to go. -/
def cborValueLoop (n : UInt64) (i : Nat) : Nat → W w Unit
  | 0 => Pure.pure ()
  | rem + 1 => do
    let byte : UInt8 := (n >>> (UInt64.ofNat i * 8)).toUInt8
    prependLocal [byte]
    cborValueLoop n (i + 1) rem

/-- `src/core/cbor.c` 23-57: `n20_cbor_write_header`.  The early return for `n < 24` (34-36) is the general path with an empty
loop. -/
def cborWriteHeader (type : UInt32) (n : UInt64) : W w Unit := do
  let undef : Bool := type > 7
  let type : UInt32 := if undef then cborTypeSimpleFloat else type
  let n : UInt64 := if undef then 23 else n
  cborValueLoop n 0 (cborValueSize n)
  prependLocal [cborInitialByte type n]

/-- `src/core/cbor.c` 59-61: `n20_cbor_write_null`. -/
def cborWriteNull : W w Unit := cborWriteHeader cborTypeSimpleFloat 22

/-- `src/core/cbor.c` 63-65: `n20_cbor_write_bool`. -/
def cborWriteBool (b : Bool) : W w Unit := cborWriteHeader cborTypeSimpleFloat (if b then 21 else 20)

/-- `src/core/cbor.c` 67-69: `n20_cbor_write_tag`. -/
def cborWriteTag (tag : UInt64) : W w Unit := cborWriteHeader cborTypeTag tag

/-- `src/core/cbor.c` 71-73: `n20_cbor_write_uint`. -/
def cborWriteUInt (n : UInt64) : W w Unit := cborWriteHeader cborTypeUint n

/-- `src/core/cbor.c` 75-81: `n20_cbor_write_int`. -/
def cborWriteInt (n : Int64) : W w Unit :=
  if 0 ≤ n then cborWriteUInt n.toUInt64
  else do
    let m ← liftM (negMinusOne n)
    cborWriteHeader cborTypeNint m

/-- `src/core/cbor.c` 83-91: `n20_cbor_write_byte_string`. -/
def cborWriteByteString (bytes : Slice w) : W w Unit :=
  if bytes.size > 0 ∧ bytes.buffer = none then cborWriteNull
  else do
    streamPrepend bytes.buffer bytes.size
    cborWriteHeader cborTypeBytes (toUInt64 bytes.size)

/-- `src/core/cbor.c` 93-101: `n20_cbor_write_text_string`. -/
def cborWriteTextString (text : Slice w) : W w Unit :=
  if text.size > 0 ∧ text.buffer = none then cborWriteNull
  else do
    streamPrepend text.buffer text.size
    cborWriteHeader cborTypeString (toUInt64 text.size)

/-- `src/core/cbor.c` 103-105: `n20_cbor_write_array_header`. -/
def cborWriteArrayHeader (len : BitVec w) : W w Unit := cborWriteHeader cborTypeArray (toUInt64 len)

/-- `src/core/cbor.c` 107-109: `n20_cbor_write_map_header`. -/
def cborWriteMapHeader (len : BitVec w) : W w Unit := cborWriteHeader cborTypeMap (toUInt64 len)

/-! ## `Model/X509` -/

/-- `if (c) w;` (e.g. `src/core/x509.c` 114, 147). -/
def whenW (c : Bool) (f : W w Unit) : W w Unit := if c then f else Pure.pure ()

/-- `src/core/x509.c` 22: `n20_x509_no_expiration`. -/
def x509NoExpiration : Slice w := ⟨15, some ⟨[], asciiBytes "99991231235959Z"⟩⟩

/-- `src/core/x509.c` 23: `n20_x509_unix_epoch`. -/
def x509UnixEpoch : Slice w := ⟨15, some ⟨[], asciiBytes "19700101000000Z"⟩⟩

/-- `src/core/x509.c` 33-38: the loop of `n20_x509_serial_as_hex_content` with `i` bytes left to write. -/
def serialHexLoop (p : Ptr) : Nat → W w Unit
  | 0 => Pure.pure ()
  | i + 1 => do
    let c ← liftM (p.read i)
    let hi ← liftM (readElement nibble2ascii (c >>> 4).toNat)
    let lo ← liftM (readElement nibble2ascii (c &&& 0x0f).toNat)
    prependLocal [hi, lo]
    serialHexLoop p i

/-- `src/core/x509.c` 28-40: `n20_x509_serial_as_hex_content`. -/
def serialHexContent (slice : Option (Slice w)) : W w Unit :=
  match slice with
  | none => Pure.pure ()
  | some slice =>
    match slice.buffer with
    | none => Pure.pure ()
    | some p => serialHexLoop p slice.size.toNat

/-- `src/core/x509.c` 42-52: `n20_x509_serial_as_hex_string`. -/
def serialHexString (slice : Option (Slice w)) (tagInfo : TagInfo) : W w Unit :=
  asn1HeaderWithContent classUniversal false 0x13 (some (serialHexContent slice)) tagInfo

/-- `include/nat20/x509.h` 76-117: `n20_x509_rdn_t`.  The two variants of the union are slice types with the same layout. -/
structure Rdn (w : Nat) where
  type : Option Oid
  value : Slice w

/-- `src/core/x509.c` 57-62: the attribute value. -/
def rdnValue (rdn : Rdn w) (isSerial : Bool) : W w Unit :=
  if isSerial then serialHexString (some rdn.value) tagInfoNoOverride
  else asn1PrintableString (some rdn.value) tagInfoNoOverride

/-- `src/core/x509.c` 54-64: `n20_x509_rdn_content`. -/
def rdnContent (rdn : Rdn w) : W w Unit := do
  let isSerial ← liftM (oidEquals rdn.type (some OID_SERIAL_NUMBER))
  rdnValue rdn isSerial
  asn1ObjectIdentifier rdn.type tagInfoNoOverride

/-- `src/core/x509.c` 66-74: `n20_x509_rdn`. -/
def x509Rdn (rdn : Rdn w) : W w Unit := do
  let mark ← byteCount
  asn1Sequence (some (rdnContent rdn)) tagInfoNoOverride
  let count ← byteCount
  asn1Header classUniversal true 0x11 (count - mark)

/-- `include/nat20/x509.h` 153-164: `n20_x509_name_t`; the array has `N20_X509_NAME_MAX_NAME_ELEMENTS` = 8 elements. -/
structure Name (w : Nat) where
  elementCount : BitVec w
  elements : Vector (Rdn w) 8

/-- `src/core/x509.c` 83-85: the loop of `n20_x509_name_content`, with `k` elements left to write. -/
def nameLoop (elements : List (Rdn w)) : Nat → W w Unit
  | 0 => Pure.pure ()
  | k + 1 => do
    let rdn ← liftM (readElement elements k)
    x509Rdn rdn
    nameLoop elements k

/-- `src/core/x509.c` 76-86: `n20_x509_name_content`. -/
def nameContent (name : Option (Name w)) : W w Unit :=
  match name with
  | none => asn1Null tagInfoNoOverride
  | some name =>
    if name.elementCount > 8 then asn1Null tagInfoNoOverride
    else nameLoop name.elements.toList name.elementCount.toNat

/-- `src/core/x509.c` 88-90: `n20_x509_name`. -/
def x509Name (name : Option (Name w)) : W w Unit := asn1Sequence (some (nameContent name)) tagInfoNoOverride

/-- `include/nat20/x509.h` 226-262: `n20_x509_extension_t`; a callback together with its context is a writer. -/
structure Extension (w : Nat) where
  oid : Option Oid
  critical : Bool
  contentCb : Option (W w Unit)

/-- `include/nat20/x509.h` 277-301: `n20_x509_extensions_t`; `extensions` are the accessible elements of the array. -/
structure Extensions (w : Nat) where
  extensionsCount : BitVec w
  extensions : Option (List (Extension w))

/-- `src/core/x509.c` 97-129: one iteration of the loop of `n20_x509_extension_content`. -/
def extensionItem (ext : Extension w) : W w Unit := do
  let mark ← byteCount
  callContent ext.contentCb
  let count ← byteCount
  asn1Header classUniversal false 0x4 (count - mark)
  whenW ext.critical (asn1Boolean true tagInfoNoOverride)
  asn1ObjectIdentifier ext.oid tagInfoNoOverride
  let count ← byteCount
  asn1Header classUniversal true 0x10 (count - mark)

/-- `src/core/x509.c` 97-129: the loop of `n20_x509_extension_content`, with `k` elements left to write. -/
def extensionLoop (extensions : List (Extension w)) : Nat → W w Unit
  | 0 => Pure.pure ()
  | k + 1 => do
    let ext ← liftM (readElement extensions k)
    extensionItem ext
    extensionLoop extensions k

/-- `src/core/x509.c` 92-130: `n20_x509_extension_content`. -/
def extensionContent (exts : Extensions w) : W w Unit :=
  match exts.extensions with
  | none => if exts.extensionsCount = 0 then Pure.pure () else liftM (Except.error UB.nullDeref : Except UB Unit)
  | some extensions => extensionLoop extensions exts.extensionsCount.toNat

/-- `src/core/x509.c` 132-138: `n20_x509_extension`. -/
def x509Extension (exts : Option (Extensions w)) : W w Unit :=
  match exts with
  | none => Pure.pure ()
  | some exts =>
    if exts.extensions.isNone ∨ exts.extensionsCount = 0 then Pure.pure ()
    else asn1Sequence (some (extensionContent exts)) (tagInfoExplicit 3)

/-- `src/core/x509.c` 147-152: the contents of the sequence. -/
def basicConstraintsBody (fr : Frame) (bc : BasicConstraints) : W w Unit :=
  if bc.isCa then do
    whenW bc.hasPathLength (asn1UInt64 fr bc.pathLength.toUInt64 tagInfoNoOverride)
    asn1Boolean true tagInfoNoOverride
  else Pure.pure ()

/-- `src/core/x509.c` 140-158: `n20_x509_ext_basic_constraints_content`. -/
def basicConstraintsContent (fr : Frame) (context : Option BasicConstraints) : W w Unit :=
  match context with
  | none => Pure.pure ()
  | some bc => do
    let mark ← byteCount
    basicConstraintsBody fr bc
    let count ← byteCount
    asn1Header classUniversal true 0x10 (count - mark)

/-- `src/core/x509.c` 160-188: `n20_x509_ext_key_usage_content`. -/
def keyUsageContent (context : Option KeyUsage) : W w Unit :=
  match context with
  | none => Pure.pure ()
  | some ku => asn1Bitstring (localPtr [ku.mask0, ku.mask1]) (BitVec.ofNat w (keyUsageBitCount ku).toNat) tagInfoNoOverride

/-- `src/core/x509.c` 196-205: the algorithm parameters. -/
def algorithmParams (alg : AlgorithmIdentifier) : W w Unit :=
  if alg.variant = 1 then asn1Null tagInfoNoOverride
  else if alg.variant = 2 then asn1ObjectIdentifier alg.ecCurve tagInfoNoOverride
  else Pure.pure ()

/-- `src/core/x509.c` 190-208: `n20_x509_algorithm_identifier_content`. -/
def algorithmIdentifierContent (context : Option AlgorithmIdentifier) : W w Unit :=
  match context with
  | none => Pure.pure ()
  | some alg => do
    algorithmParams alg
    asn1ObjectIdentifier alg.oid tagInfoNoOverride

/-- `src/core/x509.c` 210-216: `n20_x509_algorithm_identifier`. -/
def x509AlgorithmIdentifier (alg : Option AlgorithmIdentifier) : W w Unit :=
  asn1Sequence (some (algorithmIdentifierContent alg)) tagInfoNoOverride

/-- `include/nat20/x509.h` 655-680: `n20_x509_public_key_info_t`. -/
structure PublicKeyInfo (w : Nat) where
  algorithmIdentifier : AlgorithmIdentifier
  publicKeyBits : BitVec w
  publicKey : Option Ptr

/-- `src/core/x509.c` 218-225: `n20_x509_public_key_info_content`. -/
def publicKeyInfoContent (context : Option (PublicKeyInfo w)) : W w Unit :=
  match context with
  | none => liftM (Except.error UB.nullDeref : Except UB Unit)
  | some info => do
    asn1Bitstring info.publicKey info.publicKeyBits tagInfoNoOverride
    x509AlgorithmIdentifier (some info.algorithmIdentifier)

/-- `src/core/x509.c` 227-233: `n20_x509_public_key_info`. -/
def x509PublicKeyInfo (info : Option (PublicKeyInfo w)) : W w Unit :=
  asn1Sequence (some (publicKeyInfoContent info)) tagInfoNoOverride

/-- `include/nat20/x509.h` 690-710: `n20_x509_validity_t`. -/
structure Validity (w : Nat) where
  notBefore : Slice w
  notAfter : Slice w

/-- `src/core/x509.c` 235-247: `n20_x509_validity_content`. -/
def validityContent (context : Option (Validity w)) : W w Unit :=
  match context with
  | none => liftM (Except.error UB.nullDeref : Except UB Unit)
  | some v => do
    asn1GeneralizedTime (some (if v.notAfter.buffer ≠ none then v.notAfter else x509NoExpiration)) tagInfoNoOverride
    asn1GeneralizedTime (some (if v.notBefore.buffer ≠ none then v.notBefore else x509UnixEpoch)) tagInfoNoOverride

/-- `src/core/x509.c` 249-252: `n20_x509_validity`. -/
def x509Validity (v : Option (Validity w)) : W w Unit := asn1Sequence (some (validityContent v)) tagInfoNoOverride

/-- `src/core/x509.c` 254-259: `n20_x509_version_3`. -/
def x509Version3 : W w Unit := prependLocal [0xa0, 0x03, 0x02, 0x01, 0x02]

/-- `include/nat20/x509.h` 729-795: `n20_x509_tbs_t`. -/
structure Tbs (w : Nat) where
  serialNumber : Slice w
  signatureAlgorithm : AlgorithmIdentifier
  issuerName : Name w
  validity : Validity w
  subjectName : Name w
  subjectPublicKeyInfo : PublicKeyInfo w
  extensions : Extensions w

/-- `src/core/x509.c` 288-299: the serial number. -/
def tbsSerial (fr : Frame) (serial : Slice w) : W w Unit :=
  if serial.size = 0 then asn1UInt64 fr 0 tagInfoNoOverride
  else asn1Integer serial false false tagInfoNoOverride

/-- `src/core/x509.c` 261-303: `n20_x509_cert_tbs_content`. -/
def certTbsContent (fr : Frame) (context : Option (Tbs w)) : W w Unit :=
  match context with
  | none => Pure.pure ()
  | some tbs => do
    x509Extension (some tbs.extensions)
    x509PublicKeyInfo (some tbs.subjectPublicKeyInfo)
    x509Name (some tbs.subjectName)
    x509Validity (some tbs.validity)
    x509Name (some tbs.issuerName)
    x509AlgorithmIdentifier (some tbs.signatureAlgorithm)
    tbsSerial fr tbs.serialNumber
    x509Version3

/-- `src/core/x509.c` 305-307: `n20_x509_cert_tbs`. -/
def x509CertTbs (fr : Frame) (tbs : Option (Tbs w)) : W w Unit := asn1Sequence (some (certTbsContent fr tbs)) tagInfoNoOverride

/-- `include/nat20/x509.h` 809-862: `n20_x509_t`. -/
structure X509 (w : Nat) where
  tbs : Option (Tbs w)
  signatureAlgorithm : AlgorithmIdentifier
  signatureBits : BitVec w
  signature : Option Ptr

/-- `src/core/x509.c` 309-317: `n20_x509_cert_content`. -/
def certContent (fr : Frame) (context : Option (X509 w)) : W w Unit :=
  match context with
  | none => Pure.pure ()
  | some x509 => do
    asn1Bitstring x509.signature x509.signatureBits tagInfoNoOverride
    x509AlgorithmIdentifier (some x509.signatureAlgorithm)
    x509CertTbs fr x509.tbs

/-- `src/core/x509.c` 319-321: `n20_x509_cert`. -/
def x509Cert (fr : Frame) (x509 : Option (X509 w)) : W w Unit := asn1Sequence (some (certContent fr x509)) tagInfoNoOverride

/-! ## `Model/Dice` -/

/-- `include/nat20/x509_ext_open_dice_input.h` 69-156: `n20_x509_ext_open_dice_input_t`; `mode` is the enum as a number. -/
structure OpenDiceInput (w : Nat) where
  codeHash : Slice w
  codeDescriptor : Slice w
  configurationHash : Slice w
  configurationDescriptor : Slice w
  authorityHash : Slice w
  authorityDescriptor : Slice w
  mode : UInt32
  profileName : Slice w

/-- `src/core/x509_ext_open_dice_input.c` 22-69: `n20_x509_ext_open_dice_input_sequence_content`. -/
def openDiceInputSequence (fr : Frame) (i : OpenDiceInput w) : W w Unit := do
  whenW i.profileName.buffer.isSome (asn1Utf8String (some i.profileName) (tagInfoExplicit 7))
  asn1UInt64 fr i.mode.toUInt64 (tagInfoExplicit 6)
  whenW i.authorityDescriptor.buffer.isSome (asn1OctetString (some i.authorityDescriptor) (tagInfoExplicit 5))
  whenW i.authorityHash.buffer.isSome (asn1OctetString (some i.authorityHash) (tagInfoExplicit 4))
  whenW i.configurationDescriptor.buffer.isSome (asn1OctetString (some i.configurationDescriptor) (tagInfoExplicit 3))
  whenW i.configurationHash.buffer.isSome (asn1OctetString (some i.configurationHash) (tagInfoExplicit 2))
  whenW i.codeDescriptor.buffer.isSome (asn1OctetString (some i.codeDescriptor) (tagInfoExplicit 1))
  whenW i.codeHash.buffer.isSome (asn1OctetString (some i.codeHash) (tagInfoExplicit 0))

/-- `src/core/x509_ext_open_dice_input.c` 71-78: `n20_x509_ext_open_dice_input_content`. -/
def openDiceInputContent (fr : Frame) (context : Option (OpenDiceInput w)) : W w Unit :=
  match context with
  | none => Pure.pure ()
  | some i => asn1Sequence (some (openDiceInputSequence fr i)) tagInfoNoOverride

/-- `include/nat20/x509_ext_tcg_dice_tcb_info.h` 150-167: `n20_x509_ext_tcg_dice_tcb_info_fwid_t`. -/
structure Fwid (w : Nat) where
  hashAlgo : Oid
  digest : Slice w

/-- `include/nat20/x509_ext_tcg_dice_tcb_info.h` 206-282: `n20_x509_ext_tcg_dice_tcb_info_t`; `fwids` is the pointer
`fwids.list` to the accessible elements and `fwidsCount` is `fwids.count`. -/
structure TcbInfo (w : Nat) where
  vendor : Slice w
  model : Slice w
  version : Slice w
  svn : Int64
  layer : Int64
  index : Int64
  fwids : Option (List (Fwid w))
  fwidsCount : BitVec w
  flags : OperationalFlags
  flagsMask : OperationalFlags
  vendorInfo : Slice w
  type : Slice w

/-- `src/core/x509_ext_tcg_dice_tcb_info.c` 22-34: `n20_x509_tcg_dice_tcb_info_fwid_content`. -/
def fwidContent (f : Fwid w) : W w Unit := do
  asn1OctetString (some f.digest) tagInfoNoOverride
  asn1ObjectIdentifier (some f.hashAlgo) tagInfoNoOverride

/-- `src/core/x509_ext_tcg_dice_tcb_info.c` 44-49: the loop of `n20_x509_tcg_dice_tcb_info_fwid_list_content`. -/
def fwidLoop (list : List (Fwid w)) : Nat → W w Unit
  | 0 => Pure.pure ()
  | count + 1 => do
    let f ← liftM (readElement list count)
    asn1Sequence (some (fwidContent f)) tagInfoNoOverride
    fwidLoop list count

/-- `src/core/x509_ext_tcg_dice_tcb_info.c` 36-50: `n20_x509_tcg_dice_tcb_info_fwid_list_content` and the check in lines
80-85. -/
def fwidsField (t : TcbInfo w) : W w Unit :=
  match t.fwids with
  | none => Pure.pure ()
  | some list => asn1Sequence (some (fwidLoop list t.fwidsCount.toNat)) (tagInfoImplicit 6)

/-- `src/core/x509_ext_tcg_dice_tcb_info.c` 52-110: `n20_x509_ext_tcg_dice_tcb_info_sequence_content`. -/
def tcbInfoSequence (fr : Frame) (t : TcbInfo w) : W w Unit := do
  asn1Bitstring (localPtr t.flagsMask.mask.toList) (8 * 4) (tagInfoImplicit 10)
  whenW t.type.buffer.isSome (asn1OctetString (some t.type) (tagInfoImplicit 9))
  whenW t.vendorInfo.buffer.isSome (asn1OctetString (some t.vendorInfo) (tagInfoImplicit 8))
  asn1Bitstring (localPtr t.flags.mask.toList) (8 * 4) (tagInfoImplicit 7)
  fwidsField t
  asn1Int64 fr t.index (tagInfoImplicit 5)
  asn1Int64 fr t.layer (tagInfoImplicit 4)
  asn1Int64 fr t.svn (tagInfoImplicit 3)
  whenW t.version.buffer.isSome (asn1Utf8String (some t.version) (tagInfoImplicit 2))
  whenW t.model.buffer.isSome (asn1Utf8String (some t.model) (tagInfoImplicit 1))
  whenW t.vendor.buffer.isSome (asn1Utf8String (some t.vendor) (tagInfoImplicit 0))

/-- `src/core/x509_ext_tcg_dice_tcb_info.c` 112-121: `n20_x509_ext_tcg_dice_tcb_info_content`. -/
def tcbInfoContent (fr : Frame) (context : Option (TcbInfo w)) : W w Unit :=
  match context with
  | none => Pure.pure ()
  | some t => asn1Sequence (some (tcbInfoSequence fr t)) tagInfoNoOverride

/-- `include/nat20/x509_ext_tcg_dice_tcb_info.h` 315-328: `n20_x509_ext_tcg_dice_multi_tcb_info_t`. -/
structure MultiTcbInfo (w : Nat) where
  list : Option (List (TcbInfo w))
  count : BitVec w

/-- `src/core/x509_ext_tcg_dice_tcb_info.c` 133-136: the loop. -/
def multiTcbInfoLoop (fr : Frame) (list : List (TcbInfo w)) : Nat → W w Unit
  | 0 => Pure.pure ()
  | count + 1 => do
    let t ← liftM (readElement list count)
    tcbInfoContent fr (some t)
    multiTcbInfoLoop fr list count

/-- `src/core/x509_ext_tcg_dice_tcb_info.c` 123-137: `n20_x509_ext_tcg_dice_multi_tcb_info_sequence_content`. -/
def multiTcbInfoSequence (fr : Frame) (m : MultiTcbInfo w) : W w Unit :=
  match m.list with
  | none => Pure.pure ()
  | some list => multiTcbInfoLoop fr list m.count.toNat

/-- `src/core/x509_ext_tcg_dice_tcb_info.c` 139-148: `n20_x509_ext_tcg_dice_multi_tcb_info_content`. -/
def multiTcbInfoContent (fr : Frame) (context : Option (MultiTcbInfo w)) : W w Unit :=
  match context with
  | none => Pure.pure ()
  | some m => asn1Sequence (some (multiTcbInfoSequence fr m)) tagInfoNoOverride

/-- `src/core/x509_ext_tcg_dice_ueid.c` 22-37: `n20_x509_ext_tcg_dice_ueid_sequence_content` and
`n20_x509_ext_tcg_dice_ueid_content`; the context struct has one slice. -/
def ueidContent (context : Option (Slice w)) : W w Unit :=
  match context with
  | none => Pure.pure ()
  | some ueid => asn1Sequence (some (asn1OctetString (some ueid) tagInfoNoOverride)) tagInfoNoOverride

/-- `src/core/x509_ext_tcg_dice_tcb_freshness.c` 22-41: `n20_x509_ext_tcg_dice_tcb_freshness_sequence_content` and
`n20_x509_ext_tcg_dice_tcb_freshness_content`; the context struct has one slice. -/
def freshnessContent (context : Option (Slice w)) : W w Unit :=
  match context with
  | none => Pure.pure ()
  | some nonce => asn1Sequence (some (asn1OctetString (some nonce) tagInfoNoOverride)) tagInfoNoOverride

end Nat20.Sized
