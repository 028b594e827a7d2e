import Verif.Model.Steps
import Verif.Model.Cbor
import Verif.Model.Dice
/-!
# Model of the rendering functions with addresses, access by access

`Model/Stream`, `Model/Asn1`, `Model/Cbor`, `Model/X509` and `Model/Dice` give every argument of a rendering function its own memory.
Here the buffer of the stream and the octets that are rendered are addresses in one memory (that of `Model/Arena`), so that they can
overlap, and a rendering function is a program (`Prog` of `Model/Steps`) in which every octet is read and written when the code does so.
`stream.c`, `asn1.c`, `cbor.c`, `x509.c`, `x509_ext_*.c` below stand for the files in `src/core`.

Simplifications: the struct `n20_stream_t` and the structs that describe what to render (slices, object identifiers, names, ...) are
passed by value, so that only the octets of the buffer and of the rendered strings are in memory; branches are not recorded as events.
The functions have the structure of those of the same name without `P`, to which they refer for details.
-/

namespace Nat20

/-- A non-NULL pointer to octets to be rendered: an address, or a pointer to an object that nobody can write to: a variable of the
library or a constant (`stream.c` 65, `asn1.c` 31, 262, `x509.c` 22-23, 186). -/
inductive Source where
  | mem (a : Addr)
  | const (p : Ptr)
  deriving DecidableEq, Repr

/-- `include/nat20/types.h` 46-62 and 96-112: `n20_slice_t` and `n20_string_slice_t`. -/
structure RSlice where
  size : UInt64
  buffer : Option Source
  deriving DecidableEq, Repr

/-- `N20_SLICE_NULL` (`include/nat20/types.h` 78). -/
def RSlice.null : RSlice := ⟨0, none⟩

/-- `include/nat20/stream.h` 41-95: `struct n20_stream_s`. -/
structure SVars where
  begin_ : Option Addr
  size : UInt64
  writePosition : UInt64
  bufferOverflow : Bool
  writePositionOverflow : Bool
  deriving DecidableEq, Repr

/-- Rendering functions take a NULL-able pointer to a stream (the first parameter of all functions in `stream.c` 20-83, `asn1.c`, `cbor.c`,
`x509.c`). -/
abbrev WP (α : Type) := StateT (Option SVars) Prog α

/-- `stream.c` 20-31, `n20_stream_init` for a non-NULL stream. -/
def streamInitP (buffer : Option Addr) (bufferSize : UInt64) : SVars :=
  { begin_ := buffer
    size := if buffer.isNone then 0 else bufferSize
    writePosition := 0
    bufferOverflow := buffer.isNone
    writePositionOverflow := false }

/-- A statement that does not use the stream (e.g. `asn1.c` 207, `x509.c` 34). -/
def liftP {α : Type} (p : Prog α) : WP α := fun s => p >>= fun x => .done (x, s)

/-- A computation without access to memory (e.g. `asn1.c` 146-152, `cbor.c` 79). -/
def pureP {α : Type} : Except UB α → Prog α
  | .ok x => .done x
  | .error u => .crash u

/-- The C expression `p[i]` for a possibly negative index (e.g. `asn1.c` 226, `x509.c` 34). -/
def Source.readP (s : Source) (i : Int) : Prog UInt8 :=
  match s with
  | .mem a => if 0 ≤ (a.off : Int) + i then .load ⟨a.region, ((a.off : Int) + i).toNat⟩ .done else .crash .oobRead
  | .const p => pureP (p.read i)

/-- Writes octets that are not in memory (`stream.c` 77). -/
def putP (dst : Addr) : Bytes → Prog Unit
  | [] => .done ()
  | b :: l => .store dst b (putP (dst.plus 1) l)

/-- The `n` octets at `a` and the `n` octets at `b` have an octet in common (for the `memcpy` in `stream.c` 77). -/
def Addr.Overlaps (a b : Addr) (n : Nat) : Prop := a.region = b.region ∧ a.off < b.off + n ∧ b.off < a.off + n

instance (a b : Addr) (n : Nat) : Decidable (a.Overlaps b n) := by unfold Addr.Overlaps; infer_instance

/-- `memcpy(dst, src, len)` (`stream.c` 77).  It is undefined when source and destination overlap (C11 7.24.2.1p2). -/
def memcpyP (dst : Addr) (src : Source) (len : Nat) : Prog Unit :=
  match src with
  | .mem a => if dst.Overlaps a len then .crash .overlap else copyP dst a len 0
  | .const p => if p.data.length < len then .crash .oobRead else putP dst (p.data.take len)

/-- `stream.c` 64-79, `n20_stream_prepend`. -/
def streamPrependP (src : Option Source) (srcLen : UInt64) : WP Unit := fun sp =>
  match sp with
  | none => .done ((), none)
  | some s =>
    let oldPos := s.writePosition
    let pos := oldPos + srcLen
    let wpo := s.writePositionOverflow || decide (pos < oldPos)
    let bo := wpo || s.bufferOverflow || decide (s.size < pos)
    let s1 : SVars := { s with writePosition := pos, writePositionOverflow := wpo, bufferOverflow := bo }
    if bo then .done ((), some s1)
    else
      match s.begin_, src with
      | some d, some src => do
        memcpyP (d.plus (s.size - pos).toNat) src srcLen.toNat
        .done ((), some s1)
      | _, _ => .crash .nullMemcpy

/-- `n20_stream_prepend(s, x, n)` for a local array `x` of `n` bytes (e.g. `asn1.c` 31, 66, 77, `cbor.c` 35, `stream.c` 82). -/
def prependLocalP (bs : Bytes) : WP Unit := streamPrependP (some (.const ⟨[], bs⟩)) (UInt64.ofNat bs.length)

/-- `stream.c` 81-83, `n20_stream_put`. -/
def streamPutP (c : UInt8) : WP Unit := prependLocalP [c]

/-- `n20_stream_byte_count(s)` (`stream.c` 47-49) used inside of a rendering function (e.g. `asn1.c` 121, 129, `x509.c` 67, 73). -/
def byteCountP : WP UInt64 := fun sp => .done (match sp with
  | none => 0
  | some s => s.writePosition, sp)

/-! ## asn1.c -/

/-- `asn1.c` 30-36: the do-while loop of `n20_asn1_base128_int`. -/
def base128LoopP (n : UInt64) (t : UInt8) : WP Unit := do
  prependLocalP [t]
  let n' := n >>> 7
  let t' := 0x80 ||| (n' &&& 0x7f).toUInt8
  if n' ≠ 0 then base128LoopP n' t' else Pure.pure ()
termination_by n.toNat
decreasing_by
  rename_i h
  have h2 : (n >>> 7).toNat = n.toNat / 128 := by
    rw [UInt64.toNat_shiftRight]; simp [Nat.shiftRight_eq_div_pow]
  have h3 : (n >>> 7).toNat ≠ 0 := by
    intro h0; apply h; apply UInt64.toNat_inj.1; exact h0
  show (n >>> 7).toNat < n.toNat
  omega

/-- `asn1.c` 25-37: `n20_asn1_base128_int`. -/
def asn1Base128IntP (n : UInt64) : WP Unit := base128LoopP n (n &&& 0x7f).toUInt8

/-- `asn1.c` 74-80: the do-while loop writing the long form length; returns the number of bytes. -/
def lengthLoopP (len : UInt64) (l : UInt8) (bytes : UInt64) : WP UInt64 := do
  let bytes := bytes + 1
  prependLocalP [l]
  let len' := len >>> 8
  let l' := (len' &&& 0xff).toUInt8
  if len' ≠ 0 then lengthLoopP len' l' bytes else Pure.pure bytes
termination_by len.toNat
decreasing_by
  rename_i h
  have h2 : (len >>> 8).toNat = len.toNat / 256 := by
    rw [UInt64.toNat_shiftRight]; simp [Nat.shiftRight_eq_div_pow]
  have h3 : (len >>> 8).toNat ≠ 0 := by
    intro h0; apply h; apply UInt64.toNat_inj.1; exact h0
  show (len >>> 8).toNat < len.toNat
  omega

/-- `asn1.c` 62-87: the length octets of `n20_asn1_header`. -/
def headerLengthP (len : UInt64) : WP Unit :=
  if len ≤ 127 then prependLocalP [len.toUInt8]
  else do
    let bytes ← lengthLoopP len (len &&& 0xff).toUInt8 0
    prependLocalP [((bytes &&& 0x7f) ||| 0x80).toUInt8]

/-- `asn1.c` 90-101: the tag of `n20_asn1_header`; returns the low bits of the first identifier octet. -/
def headerTagP (tag : UInt32) : WP UInt8 :=
  if tag > 30 then do
    asn1Base128IntP tag.toUInt64
    Pure.pure 0x1f
  else Pure.pure (tag &&& 0x1f).toUInt8

/-- `asn1.c` 54-112: `n20_asn1_header`. -/
def asn1HeaderP (class_ : UInt8) (constructed : Bool) (tag : UInt32) (len : UInt64) : WP Unit := do
  headerLengthP len
  let header ← headerTagP tag
  let header := header ||| (class_ <<< 6)
  let header := if constructed then header ||| 0x20 else header
  prependLocalP [header]

/-- `asn1.c` 124-130 and 411-419: the extra header of an explicitly tagged structure. -/
def explicitHeaderP (tagInfo : TagInfo) (mark : UInt64) : WP Unit :=
  if tagInfo.type = .explicit then do
    let count ← byteCountP
    asn1HeaderP classContextSpecific true tagInfo.tag (count - mark)
  else Pure.pure ()

/-- `asn1.c` 114-131: `n20_asn1_null`. -/
def asn1NullP (tagInfo : TagInfo) : WP Unit := do
  let tag : UInt32 := if tagInfo.type = .implicit then tagInfo.tag else 0x5
  let class_ : UInt8 := if tagInfo.type = .implicit then classContextSpecific else classUniversal
  let mark ← byteCountP
  asn1HeaderP class_ false tag 0
  explicitHeaderP tagInfo mark

/-- The invocation of a content callback which may be NULL (`asn1.c` 398-400). -/
def callContentP : Option (WP Unit) → WP Unit
  | some cb => cb
  | none => Pure.pure ()

/-- `asn1.c` 390-420: `n20_asn1_header_with_content`. -/
def asn1HeaderWithContentP (class_ : UInt8) (constructed : Bool) (tag : UInt32) (contentCb : Option (WP Unit)) (tagInfo : TagInfo) : WP Unit := do
  let mark ← byteCountP
  callContentP contentCb
  let class_ : UInt8 := if tagInfo.type = .implicit then classContextSpecific else class_
  let tag : UInt32 := if tagInfo.type = .implicit then tagInfo.tag else tag
  let count ← byteCountP
  asn1HeaderP class_ constructed tag (count - mark)
  explicitHeaderP tagInfo mark

/-- `asn1.c` 141-144: the loop of `n20_asn1_object_identifier_content`. -/
def oidLoopP (oid : Oid) : Nat → WP Nat
  | 0 => Pure.pure 0
  | e + 1 =>
    if e + 1 > 2 then do
      let x ← liftP (pureP (oid.element e))
      asn1Base128IntP x.toUInt64
      oidLoopP oid e
    else Pure.pure (e + 1)

/-- `asn1.c` 133-154: `n20_asn1_object_identifier_content`. -/
def asn1ObjectIdentifierContentP (oid : Oid) : WP Unit := do
  let e ← oidLoopP oid oid.elemCount.toNat
  let h ← liftP (pureP (oidFirstByte oid e))
  prependLocalP [h]

/-- `asn1.c` 156-174: `n20_asn1_object_identifier`. -/
def asn1ObjectIdentifierP (oid : Option Oid) (tagInfo : TagInfo) : WP Unit :=
  match oid with
  | none => asn1NullP tagInfoNoOverride
  | some oid =>
    if oid.elemCount > 10 then asn1NullP tagInfoNoOverride
    else asn1HeaderWithContentP classUniversal false 0x6 (some (asn1ObjectIdentifierContentP oid)) tagInfo

/-- `asn1.c` 207-209 and 216-218: the loop which strips insignificant bytes. -/
def stripLoopP (p : Source) (pad : UInt8) (inc end_ : Int) : Nat → Prog Nat
  | 0 => do
    let _ ← p.readP end_
    .done 0
  | rem + 1 => do
    let b ← p.readP (end_ - (rem + 1) * inc)
    if b = pad then stripLoopP p pad inc end_ rem else .done (rem + 1)

/-- `asn1.c` 224-227: the loop writing the remaining bytes. -/
def writeLoopP (p : Source) (inc : Int) (end_ : Int) : Nat → WP Unit
  | 0 => Pure.pure ()
  | rem + 1 => do
    let b ← liftP (p.readP (end_ - inc))
    prependLocalP [b]
    writeLoopP p inc (end_ - inc) rem

/-- `asn1.c` 205: `number->two_complement && (*msb & 0x80)`. -/
def integerNegativeP (p : Source) (twoComplement : Bool) (msb : Int) : Prog Bool :=
  if twoComplement then do
    let b ← p.readP msb
    .done (b &&& 0x80 != 0)
  else .done false

/-- `asn1.c` 212 and 221: `add_extra = msb == end || ...`. -/
def integerAddExtraP (p : Source) (negative : Bool) (rem : Nat) (msb : Int) : Prog Bool :=
  if rem = 0 then .done true
  else do
    let b ← p.readP msb
    .done (if negative then b &&& 0x80 == 0 else b &&& 0x80 != 0)

/-- `asn1.c` 182-232: `n20_asn1_integer_internal_content`. -/
def asn1IntegerContentP (p : Source) (size : UInt64) (littleEndian twoComplement : Bool) : WP Unit := do
  let n : Nat := size.toNat
  let inc : Int := if littleEndian then -1 else 1
  let end_ : Int := if littleEndian then -1 else n
  let negative ← liftP (integerNegativeP p twoComplement (end_ - n * inc))
  let extra : UInt8 := if negative then 0xff else 0
  let rem ← liftP (stripLoopP p extra inc end_ n)
  let addExtra ← liftP (integerAddExtraP p negative rem (end_ - rem * inc))
  writeLoopP p inc end_ rem
  if addExtra then prependLocalP [extra] else Pure.pure ()

/-- `asn1.c` 234-258: `n20_asn1_integer`. -/
def asn1IntegerP (n : RSlice) (littleEndian twoComplement : Bool) (tagInfo : TagInfo) : WP Unit :=
  match n.buffer with
  | none => asn1NullP tagInfoNoOverride
  | some p =>
    asn1HeaderWithContentP classUniversal false 0x2 (some (asn1IntegerContentP p n.size littleEndian twoComplement)) tagInfo

/-- `asn1.c` 260-266: `n20_asn1_uint64`. -/
def asn1UInt64P (fr : Frame) (n : UInt64) (tagInfo : TagInfo) : WP Unit :=
  asn1IntegerP ⟨8, some (.const ⟨fr.below, fr.objectBytes n ++ fr.above⟩)⟩ (!fr.bigEndian) false tagInfo

/-- `asn1.c` 268-274: `n20_asn1_int64`. -/
def asn1Int64P (fr : Frame) (n : Int64) (tagInfo : TagInfo) : WP Unit :=
  asn1IntegerP ⟨8, some (.const ⟨fr.below, fr.objectBytes n.toUInt64 ++ fr.above⟩)⟩ (!fr.bigEndian) true tagInfo

/-- `asn1.c` 299-302: the loop over the leading bytes of a bit string. -/
def bitstringLoopP (p : Source) : Nat → WP Unit
  | 0 => Pure.pure ()
  | bytes + 1 => do
    let b ← liftP (p.readP bytes)
    prependLocalP [b]
    bitstringLoopP p bytes

/-- `asn1.c` 295-303: the contents octets after the first. -/
def bitstringBytesP (b : Option Source) (bytes : UInt64) (unused : UInt8) : WP Unit :=
  if bytes = 0 then Pure.pure ()
  else
    match b with
    | none => liftP (pureP (.error .nullDeref))
    | some p => do
      let bytes := bytes - 1
      let c ← liftP (p.readP bytes.toNat)
      prependLocalP [c &&& ~~~((1 <<< unused) - 1)]
      bitstringLoopP p bytes.toNat

/-- `asn1.c` 281-306: `n20_asn1_bitstring_content`. -/
def asn1BitstringContentP (b : Option Source) (bits : UInt64) : WP Unit := do
  let bits : UInt64 := if b.isNone then 0 else bits
  let bytes : UInt64 := (bits + 7) >>> 3
  let unused : UInt8 := ((8 - (bits &&& 7)) &&& 7).toUInt8
  bitstringBytesP b bytes unused
  prependLocalP [unused]

/-- `asn1.c` 308-325: `n20_asn1_bitstring`. -/
def asn1BitstringP (b : Option Source) (bits : UInt64) (tagInfo : TagInfo) : WP Unit :=
  asn1HeaderWithContentP classUniversal false 0x3 (some (asn1BitstringContentP b bits)) tagInfo

/-- `asn1.c` 327-332: `n20_asn1_stringish_content`. -/
def asn1StringishContentP (slice : Option RSlice) : WP Unit :=
  match slice with
  | none => Pure.pure ()
  | some slice =>
    match slice.buffer with
    | none => Pure.pure ()
    | some p => streamPrependP (some p) slice.size

/-- `asn1.c` 334-346: `n20_asn1_stringish`. -/
def asn1StringishP (tag : UInt32) (slice : Option RSlice) (tagInfo : TagInfo) : WP Unit :=
  asn1HeaderWithContentP classUniversal false tag (some (asn1StringishContentP slice)) tagInfo

/-- `asn1.c` 348-352: `n20_asn1_octetstring`. -/
def asn1OctetStringP (slice : Option RSlice) (tagInfo : TagInfo) : WP Unit := asn1StringishP 0x4 slice tagInfo

/-- `asn1.c` 354-363: `n20_asn1_printablestring`. -/
def asn1PrintableStringP (str : Option RSlice) (tagInfo : TagInfo) : WP Unit := asn1StringishP 0x13 (some (str.getD RSlice.null)) tagInfo

/-- `asn1.c` 365-374: `n20_asn1_utf8_string`. -/
def asn1Utf8StringP (str : Option RSlice) (tagInfo : TagInfo) : WP Unit := asn1StringishP 0xC (some (str.getD RSlice.null)) tagInfo

/-- `asn1.c` 376-388: `n20_asn1_generalized_time`. -/
def asn1GeneralizedTimeP (timeStr : Option RSlice) (tagInfo : TagInfo) : WP Unit :=
  match timeStr with
  | none => asn1NullP tagInfoNoOverride
  | some s => asn1StringishP 0x18 (some s) tagInfo

/-- `asn1.c` 422-433: `n20_asn1_sequence`. -/
def asn1SequenceP (contentCb : Option (WP Unit)) (tagInfo : TagInfo) : WP Unit :=
  asn1HeaderWithContentP classUniversal true 0x10 contentCb tagInfo

/-- `asn1.c` 435-450: `n20_asn1_boolean_content` and `n20_asn1_boolean`. -/
def asn1BooleanP (v : Bool) (tagInfo : TagInfo) : WP Unit :=
  asn1HeaderWithContentP classUniversal false 0x1 (some (prependLocalP [if v then 0xff else 0x00])) tagInfo

/-! ## cbor.c -/

/-- `cbor.c` 51-54: the loop writing the argument. -/
def cborValueLoopP (n : UInt64) (i : Nat) : Nat → WP Unit
  | 0 => Pure.pure ()
  | rem + 1 => do
    let byte : UInt8 := (n >>> (UInt64.ofNat i * 8)).toUInt8
    prependLocalP [byte]
    cborValueLoopP n (i + 1) rem

/-- `cbor.c` 23-57: `n20_cbor_write_header`. -/
def cborWriteHeaderP (type : UInt32) (n : UInt64) : WP Unit := do
  let undef : Bool := type > 7
  let type : UInt32 := if undef then cborTypeSimpleFloat else type
  let n : UInt64 := if undef then 23 else n
  cborValueLoopP n 0 (cborValueSize n)
  prependLocalP [cborInitialByte type n]

/-- `cbor.c` 59-61: `n20_cbor_write_null`. -/
def cborWriteNullP : WP Unit := cborWriteHeaderP cborTypeSimpleFloat 22

/-- `cbor.c` 75-81: `n20_cbor_write_int`. -/
def cborWriteIntP (n : Int64) : WP Unit :=
  if 0 ≤ n then cborWriteHeaderP cborTypeUint n.toUInt64
  else do
    let m ← liftP (pureP (negMinusOne n))
    cborWriteHeaderP cborTypeNint m

/-- `cbor.c` 83-101: `n20_cbor_write_byte_string` and `n20_cbor_write_text_string`. -/
def cborWriteStringP (type : UInt32) (bytes : RSlice) : WP Unit :=
  if bytes.size > 0 ∧ bytes.buffer = none then cborWriteNullP
  else do
    streamPrependP bytes.buffer bytes.size
    cborWriteHeaderP type bytes.size

/-! ## x509.c -/

/-- `if (c) w;` (e.g. `x509.c` 114, 147). -/
def whenP (c : Bool) (w : WP Unit) : WP Unit := if c then w else Pure.pure ()

/-- `x509.c` 33-38: the loop of `n20_x509_serial_as_hex_content` with `i` bytes left to write. -/
def serialHexLoopP (p : Source) : Nat → WP Unit
  | 0 => Pure.pure ()
  | i + 1 => do
    let c ← liftP (p.readP i)
    let hi ← liftP (pureP (readElement nibble2ascii (c >>> 4).toNat))
    let lo ← liftP (pureP (readElement nibble2ascii (c &&& 0x0f).toNat))
    prependLocalP [hi, lo]
    serialHexLoopP p i

/-- `x509.c` 28-40: `n20_x509_serial_as_hex_content` (its context is never NULL here). -/
def serialHexContentP (slice : RSlice) : WP Unit :=
  match slice.buffer with
  | none => Pure.pure ()
  | some p => serialHexLoopP p slice.size.toNat

/-- `x509.c` 42-52: `n20_x509_serial_as_hex_string`. -/
def serialHexStringP (slice : RSlice) (tagInfo : TagInfo) : WP Unit :=
  asn1HeaderWithContentP classUniversal false 0x13 (some (serialHexContentP slice)) tagInfo

/-- `include/nat20/x509.h` 76-117: `n20_x509_rdn_t`. -/
structure RRdn where
  type : Option Oid
  value : RSlice

/-- `x509.c` 57-62: the attribute value. -/
def rdnValueP (rdn : RRdn) (isSerial : Bool) : WP Unit :=
  if isSerial then serialHexStringP rdn.value tagInfoNoOverride
  else asn1PrintableStringP (some rdn.value) tagInfoNoOverride

/-- `x509.c` 54-64: `n20_x509_rdn_content`. -/
def rdnContentP (rdn : RRdn) : WP Unit := do
  let isSerial ← liftP (pureP (oidEquals rdn.type (some OID_SERIAL_NUMBER)))
  rdnValueP rdn isSerial
  asn1ObjectIdentifierP rdn.type tagInfoNoOverride

/-- `x509.c` 66-74: `n20_x509_rdn`. -/
def x509RdnP (rdn : RRdn) : WP Unit := do
  let mark ← byteCountP
  asn1SequenceP (some (rdnContentP rdn)) tagInfoNoOverride
  let count ← byteCountP
  asn1HeaderP classUniversal true 0x11 (count - mark)

/-- `include/nat20/x509.h` 153-164: `n20_x509_name_t`. -/
structure RName where
  elementCount : UInt64
  elements : Vector RRdn 8

/-- `x509.c` 83-85: the loop of `n20_x509_name_content`, with `k` elements left to write. -/
def nameLoopP (elements : List RRdn) : Nat → WP Unit
  | 0 => Pure.pure ()
  | k + 1 => do
    let rdn ← liftP (pureP (readElement elements k))
    x509RdnP rdn
    nameLoopP elements k

/-- `x509.c` 76-86: `n20_x509_name_content`. -/
def nameContentP (name : Option RName) : WP Unit :=
  match name with
  | none => asn1NullP tagInfoNoOverride
  | some name =>
    if name.elementCount > 8 then asn1NullP tagInfoNoOverride
    else nameLoopP name.elements.toList name.elementCount.toNat

/-- `x509.c` 88-90: `n20_x509_name`. -/
def x509NameP (name : Option RName) : WP Unit := asn1SequenceP (some (nameContentP name)) tagInfoNoOverride

/-- `include/nat20/x509.h` 226-262: `n20_x509_extension_t`; `κ` is the type of a callback together with its context. -/
structure RExtension (κ : Type) where
  oid : Option Oid
  critical : Bool
  contentCb : Option κ

/-- `include/nat20/x509.h` 277-301: `n20_x509_extensions_t`. -/
structure RExtensions (κ : Type) where
  extensionsCount : UInt64
  extensions : Option (List (RExtension κ))

/-- `x509.c` 97-129: one iteration of the loop of `n20_x509_extension_content`. -/
def extensionItemP (ext : RExtension (WP Unit)) : WP Unit := do
  let mark ← byteCountP
  callContentP ext.contentCb
  let count ← byteCountP
  asn1HeaderP classUniversal false 0x4 (count - mark)
  whenP ext.critical (asn1BooleanP true tagInfoNoOverride)
  asn1ObjectIdentifierP ext.oid tagInfoNoOverride
  let count ← byteCountP
  asn1HeaderP classUniversal true 0x10 (count - mark)

/-- `x509.c` 97-129: the loop of `n20_x509_extension_content`, with `k` elements left to write. -/
def extensionLoopP (extensions : List (RExtension (WP Unit))) : Nat → WP Unit
  | 0 => Pure.pure ()
  | k + 1 => do
    let ext ← liftP (pureP (readElement extensions k))
    extensionItemP ext
    extensionLoopP extensions k

/-- `x509.c` 92-130: `n20_x509_extension_content`. -/
def extensionContentP (exts : RExtensions (WP Unit)) : WP Unit :=
  match exts.extensions with
  | none => if exts.extensionsCount = 0 then Pure.pure () else liftP (pureP (.error .nullDeref))
  | some extensions => extensionLoopP extensions exts.extensionsCount.toNat

/-- `x509.c` 132-138: `n20_x509_extension`. -/
def x509ExtensionP (exts : Option (RExtensions (WP Unit))) : WP Unit :=
  match exts with
  | none => Pure.pure ()
  | some exts =>
    if exts.extensions.isNone ∨ exts.extensionsCount = 0 then Pure.pure ()
    else asn1SequenceP (some (extensionContentP exts)) (tagInfoExplicit 3)

/-- `x509.c` 147-152: the contents of the sequence. -/
def basicConstraintsBodyP (fr : Frame) (bc : BasicConstraints) : WP Unit :=
  if bc.isCa then do
    whenP bc.hasPathLength (asn1UInt64P fr bc.pathLength.toUInt64 tagInfoNoOverride)
    asn1BooleanP true tagInfoNoOverride
  else Pure.pure ()

/-- `x509.c` 140-158: `n20_x509_ext_basic_constraints_content`. -/
def basicConstraintsContentP (fr : Frame) (context : Option BasicConstraints) : WP Unit :=
  match context with
  | none => Pure.pure ()
  | some bc => do
    let mark ← byteCountP
    basicConstraintsBodyP fr bc
    let count ← byteCountP
    asn1HeaderP classUniversal true 0x10 (count - mark)

/-- `x509.c` 160-188: `n20_x509_ext_key_usage_content`. -/
def keyUsageContentP (context : Option KeyUsage) : WP Unit :=
  match context with
  | none => Pure.pure ()
  | some ku => asn1BitstringP (some (.const ⟨[], [ku.mask0, ku.mask1]⟩)) (keyUsageBitCount ku).toUInt64 tagInfoNoOverride

/-- `x509.c` 196-205: the algorithm parameters. -/
def algorithmParamsP (alg : AlgorithmIdentifier) : WP Unit :=
  if alg.variant = 1 then asn1NullP tagInfoNoOverride
  else if alg.variant = 2 then asn1ObjectIdentifierP alg.ecCurve tagInfoNoOverride
  else Pure.pure ()

/-- `x509.c` 190-208: `n20_x509_algorithm_identifier_content` (its context is never NULL here). -/
def algorithmIdentifierContentP (alg : AlgorithmIdentifier) : WP Unit := do
  algorithmParamsP alg
  asn1ObjectIdentifierP alg.oid tagInfoNoOverride

/-- `x509.c` 210-216: `n20_x509_algorithm_identifier`. -/
def x509AlgorithmIdentifierP (alg : AlgorithmIdentifier) : WP Unit :=
  asn1SequenceP (some (algorithmIdentifierContentP alg)) tagInfoNoOverride

/-- `include/nat20/x509.h` 655-680: `n20_x509_public_key_info_t`. -/
structure RPublicKeyInfo where
  algorithmIdentifier : AlgorithmIdentifier
  publicKeyBits : UInt64
  publicKey : Option Source

/-- `x509.c` 218-225: `n20_x509_public_key_info_content` (its context is never NULL here). -/
def publicKeyInfoContentP (info : RPublicKeyInfo) : WP Unit := do
  asn1BitstringP info.publicKey info.publicKeyBits tagInfoNoOverride
  x509AlgorithmIdentifierP info.algorithmIdentifier

/-- `x509.c` 227-233: `n20_x509_public_key_info`. -/
def x509PublicKeyInfoP (info : RPublicKeyInfo) : WP Unit := asn1SequenceP (some (publicKeyInfoContentP info)) tagInfoNoOverride

/-- `include/nat20/x509.h` 690-710: `n20_x509_validity_t`. -/
structure RValidity where
  notBefore : RSlice
  notAfter : RSlice

/-- A slice of the library that is not in memory of the caller (`x509.c` 22-23). -/
def constSlice (s : Slice) : RSlice := ⟨s.size, s.buffer.map .const⟩

/-- `x509.c` 235-247: `n20_x509_validity_content` (its context is never NULL here). -/
def validityContentP (v : RValidity) : WP Unit := do
  asn1GeneralizedTimeP (some (if v.notAfter.buffer ≠ none then v.notAfter else constSlice x509NoExpiration)) tagInfoNoOverride
  asn1GeneralizedTimeP (some (if v.notBefore.buffer ≠ none then v.notBefore else constSlice x509UnixEpoch)) tagInfoNoOverride

/-- `x509.c` 249-252: `n20_x509_validity`. -/
def x509ValidityP (v : RValidity) : WP Unit := asn1SequenceP (some (validityContentP v)) tagInfoNoOverride

/-- `x509.c` 254-259: `n20_x509_version_3`. -/
def x509Version3P : WP Unit := prependLocalP [0xa0, 0x03, 0x02, 0x01, 0x02]

/-- `include/nat20/x509.h` 729-795: `n20_x509_tbs_t`. -/
structure RTbs (κ : Type) where
  serialNumber : RSlice
  signatureAlgorithm : AlgorithmIdentifier
  issuerName : RName
  validity : RValidity
  subjectName : RName
  subjectPublicKeyInfo : RPublicKeyInfo
  extensions : RExtensions κ

/-- `x509.c` 288-299: the serial number. -/
def tbsSerialP (fr : Frame) (serial : RSlice) : WP Unit :=
  if serial.size = 0 then asn1UInt64P fr 0 tagInfoNoOverride
  else asn1IntegerP serial false false tagInfoNoOverride

/-- `x509.c` 261-303: `n20_x509_cert_tbs_content`. -/
def certTbsContentP (fr : Frame) (context : Option (RTbs (WP Unit))) : WP Unit :=
  match context with
  | none => Pure.pure ()
  | some tbs => do
    x509ExtensionP (some tbs.extensions)
    x509PublicKeyInfoP tbs.subjectPublicKeyInfo
    x509NameP (some tbs.subjectName)
    x509ValidityP tbs.validity
    x509NameP (some tbs.issuerName)
    x509AlgorithmIdentifierP tbs.signatureAlgorithm
    tbsSerialP fr tbs.serialNumber
    x509Version3P

/-- `x509.c` 305-307: `n20_x509_cert_tbs`. -/
def x509CertTbsP (fr : Frame) (tbs : Option (RTbs (WP Unit))) : WP Unit := asn1SequenceP (some (certTbsContentP fr tbs)) tagInfoNoOverride

/-- `include/nat20/x509.h` 809-862: `n20_x509_t`. -/
structure RX509 (κ : Type) where
  tbs : Option (RTbs κ)
  signatureAlgorithm : AlgorithmIdentifier
  signatureBits : UInt64
  signature : Option Source

/-- `x509.c` 309-317: `n20_x509_cert_content`. -/
def certContentP (fr : Frame) (context : Option (RX509 (WP Unit))) : WP Unit :=
  match context with
  | none => Pure.pure ()
  | some x509 => do
    asn1BitstringP x509.signature x509.signatureBits tagInfoNoOverride
    x509AlgorithmIdentifierP x509.signatureAlgorithm
    x509CertTbsP fr x509.tbs

/-- `x509.c` 319-321: `n20_x509_cert`. -/
def x509CertP (fr : Frame) (x509 : Option (RX509 (WP Unit))) : WP Unit := asn1SequenceP (some (certContentP fr x509)) tagInfoNoOverride

/-! ## x509_ext_*.c -/

/-- `include/nat20/x509_ext_open_dice_input.h` 69-156: `n20_x509_ext_open_dice_input_t`. -/
structure ROpenDiceInput where
  codeHash : RSlice
  codeDescriptor : RSlice
  configurationHash : RSlice
  configurationDescriptor : RSlice
  authorityHash : RSlice
  authorityDescriptor : RSlice
  mode : UInt32
  profileName : RSlice

/-- `x509_ext_open_dice_input.c` 22-69: `n20_x509_ext_open_dice_input_sequence_content`. -/
def openDiceInputSequenceP (fr : Frame) (i : ROpenDiceInput) : WP Unit := do
  whenP i.profileName.buffer.isSome (asn1Utf8StringP (some i.profileName) (tagInfoExplicit 7))
  asn1UInt64P fr i.mode.toUInt64 (tagInfoExplicit 6)
  whenP i.authorityDescriptor.buffer.isSome (asn1OctetStringP (some i.authorityDescriptor) (tagInfoExplicit 5))
  whenP i.authorityHash.buffer.isSome (asn1OctetStringP (some i.authorityHash) (tagInfoExplicit 4))
  whenP i.configurationDescriptor.buffer.isSome (asn1OctetStringP (some i.configurationDescriptor) (tagInfoExplicit 3))
  whenP i.configurationHash.buffer.isSome (asn1OctetStringP (some i.configurationHash) (tagInfoExplicit 2))
  whenP i.codeDescriptor.buffer.isSome (asn1OctetStringP (some i.codeDescriptor) (tagInfoExplicit 1))
  whenP i.codeHash.buffer.isSome (asn1OctetStringP (some i.codeHash) (tagInfoExplicit 0))

/-- `x509_ext_open_dice_input.c` 71-78: `n20_x509_ext_open_dice_input_content`. -/
def openDiceInputContentP (fr : Frame) (context : Option ROpenDiceInput) : WP Unit :=
  match context with
  | none => Pure.pure ()
  | some i => asn1SequenceP (some (openDiceInputSequenceP fr i)) tagInfoNoOverride

/-- `include/nat20/x509_ext_tcg_dice_tcb_info.h` 150-167: `n20_x509_ext_tcg_dice_tcb_info_fwid_t`. -/
structure RFwid where
  hashAlgo : Oid
  digest : RSlice

/-- `include/nat20/x509_ext_tcg_dice_tcb_info.h` 206-282: `n20_x509_ext_tcg_dice_tcb_info_t`. -/
structure RTcbInfo where
  vendor : RSlice
  model : RSlice
  version : RSlice
  svn : Int64
  layer : Int64
  index : Int64
  fwids : Option (List RFwid)
  fwidsCount : UInt64
  flags : OperationalFlags
  flagsMask : OperationalFlags
  vendorInfo : RSlice
  type : RSlice

/-- `x509_ext_tcg_dice_tcb_info.c` 22-34: `n20_x509_tcg_dice_tcb_info_fwid_content`. -/
def fwidContentP (f : RFwid) : WP Unit := do
  asn1OctetStringP (some f.digest) tagInfoNoOverride
  asn1ObjectIdentifierP (some f.hashAlgo) tagInfoNoOverride

/-- `x509_ext_tcg_dice_tcb_info.c` 44-49: the loop of `n20_x509_tcg_dice_tcb_info_fwid_list_content`. -/
def fwidLoopP (list : List RFwid) : Nat → WP Unit
  | 0 => Pure.pure ()
  | count + 1 => do
    let f ← liftP (pureP (readElement list count))
    asn1SequenceP (some (fwidContentP f)) tagInfoNoOverride
    fwidLoopP list count

/-- `x509_ext_tcg_dice_tcb_info.c` 36-50: `n20_x509_tcg_dice_tcb_info_fwid_list_content` and the check in lines 80-85. -/
def fwidsFieldP (t : RTcbInfo) : WP Unit :=
  match t.fwids with
  | none => Pure.pure ()
  | some list => asn1SequenceP (some (fwidLoopP list t.fwidsCount.toNat)) (tagInfoImplicit 6)

/-- `x509_ext_tcg_dice_tcb_info.c` 52-110: `n20_x509_ext_tcg_dice_tcb_info_sequence_content`. -/
def tcbInfoSequenceP (fr : Frame) (t : RTcbInfo) : WP Unit := do
  asn1BitstringP (some (.const ⟨[], t.flagsMask.mask.toList⟩)) (8 * 4) (tagInfoImplicit 10)
  whenP t.type.buffer.isSome (asn1OctetStringP (some t.type) (tagInfoImplicit 9))
  whenP t.vendorInfo.buffer.isSome (asn1OctetStringP (some t.vendorInfo) (tagInfoImplicit 8))
  asn1BitstringP (some (.const ⟨[], t.flags.mask.toList⟩)) (8 * 4) (tagInfoImplicit 7)
  fwidsFieldP t
  asn1Int64P fr t.index (tagInfoImplicit 5)
  asn1Int64P fr t.layer (tagInfoImplicit 4)
  asn1Int64P fr t.svn (tagInfoImplicit 3)
  whenP t.version.buffer.isSome (asn1Utf8StringP (some t.version) (tagInfoImplicit 2))
  whenP t.model.buffer.isSome (asn1Utf8StringP (some t.model) (tagInfoImplicit 1))
  whenP t.vendor.buffer.isSome (asn1Utf8StringP (some t.vendor) (tagInfoImplicit 0))

/-- `x509_ext_tcg_dice_tcb_info.c` 112-121: `n20_x509_ext_tcg_dice_tcb_info_content`. -/
def tcbInfoContentP (fr : Frame) (context : Option RTcbInfo) : WP Unit :=
  match context with
  | none => Pure.pure ()
  | some t => asn1SequenceP (some (tcbInfoSequenceP fr t)) tagInfoNoOverride

/-- `include/nat20/x509_ext_tcg_dice_tcb_info.h` 315-328: `n20_x509_ext_tcg_dice_multi_tcb_info_t`. -/
structure RMultiTcbInfo where
  list : Option (List RTcbInfo)
  count : UInt64

/-- `x509_ext_tcg_dice_tcb_info.c` 133-136: the loop. -/
def multiTcbInfoLoopP (fr : Frame) (list : List RTcbInfo) : Nat → WP Unit
  | 0 => Pure.pure ()
  | count + 1 => do
    let t ← liftP (pureP (readElement list count))
    tcbInfoContentP fr (some t)
    multiTcbInfoLoopP fr list count

/-- `x509_ext_tcg_dice_tcb_info.c` 123-137: `n20_x509_ext_tcg_dice_multi_tcb_info_sequence_content`. -/
def multiTcbInfoSequenceP (fr : Frame) (m : RMultiTcbInfo) : WP Unit :=
  match m.list with
  | none => Pure.pure ()
  | some list => multiTcbInfoLoopP fr list m.count.toNat

/-- `x509_ext_tcg_dice_tcb_info.c` 139-148: `n20_x509_ext_tcg_dice_multi_tcb_info_content`. -/
def multiTcbInfoContentP (fr : Frame) (context : Option RMultiTcbInfo) : WP Unit :=
  match context with
  | none => Pure.pure ()
  | some m => asn1SequenceP (some (multiTcbInfoSequenceP fr m)) tagInfoNoOverride

/-- `x509_ext_tcg_dice_ueid.c` 22-37: `n20_x509_ext_tcg_dice_ueid_content`, and `x509_ext_tcg_dice_tcb_freshness.c` 22-41:
`n20_x509_ext_tcg_dice_tcb_freshness_content`, which are the same. -/
def oneSliceContentP (context : Option RSlice) : WP Unit :=
  match context with
  | none => Pure.pure ()
  | some s => asn1SequenceP (some (asn1OctetStringP (some s) tagInfoNoOverride)) tagInfoNoOverride

end Nat20
