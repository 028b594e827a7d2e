import Verif.Model.Stream
/-!
# Model of `src/core/asn1.c`
-/

namespace Nat20

/-- `include/nat20/asn1.h` 42-65: the class constants `N20_ASN1_CLASS_*`. -/
def classUniversal : UInt8 := 0
/-- `include/nat20/asn1.h` 42-65: `N20_ASN1_CLASS_CONTEXT_SPECIFIC`. -/
def classContextSpecific : UInt8 := 2

/-- `src/core/asn1.c` 30-36: the do-while loop of `n20_asn1_base128_int`. -/
def base128Loop (n : UInt64) (t : UInt8) : W Unit := do
  prependLocal [t]
  let n' := n >>> 7
  let t' := 0x80 ||| (n' &&& 0x7f).toUInt8
  if n' ≠ 0 then base128Loop n' t' else Pure.pure ()
termination_by n.toNat
decreasing_by
  rename_i h
  have h2 : (n >>> 7).toNat = n.toNat / 128 := by
    rw [UInt64.toNat_shiftRight]; simp [Nat.shiftRight_eq_div_pow]
  have h3 : (n >>> 7).toNat ≠ 0 := by
    intro h0; apply h; apply UInt64.toNat_inj.1; exact h0
  show (n >>> 7).toNat < n.toNat
  omega

/-- `src/core/asn1.c` 25-37: `n20_asn1_base128_int`. -/
def asn1Base128Int (n : UInt64) : W Unit := base128Loop n (n &&& 0x7f).toUInt8

/-- `include/nat20/asn1.h` 309-329: `n20_asn1_tag_info_type_t`.  Simplification: the enum has exactly these three values; in C any
other value of the underlying integer behaves like `noOverride`. -/
inductive TagInfoType where
  | noOverride
  | implicit
  | explicit
  deriving DecidableEq, Repr

/-- `include/nat20/asn1.h` 355-376: `n20_asn1_tag_info_t`. -/
structure TagInfo where
  type : TagInfoType
  tag : UInt32
  deriving DecidableEq, Repr

/-- `src/core/asn1.c` 39-42: `n20_asn1_tag_info_no_override`. -/
def tagInfoNoOverride : TagInfo := ⟨.noOverride, 0⟩

/-- `src/core/asn1.c` 44-47: `n20_asn1_tag_info_explicit`.  The `int` argument is converted to `uint32_t`. -/
def tagInfoExplicit (tag : Int32) : TagInfo := ⟨.explicit, tag.toUInt32⟩

/-- `src/core/asn1.c` 49-52: `n20_asn1_tag_info_implicit`. -/
def tagInfoImplicit (tag : Int32) : TagInfo := ⟨.implicit, tag.toUInt32⟩

/-- `src/core/asn1.c` 74-80: the do-while loop writing the long form length; returns the number of bytes. -/
def lengthLoop (len : UInt64) (l : UInt8) (bytes : UInt64) : W UInt64 := do
  let bytes := bytes + 1
  prependLocal [l]
  let len' := len >>> 8
  let l' := (len' &&& 0xff).toUInt8
  if len' ≠ 0 then lengthLoop len' l' bytes else Pure.pure bytes
termination_by len.toNat
decreasing_by
  rename_i h
  have h2 : (len >>> 8).toNat = len.toNat / 256 := by
    rw [UInt64.toNat_shiftRight]; simp [Nat.shiftRight_eq_div_pow]
  have h3 : (len >>> 8).toNat ≠ 0 := by
    intro h0; apply h; apply UInt64.toNat_inj.1; exact h0
  show (len >>> 8).toNat < len.toNat
  omega

/-- `src/core/asn1.c` 62-87: the length octets of `n20_asn1_header`. -/
def headerLength (len : UInt64) : W Unit :=
  if len ≤ 127 then prependLocal [len.toUInt8]
  else do
    let bytes ← lengthLoop len (len &&& 0xff).toUInt8 0
    prependLocal [((bytes &&& 0x7f) ||| 0x80).toUInt8]

/-- `src/core/asn1.c` 90-101: the tag of `n20_asn1_header`; returns the low bits of the first identifier octet. -/
def headerTag (tag : UInt32) : W UInt8 :=
  if tag > 30 then do
    asn1Base128Int tag.toUInt64
    Pure.pure 0x1f
  else Pure.pure (tag &&& 0x1f).toUInt8

/-- `src/core/asn1.c` 54-112: `n20_asn1_header`. -/
def asn1Header (class_ : UInt8) (constructed : Bool) (tag : UInt32) (len : UInt64) : W Unit := do
  headerLength len
  let header ← headerTag tag
  let header := header ||| (class_ <<< 6)
  let header := if constructed then header ||| 0x20 else header
  prependLocal [header]

/-- `src/core/asn1.c` 124-130 and 411-419: the extra header of an explicitly tagged structure. -/
def explicitHeader (tagInfo : TagInfo) (mark : UInt64) : W Unit :=
  if tagInfo.type = .explicit then do
    let count ← byteCount
    asn1Header classContextSpecific true tagInfo.tag (count - mark)
  else Pure.pure ()

/-- `src/core/asn1.c` 114-131: `n20_asn1_null`. -/
def asn1Null (tagInfo : TagInfo) : W Unit := do
  let tag : UInt32 := if tagInfo.type = .implicit then tagInfo.tag else 0x5
  let class_ : UInt8 := if tagInfo.type = .implicit then classContextSpecific else classUniversal
  let mark ← byteCount
  asn1Header class_ false tag 0
  explicitHeader tagInfo mark

/-- The invocation of a content callback which may be NULL (`src/core/asn1.c` 398-400).  A callback together with its context
is a writer; `none` is a NULL callback. -/
def callContent : Option (W Unit) → W Unit
  | some cb => cb
  | none => Pure.pure ()

/-- `src/core/asn1.c` 390-420: `n20_asn1_header_with_content`. -/
def asn1HeaderWithContent (class_ : UInt8) (constructed : Bool) (tag : UInt32) (contentCb : Option (W Unit))
    (tagInfo : TagInfo) : W Unit := do
  let mark ← byteCount
  callContent contentCb
  let class_ : UInt8 := if tagInfo.type = .implicit then classContextSpecific else class_
  let tag : UInt32 := if tagInfo.type = .implicit then tagInfo.tag else tag
  let count ← byteCount
  asn1Header class_ constructed tag (count - mark)
  explicitHeader tagInfo mark

/-- `include/nat20/oid.h` 41-60: `n20_asn1_object_identifier_t` with `N20_ASN1_MAX_OID_ELEMENTS` = 10. -/
structure Oid where
  elemCount : UInt32
  elements : Vector UInt32 10
  deriving DecidableEq, Repr

/-- The C expression `oid->elements[i]` (`src/core/asn1.c` 143, 148, 151; `include/nat20/oid.h` 41-55). -/
def Oid.element (oid : Oid) (i : Nat) : Except UB UInt32 :=
  match oid.elements[i]? with
  | some x => .ok x
  | none => .error .oobRead

/-- `src/core/asn1.c` 141-144: the loop of `n20_asn1_object_identifier_content`, from element `e - 1` down to element 2;
returns the final `e`. -/
def oidLoop (oid : Oid) : Nat → W Nat
  | 0 => Pure.pure 0
  | e + 1 =>
    if e + 1 > 2 then do
      let x ← liftM (oid.element e)
      asn1Base128Int x.toUInt64
      oidLoop oid e
    else Pure.pure (e + 1)

/-- `src/core/asn1.c` 146-152: the first contents octet, for the value of `e` the loop ended with.  `h` is a `uint8_t`, so
all arithmetic is reduced modulo 256. -/
def oidFirstByte (oid : Oid) (e : Nat) : Except UB UInt8 := do
  let h : UInt8 ← (if e = 2 then (·.toUInt8) <$> oid.element 1 else Pure.pure 0 : Except UB UInt8)
  if e > 0 then do
    let x ← oid.element 0
    Pure.pure (h.toUInt32 + x * 40).toUInt8
  else Pure.pure h

/-- `src/core/asn1.c` 133-154: `n20_asn1_object_identifier_content`. -/
def asn1ObjectIdentifierContent (oid : Oid) : W Unit := do
  let e ← oidLoop oid oid.elemCount.toNat
  let h ← liftM (oidFirstByte oid e)
  prependLocal [h]

/-- `src/core/asn1.c` 156-174: `n20_asn1_object_identifier`. -/
def asn1ObjectIdentifier (oid : Option Oid) (tagInfo : TagInfo) : W Unit :=
  match oid with
  | none => asn1Null tagInfoNoOverride
  | some oid =>
    if oid.elemCount > 10 then asn1Null tagInfoNoOverride
    else asn1HeaderWithContent classUniversal false 0x6 (some (asn1ObjectIdentifierContent oid)) tagInfo

/-- `src/core/asn1.c` 207-209 and 216-218: the loop which strips insignificant bytes equal to `pad`.  The position of
`msb` is expressed by the number `rem` of bytes between `msb` and `end`, so `msb = end - rem * inc` and `msb != end` is
`rem ≠ 0`.  As in the C condition `*msb == pad && msb != end`, the byte at `msb` is read before `msb` is compared to `end`.
Returns the final `rem`. -/
def stripLoop (p : Ptr) (pad : UInt8) (inc end_ : Int) : Nat → Except UB Nat
  | 0 => do
    let _ ← p.read end_
    Pure.pure 0
  | rem + 1 => do
    let b ← p.read (end_ - (rem + 1) * inc)
    if b = pad then stripLoop p pad inc end_ rem else Pure.pure (rem + 1)

/-- `src/core/asn1.c` 224-227: the loop writing the remaining bytes, least significant first. Simplification: the byte is
read even when the stream overflowed. -/
def writeLoop (p : Ptr) (inc : Int) (end_ : Int) : Nat → W Unit
  | 0 => Pure.pure ()
  | rem + 1 => do
    let e := end_ - inc
    let b ← liftM (p.read e)
    prependLocal [b]
    writeLoop p inc e rem

/-- `src/core/asn1.c` 205: `number->two_complement && (*msb & 0x80)`. -/
def integerNegative (p : Ptr) (twoComplement : Bool) (msb : Int) : Except UB Bool :=
  if twoComplement then do
    let b ← p.read msb
    Pure.pure (b &&& 0x80 != 0)
  else Pure.pure false

/-- `src/core/asn1.c` 212 and 221: `add_extra = msb == end || ...` with `rem` bytes left and `msb` pointing to the first. -/
def integerAddExtra (p : Ptr) (negative : Bool) (rem : Nat) (msb : Int) : Except UB Bool :=
  if rem = 0 then Pure.pure true
  else do
    let b ← p.read msb
    Pure.pure (if negative then b &&& 0x80 == 0 else b &&& 0x80 != 0)

/-- `src/core/asn1.c` 182-232: `n20_asn1_integer_internal_content` for the number given by the `size` bytes at `p`. -/
def asn1IntegerContent (p : Ptr) (size : UInt64) (littleEndian twoComplement : Bool) : W Unit := do
  let n : Nat := size.toNat
  let inc : Int := if littleEndian then -1 else 1
  let end_ : Int := if littleEndian then -1 else n
  let negative ← liftM (integerNegative p twoComplement (end_ - n * inc))
  let extra : UInt8 := if negative then 0xff else 0
  let rem ← liftM (stripLoop p extra inc end_ n)
  let addExtra ← liftM (integerAddExtra p negative rem (end_ - rem * inc))
  writeLoop p inc end_ rem
  if addExtra then prependLocal [extra] else Pure.pure ()

/-- `src/core/asn1.c` 234-258: `n20_asn1_integer`. -/
def asn1Integer (n : Slice) (littleEndian twoComplement : Bool) (tagInfo : TagInfo) : W Unit :=
  match n.buffer with
  | none => asn1Null tagInfoNoOverride
  | some p =>
    asn1HeaderWithContent classUniversal false 0x2 (some (asn1IntegerContent p n.size littleEndian twoComplement)) tagInfo

/-- The accessible stack memory below and above a local variable, and the byte order of the host (`BYTE_ORDER`).  The strict C
view is that no memory is accessible: no other object may be reached from the address of a local (`src/core/asn1.c` 260-274:
the address `&n` of a parameter). -/
structure Frame where
  below : Bytes
  above : Bytes
  bigEndian : Bool
  deriving DecidableEq, Repr

/-- The bytes of a `uint64_t`, least significant one first (`src/core/asn1.c` 262, 270 on a little-endian host). -/
def leBytes64 (n : UInt64) : Bytes := (List.range 8).map fun i => (n >>> (8 * UInt64.ofNat i)).toUInt8

/-- The object representation of a `uint64_t` on the host (`src/core/asn1.c` 262, 270: `(uint8_t const *)&n`): least significant
byte first, or most significant byte first. -/
def Frame.objectBytes (fr : Frame) (n : UInt64) : Bytes := if fr.bigEndian then (leBytes64 n).reverse else leBytes64 n

/-- `src/core/asn1.c` 260-266: `n20_asn1_uint64`; the slice passed to `n20_asn1_integer` is the object representation of the
parameter `n`, the flag is `LITTLE_ENDIAN == BYTE_ORDER`. -/
def asn1UInt64 (fr : Frame) (n : UInt64) (tagInfo : TagInfo) : W Unit :=
  asn1Integer ⟨8, some ⟨fr.below, fr.objectBytes n ++ fr.above⟩⟩ (!fr.bigEndian) false tagInfo

/-- `src/core/asn1.c` 268-274: `n20_asn1_int64`; the object representation is two's complement. -/
def asn1Int64 (fr : Frame) (n : Int64) (tagInfo : TagInfo) : W Unit :=
  asn1Integer ⟨8, some ⟨fr.below, fr.objectBytes n.toUInt64 ++ fr.above⟩⟩ (!fr.bigEndian) true tagInfo

/-- `src/core/asn1.c` 299-302: the loop over the leading bytes of a bit string, from index `bytes - 1` down to 0.
Simplification: the byte is read even when the stream overflowed. -/
def bitstringLoop (p : Ptr) : Nat → W Unit
  | 0 => Pure.pure ()
  | bytes + 1 => do
    let b ← liftM (p.read bytes)
    prependLocal [b]
    bitstringLoop p bytes

/-- `src/core/asn1.c` 295-303: the contents octets after the first, written when `bytes` is not zero. -/
def bitstringBytes (b : Option Ptr) (bytes : UInt64) (unused : UInt8) : W Unit :=
  if bytes = 0 then Pure.pure ()
  else
    match b with
    | none => liftM (Except.error UB.nullDeref : Except UB Unit)
    | some p => do
      let bytes := bytes - 1
      let c ← liftM (p.read bytes.toNat)
      -- `~((1 << unused) - 1)` is computed in `int`, the result is truncated to `uint8_t`
      prependLocal [c &&& ~~~((1 <<< unused) - 1)]
      bitstringLoop p bytes.toNat

/-- `src/core/asn1.c` 281-306: `n20_asn1_bitstring_content`. -/
def asn1BitstringContent (b : Option Ptr) (bits : UInt64) : W Unit := do
  let bits : UInt64 := if b.isNone then 0 else bits
  let bytes : UInt64 := (bits + 7) >>> 3
  let unused : UInt8 := ((8 - (bits &&& 7)) &&& 7).toUInt8
  bitstringBytes b bytes unused
  prependLocal [unused]

/-- `src/core/asn1.c` 308-325: `n20_asn1_bitstring`. -/
def asn1Bitstring (b : Option Ptr) (bits : UInt64) (tagInfo : TagInfo) : W Unit :=
  asn1HeaderWithContent classUniversal false 0x3 (some (asn1BitstringContent b bits)) tagInfo

/-- `src/core/asn1.c` 327-332: `n20_asn1_stringish_content`. -/
def asn1StringishContent (slice : Option Slice) : W Unit :=
  match slice with
  | none => Pure.pure ()
  | some slice =>
    match slice.buffer with
    | none => Pure.pure ()
    | some p => streamPrepend (some p) slice.size

/-- `src/core/asn1.c` 334-346: `n20_asn1_stringish`. -/
def asn1Stringish (tag : UInt32) (slice : Option Slice) (tagInfo : TagInfo) : W Unit :=
  asn1HeaderWithContent classUniversal false tag (some (asn1StringishContent slice)) tagInfo

/-- `src/core/asn1.c` 348-352: `n20_asn1_octetstring`. -/
def asn1OctetString (slice : Option Slice) (tagInfo : TagInfo) : W Unit := asn1Stringish 0x4 slice tagInfo

/-- `src/core/asn1.c` 354-363: `n20_asn1_printablestring`. -/
def asn1PrintableString (str : Option Slice) (tagInfo : TagInfo) : W Unit :=
  let slice : Slice := match str with
    | none => Slice.null
    | some s => ⟨s.size, s.buffer⟩
  asn1Stringish 0x13 (some slice) tagInfo

/-- `src/core/asn1.c` 365-374: `n20_asn1_utf8_string`. -/
def asn1Utf8String (str : Option Slice) (tagInfo : TagInfo) : W Unit :=
  let slice : Slice := match str with
    | none => Slice.null
    | some s => ⟨s.size, s.buffer⟩
  asn1Stringish 0xC (some slice) tagInfo

/-- `src/core/asn1.c` 376-388: `n20_asn1_generalized_time`. -/
def asn1GeneralizedTime (timeStr : Option Slice) (tagInfo : TagInfo) : W Unit :=
  match timeStr with
  | none => asn1Null tagInfoNoOverride
  | some s => asn1Stringish 0x18 (some ⟨s.size, s.buffer⟩) tagInfo

/-- `src/core/asn1.c` 422-433: `n20_asn1_sequence`. -/
def asn1Sequence (contentCb : Option (W Unit)) (tagInfo : TagInfo) : W Unit :=
  asn1HeaderWithContent classUniversal true 0x10 contentCb tagInfo

/-- `src/core/asn1.c` 435-440: `n20_asn1_boolean_content` (its context is never NULL here). -/
def asn1BooleanContent (v : Bool) : W Unit := prependLocal [if v then 0xff else 0x00]

/-- `src/core/asn1.c` 442-450: `n20_asn1_boolean`. -/
def asn1Boolean (v : Bool) (tagInfo : TagInfo) : W Unit :=
  asn1HeaderWithContent classUniversal false 0x1 (some (asn1BooleanContent v)) tagInfo

end Nat20
