import Verif.Model.Stream
/-!
# Model of `src/core/cbor.c`
-/

namespace Nat20

/-! `include/nat20/cbor.h` 38-93: `n20_cbor_type_t`.  The model passes the enumerators as numbers, since the function checks
for values that are not enumerators. -/
/-- `include/nat20/cbor.h` 52. -/
def cborTypeUint : UInt32 := 0
/-- `include/nat20/cbor.h` 59. -/
def cborTypeNint : UInt32 := 1
/-- `include/nat20/cbor.h` 65. -/
def cborTypeBytes : UInt32 := 2
/-- `include/nat20/cbor.h` 71. -/
def cborTypeString : UInt32 := 3
/-- `include/nat20/cbor.h` 77. -/
def cborTypeArray : UInt32 := 4
/-- `include/nat20/cbor.h` 83. -/
def cborTypeMap : UInt32 := 5
/-- `include/nat20/cbor.h` 89. -/
def cborTypeTag : UInt32 := 6
/-- `include/nat20/cbor.h` 95. -/
def cborTypeSimpleFloat : UInt32 := 7
/-- `include/nat20/cbor.h` 46. -/
def cborTypeNone : UInt32 := 0xff

/-- `src/core/cbor.c` 31-49: `value_size`, zero for values which go into the initial byte. -/
def cborValueSize (n : UInt64) : Nat :=
  if n < 24 then 0
  else if n < 0x100 then 1
  else if n < 0x10000 then 2
  else if n < 0x100000000 then 4
  else 8

/-- `src/core/cbor.c` 29-49: the initial byte. -/
def cborInitialByte (type : UInt32) (n : UInt64) : UInt8 :=
  let header : UInt8 := (type <<< 5).toUInt8
  if n < 24 then header ||| n.toUInt8
  else if n < 0x100 then header ||| 24
  else if n < 0x10000 then header ||| 25
  else if n < 0x100000000 then header ||| 26
  else header ||| 27

/-- `src/core/cbor.c` 51-54: the loop writing the argument, from byte `i` on with `rem` bytes to go. -/
def cborValueLoop (n : UInt64) (i : Nat) : Nat → W Unit
  | 0 => Pure.pure ()
  | rem + 1 => do
    let byte : UInt8 := (n >>> (UInt64.ofNat i * 8)).toUInt8
    prependLocal [byte]
    cborValueLoop n (i + 1) rem

/-- `src/core/cbor.c` 23-57: `n20_cbor_write_header`.  The early return for `n < 24` (34-36) is the general path with an empty
loop. -/
def cborWriteHeader (type : UInt32) (n : UInt64) : W Unit := do
  let undef : Bool := type > 7
  let type : UInt32 := if undef then cborTypeSimpleFloat else type
  let n : UInt64 := if undef then 23 else n
  cborValueLoop n 0 (cborValueSize n)
  prependLocal [cborInitialByte type n]

/-- `src/core/cbor.c` 59-61: `n20_cbor_write_null`. -/
def cborWriteNull : W Unit := cborWriteHeader cborTypeSimpleFloat 22

/-- `src/core/cbor.c` 63-65: `n20_cbor_write_bool`. -/
def cborWriteBool (b : Bool) : W Unit := cborWriteHeader cborTypeSimpleFloat (if b then 21 else 20)

/-- `src/core/cbor.c` 67-69: `n20_cbor_write_tag`. -/
def cborWriteTag (tag : UInt64) : W Unit := cborWriteHeader cborTypeTag tag

/-- `src/core/cbor.c` 71-73: `n20_cbor_write_uint`. -/
def cborWriteUInt (n : UInt64) : W Unit := cborWriteHeader cborTypeUint n

/-- `src/core/cbor.c` 79: the expression `-n - 1` for negative `n`, in signed arithmetic: `-n` is undefined for the most
negative number. -/
def negMinusOne (n : Int64) : Except UB UInt64 :=
  if n = Int64.minValue then .error .signedOverflow else .ok (-n - 1).toUInt64

/-- `src/core/cbor.c` 75-81: `n20_cbor_write_int`. -/
def cborWriteInt (n : Int64) : W Unit :=
  if 0 ≤ n then cborWriteUInt n.toUInt64
  else do
    let m ← liftM (negMinusOne n)
    cborWriteHeader cborTypeNint m

/-- `src/core/cbor.c` 83-91: `n20_cbor_write_byte_string`. -/
def cborWriteByteString (bytes : Slice) : W Unit :=
  if bytes.size > 0 ∧ bytes.buffer = none then cborWriteNull
  else do
    streamPrepend bytes.buffer bytes.size
    cborWriteHeader cborTypeBytes bytes.size

/-- `src/core/cbor.c` 93-101: `n20_cbor_write_text_string`. -/
def cborWriteTextString (text : Slice) : W Unit :=
  if text.size > 0 ∧ text.buffer = none then cborWriteNull
  else do
    streamPrepend text.buffer text.size
    cborWriteHeader cborTypeString text.size

/-- `src/core/cbor.c` 103-105: `n20_cbor_write_array_header`. -/
def cborWriteArrayHeader (len : UInt64) : W Unit := cborWriteHeader cborTypeArray len

/-- `src/core/cbor.c` 107-109: `n20_cbor_write_map_header`. -/
def cborWriteMapHeader (len : UInt64) : W Unit := cborWriteHeader cborTypeMap len

end Nat20
