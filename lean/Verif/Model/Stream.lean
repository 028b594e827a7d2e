import Verif.Model.Mem
/-!
# Model of `src/core/stream.c`
-/

namespace Nat20

/-- `include/nat20/stream.h` 41-95: `struct n20_stream_s`.  `begin_` is the accessible memory at the `begin` pointer
(`none` = NULL). -/
structure Stream where
  begin_ : Option Bytes
  size : UInt64
  writePosition : UInt64
  bufferOverflow : Bool
  writePositionOverflow : Bool
  deriving DecidableEq, Repr

/-- Rendering functions take a NULL-able pointer to a stream and update the stream: state transformer over
`Option Stream` (`none` is a NULL `n20_stream_t *`) which may end in undefined behaviour
(the first parameter of all functions in `src/core/stream.c` 20-83, `src/core/asn1.c`, `src/core/cbor.c`, `src/core/x509.c`). -/
abbrev W (α : Type) := StateT (Option Stream) (Except UB) α

/-- `src/core/stream.c` 20-31, `n20_stream_init` for a non-NULL stream (with a NULL stream it does nothing). -/
def streamInit (buffer : Option Bytes) (bufferSize : UInt64) : Stream :=
  { begin_ := buffer
    size := if buffer.isNone then 0 else bufferSize
    writePosition := 0
    bufferOverflow := buffer.isNone
    writePositionOverflow := false }

/-- `src/core/stream.c` 33-35, `n20_stream_has_buffer_overflow`. -/
def streamHasBufferOverflow : Option Stream → Bool
  | none => true
  | some s => s.bufferOverflow

/-- `src/core/stream.c` 37-39, `n20_stream_has_write_position_overflow`. -/
def streamHasWritePositionOverflow : Option Stream → Bool
  | none => true
  | some s => s.writePositionOverflow

/-- `src/core/stream.c` 47-49, `n20_stream_byte_count`. -/
def streamByteCount : Option Stream → UInt64
  | none => 0
  | some s => s.writePosition

/-- `src/core/stream.c` 56-58, `n20_stream_data`: `none` for a NULL stream, otherwise the offset of the returned pointer
from `begin`.  The model returns the (wrapped) offset also where the C pointer arithmetic leaves the buffer (overflowed
stream); the documentation forbids using the pointer then, and no theorem makes a statement about it. -/
def streamData : Option Stream → Option UInt64
  | none => none
  | some s => some (s.size - s.writePosition)

/-- `src/core/stream.c` 64-79, `n20_stream_prepend`. -/
def streamPrepend (src : Option Ptr) (srcLen : UInt64) : W Unit := fun sp =>
  match sp with
  | none => .ok ((), none)
  | some s =>
    let oldPos := s.writePosition
    let pos := oldPos + srcLen
    let wpo := s.writePositionOverflow || decide (pos < oldPos)
    let bo := wpo || s.bufferOverflow || decide (s.size < pos)
    let s1 : Stream :=
      { s with writePosition := pos, writePositionOverflow := wpo, bufferOverflow := bo }
    if bo then .ok ((), some s1)
    else
      match memcpy s.begin_ (s.size - pos) src srcLen with
      | .ok mem => .ok ((), some { s1 with begin_ := some mem })
      | .error e => .error e

/-- `n20_stream_prepend(s, x, n)` for a local array `x` of `n` bytes
(e.g. `src/core/asn1.c` 31, 66, 77, `src/core/cbor.c` 35, `src/core/stream.c` 82). -/
def prependLocal (bs : Bytes) : W Unit := streamPrepend (localPtr bs) (UInt64.ofNat bs.length)

/-- `src/core/stream.c` 81-83, `n20_stream_put`. -/
def streamPut (c : UInt8) : W Unit := prependLocal [c]

/-- `n20_stream_byte_count(s)` used inside of a rendering function (e.g. `src/core/asn1.c` 121, 129, `src/core/x509.c` 67, 73). -/
def byteCount : W UInt64 := fun sp => .ok (streamByteCount sp, sp)

end Nat20
