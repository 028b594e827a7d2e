import Verif.Model.Stream
/-!
# What it means for a writer to prepend bytes to a stream

This is the specification all rendering theorems are stated in.  It is about the observable contents of the stream
structure and its buffer before and after a call, and does not say how the bytes got there.
-/

namespace Nat20

/-- States every caller can have: obtained from `n20_stream_init` on a buffer of at least the announced size by any
history of prepends (`C03_flags_sticky`). -/
structure Stream.WF (s : Stream) : Prop where
  wpo_bo : s.writePositionOverflow = true → s.bufferOverflow = true
  good : s.bufferOverflow = false →
    ∃ mem, s.begin_ = some mem ∧ s.size.toNat ≤ mem.length ∧ s.writePosition.toNat ≤ s.size.toNat

/-- `s'` is what a stream in state `s` becomes when `bs` is prepended to its contents. -/
structure Prepended (s s' : Stream) (bs : Bytes) : Prop where
  /-- the announced buffer size does not change -/
  size_eq : s'.size = s.size
  /-- the buffer stays where it is -/
  same_buffer : s'.begin_.map List.length = s.begin_.map List.length
  /-- the position counter is reported as overflowed exactly if it did now or before -/
  wpo_iff : s'.writePositionOverflow = true ↔
    s.writePositionOverflow = true ∨ 2 ^ 64 ≤ s.writePosition.toNat + bs.length
  /-- the buffer is reported as overflowed exactly if it did now or before -/
  bo_iff : s'.bufferOverflow = true ↔
    s.bufferOverflow = true ∨ s.size.toNat < s.writePosition.toNat + bs.length
  /-- the byte count grows by the number of bytes, whether or not they fit -/
  count : s'.writePositionOverflow = false →
    s'.writePosition.toNat = s.writePosition.toNat + bs.length
  /-- if everything fits, the bytes are placed directly in front of the earlier ones and nothing else changes -/
  fits : s'.bufferOverflow = false → ∀ mem, s.begin_ = some mem →
    s'.begin_ = some (mem.take (s.size.toNat - s.writePosition.toNat - bs.length) ++ bs
      ++ mem.drop (s.size.toNat - s.writePosition.toNat))
  /-- whether or not it fits, bytes written earlier (and all memory behind the buffer) keep their value -/
  keeps : s.bufferOverflow = false → ∀ mem, s.begin_ = some mem →
    ∃ mem', s'.begin_ = some mem' ∧
      mem'.drop (s.size.toNat - s.writePosition.toNat) = mem.drop (s.size.toNat - s.writePosition.toNat)
  /-- a stream which already overflowed is not written to at all -/
  dead : s.bufferOverflow = true → s'.begin_ = s.begin_

/-- `w` is a writer without undefined behaviour whose effect, in every well-formed stream state, is to prepend `bs`; a
NULL stream is left alone. -/
structure Prepends (w : W Unit) (bs : Bytes) : Prop where
  null : w none = .ok ((), none)
  run : ∀ s : Stream, s.WF → ∃ s' : Stream, w (some s) = .ok ((), some s') ∧ s'.WF ∧ Prepended s s' bs

/-- `w` has undefined behaviour of the kind `e` in every well-formed stream state, and for a NULL stream. -/
structure Faults (w : W Unit) (e : UB) : Prop where
  null : w none = .error e
  run : ∀ s : Stream, s.WF → w (some s) = .error e

/-- What a caller of `n20_stream_data` / `n20_stream_byte_count` reads. -/
def callerReads (s : Stream) : Option Bytes :=
  match s.begin_, streamData (some s) with
  | some mem, some off => some ((mem.drop off.toNat).take (streamByteCount (some s)).toNat)
  | _, _ => none

/-- The slice is something the caller may legally pass: NULL, or a pointer to at least `size` accessible bytes. -/
def Slice.Valid (s : Slice) : Prop := ∀ p, s.buffer = some p → s.size.toNat ≤ p.data.length

/-- The bytes a slice denotes; a NULL slice denotes no bytes. -/
def Slice.bytes (s : Slice) : Bytes :=
  match s.buffer with
  | none => []
  | some p => p.data.take s.size.toNat

end Nat20
