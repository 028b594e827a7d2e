/-!
# Memory, pointers and undefined behaviour

The part of the C abstract machine the model needs.  Nothing in here models a particular file of the repository,
except for the two slice types of `include/nat20/types.h`.
-/

namespace Nat20

/-- A sequence of octets (memory of type `uint8_t`, e.g. `include/nat20/types.h` 56). -/
abbrev Bytes := List UInt8

/-- The kinds of undefined behaviour the model distinguishes.  Every model function that touches memory or does signed
arithmetic returns `Except UB _`; reaching one of these is a distinct outcome, never a default value
(no counterpart in the code: what the C standard leaves undefined). -/
inductive UB where
  /-- read outside of the accessible memory -/
  | oobRead
  /-- write outside of the accessible memory -/
  | oobWrite
  /-- NULL pointer dereference -/
  | nullDeref
  /-- signed integer overflow -/
  | signedOverflow
  /-- NULL passed to `memcpy` (undefined in C11 7.24.1p2 even for length 0) -/
  | nullMemcpy
  /-- `memcpy` between objects that overlap (C11 7.24.2.1p2) -/
  | overlap
  /-- access to an object after its lifetime, or with something that never was a pointer to one -/
  | useAfterFree
  /-- access to an object as one of another type -/
  | badCast
  /-- not undefined behaviour, but no result either: a loop that makes no progress -/
  | diverges
  deriving DecidableEq, Repr

deriving instance DecidableEq for Except

/-- A (non-NULL) pointer to constant bytes: the accessible memory in front of it (its last element is the byte right
below the pointer) and the accessible memory from the pointer on.  With `before = []` and `data` of exactly the size of the
pointed-to object this is the strict C view in which nothing but that object may be read. NULL-able pointers are
`Option Ptr` (`uint8_t const *`, e.g. `include/nat20/types.h` 56). -/
structure Ptr where
  before : Bytes
  data : Bytes
  deriving DecidableEq, Repr

/-- The C expression `p[i]` for a possibly negative index (e.g. `src/core/asn1.c` 226, `src/core/x509.c` 34). -/
def Ptr.read (p : Ptr) (i : Int) : Except UB UInt8 :=
  if 0 ≤ i then
    match p.data[i.toNat]? with
    | some b => .ok b
    | none => .error .oobRead
  else
    match p.before.reverse[(-1 - i).toNat]? with
    | some b => .ok b
    | none => .error .oobRead

/-- `include/nat20/types.h` 46-62 and 96-112: `n20_slice_t` and `n20_string_slice_t`, a size and a NULL-able buffer. -/
structure Slice where
  size : UInt64
  buffer : Option Ptr
  deriving DecidableEq, Repr

/-- `N20_SLICE_NULL` (`include/nat20/types.h` 78). -/
def Slice.null : Slice := ⟨0, none⟩

/-- The address of a local array holding `bs` (e.g. `src/core/asn1.c` 31, 66, 111). -/
def localPtr (bs : Bytes) : Option Ptr := some ⟨[], bs⟩

/-- `memcpy(dst + off, src, len)` where `dst` is the accessible memory at the destination pointer.
Source and destination are separate objects here; for overlaps see `memcpyP` in `Model/Writers` and `Model/Arena` (`src/core/stream.c` 77, `src/crypto/nat20/crypto.c` 224, 454). -/
def memcpy (dst : Option Bytes) (off : UInt64) (src : Option Ptr) (len : UInt64) : Except UB Bytes :=
  match dst, src with
  | some d, some p =>
    if p.data.length < len.toNat then .error .oobRead
    else if d.length < off.toNat + len.toNat then .error .oobWrite
    else .ok (d.take off.toNat ++ p.data.take len.toNat ++ d.drop (off.toNat + len.toNat))
  | _, _ => .error .nullMemcpy

end Nat20
