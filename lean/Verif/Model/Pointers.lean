import Verif.Model.Asn1
import Verif.Model.Digest
/-!
# The places where the library computes pointers

C leaves a computation `p + i` undefined that neither points to an element of the array of `p` nor one past its last element, even if nothing is accessed
(C11 6.5.6p8).  The other models only look at accesses.  This one has the functions that do arithmetic with pointers once more, with a check at each of them.
All other functions of `src/core` and `src/crypto/nat20` only use `a[i]` and `&a[i]` of elements they access, or pass pointers on.
-/

namespace Nat20

/-- Undefined behaviour of the other models, or a pointer outside of its object (C11 6.5.6p8; `src/core/asn1.c` 200, `src/core/stream.c` 57). -/
inductive Fault where
  | access (u : UB)
  | pointer
  deriving DecidableEq, Repr

/-- Rendering functions in which also computing a pointer can be undefined (as `W`, `src/core/stream.c` 20-83). -/
abbrev PW (α : Type) := StateT (Option Stream) (Except Fault) α

/-- A step in which no pointer is computed (e.g. `src/core/asn1.c` 205: `*msb`). -/
def noPointer {α : Type} : Except UB α → Except Fault α
  | .ok a => .ok a
  | .error u => .error (.access u)

/-- The computation of `p + i`, where the object is the accessible memory around `p` (e.g. `src/core/asn1.c` 188, 198, 200, 208, 225). -/
def Ptr.form (p : Ptr) (i : Int) : Except Fault Unit :=
  if -(p.before.length : Int) ≤ i ∧ i ≤ p.data.length then .ok () else .error .pointer

/-- `src/core/stream.c` 64-79: `n20_stream_prepend` with the pointer `s->begin + (s->size - s->write_position)` in line 77. -/
def streamPrependC (src : Option Ptr) (srcLen : UInt64) : PW Unit := fun sp =>
  match sp with
  | none => .ok ((), none)
  | some s =>
    let oldPos := s.writePosition
    let pos := oldPos + srcLen
    let wpo := s.writePositionOverflow || decide (pos < oldPos)
    let bo := wpo || s.bufferOverflow || decide (s.size < pos)
    let s1 : Stream :=
      { s with writePosition := pos, writePositionOverflow := wpo, bufferOverflow := bo }
    if bo then .ok ((), some s1)
    else
      match s.begin_ with
      | none => .error .pointer
      | some mem =>
        if mem.length < (s.size - pos).toNat then .error .pointer
        else
          match memcpy s.begin_ (s.size - pos) src srcLen with
          | .ok mem => .ok ((), some { s1 with begin_ := some mem })
          | .error e => .error (.access e)

/-- `src/core/stream.c` 56-58: `n20_stream_data` with the pointer `s->begin + (s->size - s->write_position)`; nothing may be added to NULL. -/
def streamDataC : Option Stream → Except Fault (Option UInt64)
  | none => .ok none
  | some s =>
    match s.begin_ with
    | none => .error .pointer
    | some mem => if mem.length < (s.size - s.writePosition).toNat then .error .pointer else .ok (some (s.size - s.writePosition))

/-- `src/core/asn1.c` 207-209 and 216-218: `stripLoop` with the pointers `msb += inc`. -/
def stripLoopC (p : Ptr) (pad : UInt8) (inc end_ : Int) : Nat → Except Fault Nat
  | 0 => do
    let _ ← noPointer (p.read end_)
    Pure.pure 0
  | rem + 1 => do
    let b ← noPointer (p.read (end_ - (rem + 1) * inc))
    if b = pad then do
      p.form (end_ - rem * inc)
      stripLoopC p pad inc end_ rem
    else Pure.pure (rem + 1)

/-- `src/core/asn1.c` 224-227: `writeLoop` with the pointers `end -= inc`. -/
def writeLoopC (p : Ptr) (inc : Int) (end_ : Int) : Nat → PW Unit
  | 0 => Pure.pure ()
  | rem + 1 => do
    let e := end_ - inc
    liftM (p.form e)
    let b ← liftM (noPointer (p.read e))
    streamPrependC (localPtr [b]) 1
    writeLoopC p inc e rem

/-- `src/core/asn1.c` 187-202: the pointers `msb` and `end` at the beginning: `buffer + size`, and for little-endian numbers also `end - 1` and `buffer - 1`. -/
def integerPointers (p : Ptr) (n : Nat) (littleEndian : Bool) : Except Fault Unit :=
  if littleEndian then do
    p.form n
    p.form ((n : Int) - 1)
    p.form (-1)
  else p.form n

/-- `src/core/asn1.c` 182-232: `n20_asn1_integer_internal_content`. -/
def asn1IntegerContentC (p : Ptr) (size : UInt64) (littleEndian twoComplement : Bool) : PW Unit := do
  let n : Nat := size.toNat
  let inc : Int := if littleEndian then -1 else 1
  let end_ : Int := if littleEndian then -1 else n
  liftM (integerPointers p n littleEndian)
  let negative ← liftM (noPointer (integerNegative p twoComplement (end_ - n * inc)))
  let extra : UInt8 := if negative then 0xff else 0
  let rem ← liftM (stripLoopC p extra inc end_ n)
  let addExtra ← liftM (noPointer (integerAddExtra p negative rem (end_ - rem * inc)))
  writeLoopC p inc end_ rem
  if addExtra then streamPrependC (localPtr [extra]) 1 else Pure.pure ()

/-- The variables of the loop in `n20_hkdf_expand` after one more block (`src/crypto/nat20/crypto.c` 430-438) with the pointer `out += digest_size` in line 437. -/
def expandStepC (hmac : HmacFn) (alg : UInt32) (prk info : Slice) (s : ExpandState) : Except Fault ExpandState := do
  let s' ← noPointer (expandStep hmac alg prk info s)
  if s.mem.length < s'.off then .error .pointer else .ok s'

/-- `src/crypto/nat20/crypto.c` 429-439: the loop. -/
def expandLoopC (hmac : HmacFn) (alg : UInt32) (prk info : Slice) : Nat → ExpandState → Except Fault ExpandState
  | 0, _ => .error (.access .diverges)
  | fuel + 1, s =>
    if s.keyOctets ≥ s.digestSize then do
      let s ← expandStepC hmac alg prk info s
      expandLoopC hmac alg prk info fuel s
    else .ok s

end Nat20
