import Verif.Spec.Der
import Verif.Spec.Stream
import Verif.Model.Asn1
/-!
# What the ASN.1 renderers are asked to render: the values denoted by their arguments
-/

namespace Nat20

/-- The bytes of a number, most significant first. -/
def mostSignificantFirst (littleEndian : Bool) (bytes : Bytes) : Bytes := if littleEndian then bytes.reverse else bytes

/-- The number denoted by bytes given most significant first. -/
def bytesValue (twoComplement : Bool) (be : Bytes) : Int :=
  if twoComplement then Der.twosComplement be else (Der.fromBE be : Int)

/-- The number denoted by a slice. -/
def Slice.value (s : Slice) (littleEndian twoComplement : Bool) : Int :=
  bytesValue twoComplement (mostSignificantFirst littleEndian s.bytes)

/-- The byte next to the least significant byte of the slice, outside of the slice, is accessible memory. -/
def Slice.NeighbourReadable (s : Slice) (littleEndian : Bool) : Prop :=
  ∃ p, s.buffer = some p ∧ if littleEndian then p.before ≠ [] else s.size.toNat < p.data.length

/-- This byte. -/
def Slice.neighbour (s : Slice) (littleEndian : Bool) : Option UInt8 :=
  s.buffer.bind fun p => if littleEndian then p.before.getLast? else p.data[s.size.toNat]?

/-- The accessible memory next to the least significant byte of a local variable. -/
def Frame.adjacent (fr : Frame) : Bytes := if fr.bigEndian then fr.above else fr.below

/-- The bytes of a NULL-able slice. -/
def optBytes : Option Slice → Bytes
  | none => []
  | some s => s.bytes

/-- The arcs of an OID. -/
def Oid.arcs (oid : Oid) : List Nat := (oid.elements.toList.take oid.elemCount.toNat).map UInt32.toNat

/-- X.660: which arcs exist. -/
def ValidArcs (arcs : List Nat) : Prop := ∃ a b rest, arcs = a :: b :: rest ∧ a ≤ 2 ∧ (a < 2 → b < 40)

/-- The contents octets `n20_asn1_object_identifier` produces for arcs, with the first octet reduced modulo 256.  C14 relates
them to the standard: they are those of X.690 8.19 if the first two arcs fit into one octet. -/
def oidCodeContent (arcs : List Nat) : Bytes :=
  UInt8.ofNat (match arcs with | [] => 0 | [a] => 40 * a | a :: b :: _ => 40 * a + b) ::
    ((arcs.drop 2).map Der.base128).flatten

/-- Valid arcs of which the first two fit into one octet, so that `oidCodeContent` is what X.690 demands. -/
def StandardArcs (arcs : List Nat) : Prop := ∃ a b rest, arcs = a :: b :: rest ∧ a ≤ 2 ∧ (a < 2 → b < 40) ∧ 40 * a + b < 128

/-- The tagging requested by a tag info argument. -/
def TagInfo.tagging (t : TagInfo) : Der.Tagging :=
  match t.type with
  | .noOverride => .none
  | .implicit => .implicit t.tag.toNat
  | .explicit => .explicit t.tag.toNat

end Nat20
