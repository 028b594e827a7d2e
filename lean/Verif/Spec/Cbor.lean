import Verif.Model.Mem
/-!
# CBOR (RFC 8949), written from the RFC

Item trees, their preferred serialisation, and independently a decoder.
-/

namespace Nat20.Cbor

/-- The number with the given big-endian bytes. -/
def beNat (l : Bytes) : Nat := l.foldl (fun acc b => acc * 256 + b.toNat) 0

/-- `k` big-endian bytes. -/
def beOctets (k n : Nat) : Bytes := ((List.range k).map fun i => UInt8.ofNat (n / 256 ^ i % 256)).reverse

/-- RFC 8949 3: number of argument bytes for the additional information 24 to 27. -/
def argumentSize (info : Nat) : Option Nat :=
  if info = 24 then some 1 else if info = 25 then some 2 else if info = 26 then some 4 else if info = 27 then some 8 else none

/-- RFC 8949 3: decodes a head (initial byte and argument) into major type and argument.  Reserved additional information
28-30 and indefinite lengths (31) are rejected, as are two-byte simple values below 32 (3.3). -/
def decodeHead : Bytes → Option ((Nat × Nat) × Bytes)
  | [] => none
  | b :: r =>
    let major := b.toNat / 32
    let info := b.toNat % 32
    if info < 24 then some ((major, info), r)
    else
      match argumentSize info with
      | none => none
      | some k =>
        if r.length < k then none
        else if major = 7 ∧ k = 1 ∧ beNat (r.take k) < 32 then none
        else some ((major, beNat (r.take k)), r.drop k)

/-- RFC 8949 4.1: preferred serialisation of a head. -/
def head (major n : Nat) : Bytes :=
  if n < 24 then [UInt8.ofNat (major * 32 + n)]
  else if n < 2 ^ 8 then UInt8.ofNat (major * 32 + 24) :: beOctets 1 n
  else if n < 2 ^ 16 then UInt8.ofNat (major * 32 + 25) :: beOctets 2 n
  else if n < 2 ^ 32 then UInt8.ofNat (major * 32 + 26) :: beOctets 4 n
  else UInt8.ofNat (major * 32 + 27) :: beOctets 8 n

/-- Data items (definite lengths, no floating point numbers). -/
inductive Item where
  | int (v : Int)
  | bytes (b : Bytes)
  | text (b : Bytes)
  | array (items : List Item)
  | map (entries : List (Item × Item))
  | tag (n : Nat) (item : Item)
  | simple (n : Nat)

/-- Items with the value ranges CBOR has. -/
inductive Item.Ok : Item → Prop
  | int {v : Int} (h1 : -(2 ^ 64) ≤ v) (h2 : v < 2 ^ 64) : Ok (.int v)
  | bytes {b : Bytes} (h : b.length < 2 ^ 64) : Ok (.bytes b)
  | text {b : Bytes} (h : b.length < 2 ^ 64) : Ok (.text b)
  | array {items : List Item} (h : items.length < 2 ^ 64) (hi : ∀ i ∈ items, Ok i) : Ok (.array items)
  | map {entries : List (Item × Item)} (h : entries.length < 2 ^ 64) (hk : ∀ e ∈ entries, Ok e.1) (hv : ∀ e ∈ entries, Ok e.2) :
      Ok (.map entries)
  | tag {n : Nat} {item : Item} (h : n < 2 ^ 64) (hi : Ok item) : Ok (.tag n item)
  | simple {n : Nat} (h : n < 24 ∨ (32 ≤ n ∧ n < 256)) : Ok (.simple n)

/-- RFC 8949 3.1: the item denoted by a head and what follows, where `items` and `entries` decode that many items or
pairs. -/
def decodeBody (decodeItems : Nat → Bytes → Option (List Item × Bytes))
    (decodeEntries : Nat → Bytes → Option (List (Item × Item) × Bytes))
    (major n : Nat) (r : Bytes) : Option (Item × Bytes) :=
  match major with
  | 0 => some (.int n, r)
  | 1 => some (.int (-1 - n), r)
  | 2 => if r.length < n then none else some (.bytes (r.take n), r.drop n)
  | 3 => if r.length < n then none else some (.text (r.take n), r.drop n)
  | 4 => (decodeItems n r).map fun (l, r) => (.array l, r)
  | 5 => (decodeEntries n r).map fun (l, r) => (.map l, r)
  | 6 =>
    match decodeItems 1 r with
    | some ([i], r) => some (.tag n i, r)
    | _ => none
  | 7 => if n < 256 then some (.simple n, r) else none
  | _ => none

mutual
/-- Decodes one item; the first argument bounds the recursion. -/
def decodeItem : Nat → Bytes → Option (Item × Bytes)
  | 0, _ => none
  | fuel + 1, input =>
    match decodeHead input with
    | none => none
    | some ((major, n), r) => decodeBody (decodeItems fuel) (decodeEntries fuel) major n r
/-- Decodes the given number of items. -/
def decodeItems : Nat → Nat → Bytes → Option (List Item × Bytes)
  | 0, _, _ => none
  | _ + 1, 0, r => some ([], r)
  | fuel + 1, k + 1, r =>
    match decodeItem fuel r with
    | none => none
    | some (i, r) =>
      match decodeItems fuel k r with
      | none => none
      | some (l, r) => some (i :: l, r)
/-- Decodes the given number of key/value pairs. -/
def decodeEntries : Nat → Nat → Bytes → Option (List (Item × Item) × Bytes)
  | 0, _, _ => none
  | _ + 1, 0, r => some ([], r)
  | fuel + 1, k + 1, r =>
    match decodeItems fuel 2 r with
    | some ([key, value], r) =>
      match decodeEntries fuel k r with
      | none => none
      | some (l, r) => some ((key, value) :: l, r)
    | _ => none
end

/-- Decodes one item from the front of the input. -/
def decode (input : Bytes) : Option (Item × Bytes) := decodeItem (4 * input.length + 1) input

mutual
/-- Preferred serialisation of an item. -/
def encode : Item → Bytes
  | .int v => match v with
    | .ofNat n => head 0 n
    | .negSucc n => head 1 n
  | .bytes b => head 2 b.length ++ b
  | .text b => head 3 b.length ++ b
  | .array items => head 4 items.length ++ encodeList items
  | .map entries => head 5 entries.length ++ encodeEntries entries
  | .tag n item => head 6 n ++ encode item
  | .simple n => head 7 n
def encodeList : List Item → Bytes
  | [] => []
  | i :: is => encode i ++ encodeList is
def encodeEntries : List (Item × Item) → Bytes
  | [] => []
  | e :: es => encodePair e ++ encodeEntries es
def encodePair : Item × Item → Bytes
  | (k, v) => encode k ++ encode v
end

end Nat20.Cbor
