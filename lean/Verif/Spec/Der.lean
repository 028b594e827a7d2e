import Verif.Model.Mem
/-!
# DER (ITU-T X.690), written from the standard

Encodings as functions and, independently, a strict parser which only accepts the minimal forms DER demands.
-/

namespace Nat20.Der

/-- Minimal big-endian base-256 digits; zero has none. -/
def beBytes (n : Nat) : Bytes :=
  if _h : n = 0 then [] else beBytes (n / 256) ++ [UInt8.ofNat (n % 256)]
termination_by n
decreasing_by omega

/-- The number with the given big-endian base-256 digits. -/
def fromBE (l : Bytes) : Nat := l.foldl (fun acc b => acc * 256 + b.toNat) 0

/-- Big-endian base-128 digits with the continuation bit set; zero has none. -/
def septets (n : Nat) : Bytes :=
  if _h : n = 0 then [] else septets (n / 128) ++ [UInt8.ofNat (128 + n % 128)]
termination_by n
decreasing_by omega

/-- X.690 8.1.2.4.2 and 8.19.2: base-128 digits, all but the last with bit 8 set. -/
def base128 (n : Nat) : Bytes := septets (n / 128) ++ [UInt8.ofNat (n % 128)]

/-- X.690 8.1.2: identifier octets. -/
def identifierOctets (cls : Nat) (constructed : Bool) (tag : Nat) : Bytes :=
  let lead := cls * 64 + (if constructed then 32 else 0)
  if tag < 31 then [UInt8.ofNat (lead + tag)] else UInt8.ofNat (lead + 31) :: base128 tag

/-- X.690 8.1.3 and 10.1: definite, minimal length octets. -/
def lengthOctets (n : Nat) : Bytes :=
  if n < 128 then [UInt8.ofNat n] else UInt8.ofNat (128 + (beBytes n).length) :: beBytes n

/-- A complete element: identifier, length and contents octets. -/
def tlv (cls : Nat) (constructed : Bool) (tag : Nat) (content : Bytes) : Bytes :=
  identifierOctets cls constructed tag ++ lengthOctets content.length ++ content

/-! ## Strict parser -/

/-- Reads base-128 digits up to and including the first byte without continuation bit. -/
def parseBase128 (acc : Nat) : Bytes → Option (Nat × Bytes)
  | [] => none
  | b :: r => if b.toNat < 128 then some (acc * 128 + b.toNat, r) else parseBase128 (acc * 128 + (b.toNat - 128)) r

/-- Identifier octets: class, constructed, tag.  Long form tags must be minimal and above 30. -/
def parseIdentifier : Bytes → Option ((Nat × Bool × Nat) × Bytes)
  | [] => none
  | b :: r =>
    let cls := b.toNat / 64
    let constructed := b.toNat / 32 % 2 == 1
    let low := b.toNat % 32
    if low < 31 then some ((cls, constructed, low), r)
    else if r.head? = some 0x80 then none
    else
      match parseBase128 0 r with
      | none => none
      | some (tag, r') => if tag < 31 then none else some ((cls, constructed, tag), r')

/-- Length octets: definite form, minimal. -/
def parseLength : Bytes → Option (Nat × Bytes)
  | [] => none
  | b :: r =>
    if b.toNat < 128 then some (b.toNat, r)
    else
      let k := b.toNat - 128
      if r.length < k then none
      else if k = 0 ∨ r.head? = some 0 then none
      else if fromBE (r.take k) < 128 then none
      else some (fromBE (r.take k), r.drop k)

/-- One element: class, constructed, tag, contents; and the remaining input. -/
def parseTlv (input : Bytes) : Option ((Nat × Bool × Nat × Bytes) × Bytes) :=
  match parseIdentifier input with
  | none => none
  | some ((cls, constructed, tag), r) =>
    match parseLength r with
    | none => none
    | some (len, r') =>
      if r'.length < len then none else some ((cls, constructed, tag, r'.take len), r'.drop len)

/-! ## Contents of primitive types -/

/-- X.690 8.3: two's complement value of integer contents octets. -/
def twosComplement (c : Bytes) : Int :=
  match c with
  | [] => 0
  | b :: _ => if b.toNat < 128 then (fromBE c : Int) else (fromBE c : Int) - (256 ^ c.length : Nat)

/-- X.690 8.3.2: at least one octet; the first nine bits are neither all zero nor all one. -/
def MinimalInteger (c : Bytes) : Prop :=
  match c with
  | [] => False
  | [_] => True
  | a :: b :: _ => ¬ (a.toNat = 0 ∧ b.toNat < 128) ∧ ¬ (a.toNat = 255 ∧ 128 ≤ b.toNat)

/-- Contents octets of a non-negative integer. -/
def natContent (n : Nat) : Bytes :=
  match beBytes n with
  | [] => [0]
  | b :: r => if b.toNat < 128 then b :: r else 0 :: b :: r

/-- X.690 8.3: contents octets of an integer; `-n-1` is the bitwise complement of `n`. -/
def intContent (v : Int) : Bytes :=
  match v with
  | .ofNat n => natContent n
  | .negSucc n => (natContent n).map (fun b => 255 - b)

/-- Bits of an octet, most significant first. -/
def octetBits (b : UInt8) : List Bool := (List.range 8).map fun i => b.toNat.testBit (7 - i)

/-- Bits of an octet string, most significant bit of the first octet first. -/
def bitsOf (l : Bytes) : List Bool := (l.map octetBits).flatten

/-- The octet with the given (at most eight) leading bits, remaining bits zero. -/
def packOctet (bits : List Bool) : UInt8 :=
  UInt8.ofNat ((List.range 8).foldl (fun acc i => acc * 2 + (if bits[i]? = some true then 1 else 0)) 0)

/-- Packs bits into octets, zero padded. -/
def packBits (bits : List Bool) : Bytes :=
  if _h : bits = [] then [] else packOctet (bits.take 8) :: packBits (bits.drop 8)
termination_by bits.length
decreasing_by
  have : bits.length ≠ 0 := by simpa using _h
  simp; omega

/-- X.690 8.6 and 11.2.1: number of unused bits, then the bits, unused bits zero. -/
def bitStringContent (bits : List Bool) : Bytes :=
  UInt8.ofNat ((8 - bits.length % 8) % 8) :: packBits bits

/-- Strict reading of bit string contents. -/
def parseBitString : Bytes → Option (List Bool)
  | [] => none
  | u :: r =>
    if 8 ≤ u.toNat then none
    else if u.toNat ≠ 0 ∧ r = [] then none
    else if (bitsOf r).drop (8 * r.length - u.toNat) = List.replicate u.toNat false then
      some ((bitsOf r).take (8 * r.length - u.toNat))
    else none

/-- X.690 8.19: contents octets of an object identifier with at least two arcs. -/
def oidContent : List Nat → Option Bytes
  | a :: b :: rest => some (base128 (40 * a + b) ++ (rest.map base128).flatten)
  | _ => none

/-- Splits contents octets into subidentifiers (minimal ones only). -/
def parseSubidentifiers (l : Bytes) : Option (List Nat) :=
  if _h : l = [] then some []
  else if l.head? = some 0x80 then none
  else
    match parseBase128 0 l with
    | none => none
    | some (n, r) =>
      if _hl : r.length < l.length then
        match parseSubidentifiers r with
        | none => none
        | some ns => some (n :: ns)
      else none
termination_by l.length

/-- X.690 8.19.4: recovers the arcs. -/
def parseOid (l : Bytes) : Option (List Nat) :=
  match parseSubidentifiers l with
  | some (x :: rest) =>
    if x < 40 then some (0 :: x :: rest)
    else if x < 80 then some (1 :: (x - 40) :: rest)
    else some (2 :: (x - 80) :: rest)
  | _ => none

/-! ## Trees -/

/-- A DER value: primitive with contents octets, or constructed from values. -/
inductive Der where
  | prim (cls tag : Nat) (content : Bytes)
  | cons (cls tag : Nat) (items : List Der)

mutual
/-- The encoding of a value. -/
def Der.encode : Der → Bytes
  | .prim cls tag content => tlv cls false tag content
  | .cons cls tag items => tlv cls true tag (encodeAll items)
/-- The encodings of values one after the other. -/
def encodeAll : List Der → Bytes
  | [] => []
  | d :: ds => d.encode ++ encodeAll ds
end

/-- Strict recursive parser: reads a sequence of elements until the input is used up, descending into constructed ones.
The first argument bounds the recursion; every recursive call gets a shorter input. -/
def parseItems : Nat → Bytes → Option (List Der)
  | 0, _ => none
  | _ + 1, [] => some []
  | fuel + 1, input =>
    match parseTlv input with
    | none => none
    | some ((cls, constructed, tag, content), rest) =>
      match parseItems fuel rest with
      | none => none
      | some ds =>
        if constructed then
          match parseItems fuel content with
          | none => none
          | some cs => some (.cons cls tag cs :: ds)
        else some (.prim cls tag content :: ds)

/-- Parses an input which consists of exactly one DER value. -/
def parse (input : Bytes) : Option Der :=
  match parseItems (input.length + 1) input with
  | some [d] => some d
  | _ => none

mutual
/-- All classes are among the four that exist. -/
def Der.ClassOk : Der → Prop
  | .prim cls _ _ => cls < 4
  | .cons cls _ items => cls < 4 ∧ ClassesOk items
def ClassesOk : List Der → Prop
  | [] => True
  | d :: ds => d.ClassOk ∧ ClassesOk ds
end

/-- X.680 31: tagging. -/
inductive Tagging where
  | none
  | implicit (tag : Nat)
  | explicit (tag : Nat)

/-- X.690 8.14: implicit tagging replaces the tag by a context-specific one, explicit tagging wraps the value. -/
def Tagging.apply : Tagging → Der → Der
  | .none, d => d
  | .implicit t, .prim _ _ c => .prim 2 t c
  | .implicit t, .cons _ _ c => .cons 2 t c
  | .explicit t, d => .cons 2 t [d]

/-- Tagging of an element whose contents octets are given. -/
def Tagging.element (t : Tagging) (cls : Nat) (constructed : Bool) (tag : Nat) (content : Bytes) : Bytes :=
  match t with
  | .none => tlv cls constructed tag content
  | .implicit t => tlv 2 constructed t content
  | .explicit t => tlv 2 true t (tlv cls constructed tag content)

/-! Universal types (X.680 8.4). -/
def boolean (b : Bool) : Der := .prim 0 1 [if b then 0xff else 0x00]
def integer (v : Int) : Der := .prim 0 2 (intContent v)
def bitString (bits : List Bool) : Der := .prim 0 3 (bitStringContent bits)
def octetString (c : Bytes) : Der := .prim 0 4 c
def null : Der := .prim 0 5 []
def utf8String (c : Bytes) : Der := .prim 0 12 c
def printableString (c : Bytes) : Der := .prim 0 19 c
def generalizedTime (c : Bytes) : Der := .prim 0 24 c
def sequence (items : List Der) : Der := .cons 0 16 items
def set (items : List Der) : Der := .cons 0 17 items

end Nat20.Der
