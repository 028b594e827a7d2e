import Verif.Model.Writers
import Verif.Spec.Render
import Verif.Spec.Steps
/-!
# Specification: rendering from and to the same memory

What the arguments of a rendering function refer to (`value`), which octets they are (`Has`), where a stream has not been written to
yet (`Unwritten`), and all rendering functions of the public API with callbacks of any depth (`RCall`, `Content`).
-/

namespace Nat20

/-! ## Streams -/

/-- The stream as the model without addresses sees it. -/
def SVars.view (m : Memory) (s : SVars) : Stream := ⟨s.begin_.map m.tail, s.size, s.writePosition, s.bufferOverflow, s.writePositionOverflow⟩

/-- The octet at `a` belongs to the part of the buffer that is still to be written: the buffer without the `writePosition` octets at its
end.  Once the stream has overflowed nothing is written any more. -/
def Unwritten (v : Option SVars) (a : Addr) : Prop :=
  ∃ s b, v = some s ∧ s.begin_ = some b ∧ s.bufferOverflow = false ∧ a.region = b.region ∧ b.off ≤ a.off ∧ a.off + s.writePosition.toNat < b.off + s.size.toNat

/-! ## What the arguments refer to -/

/-- The `n` octets at the pointer, and nothing else. -/
def Source.value (m : Memory) (n : Nat) : Source → Ptr
  | .mem a => ⟨[], (m.tail a).take n⟩
  | .const p => p

/-- The octet at `a` is one of the `n` octets at the pointer. -/
def Source.Has (n : Nat) : Source → Addr → Prop
  | .mem x, a => x.Covers n a.region a.off
  | .const _, _ => False

/-- The octet at `a` is one of the `n` octets at the pointer or right next to them. -/
def Source.Near (n : Nat) : Source → Addr → Prop
  | .mem x, a => a.region = x.region ∧ x.off ≤ a.off + 1 ∧ a.off ≤ x.off + n
  | .const _, _ => False

def RSlice.value (m : Memory) (s : RSlice) : Slice := ⟨s.size, s.buffer.map (Source.value m s.size.toNat)⟩

def RSlice.Has (s : RSlice) (a : Addr) : Prop := ∃ x, s.buffer = some x ∧ x.Has s.size.toNat a

def RSlice.Near (s : RSlice) (a : Addr) : Prop := ∃ x, s.buffer = some x ∧ x.Near s.size.toNat a

/-- The number of octets that hold a number of bits. -/
def bitOctets (bits : UInt64) : Nat := (bits.toNat + 7) / 8

/-- The octet at `a` is one of a bit string. -/
def BitsHave (p : Option Source) (bits : UInt64) (a : Addr) : Prop := ∃ x, p = some x ∧ x.Has (bitOctets bits) a

def RRdn.copy (m : Memory) (r : RRdn) : Rdn := ⟨r.type, r.value.value m⟩

def RName.value (m : Memory) (n : RName) : Name := ⟨n.elementCount, n.elements.map (RRdn.copy m)⟩

def RName.Has (n : RName) (a : Addr) : Prop := ∃ r ∈ n.elements.toList.take n.elementCount.toNat, r.value.Has a

def RValidity.value (m : Memory) (v : RValidity) : Validity := ⟨v.notBefore.value m, v.notAfter.value m⟩

def RValidity.Has (v : RValidity) (a : Addr) : Prop := v.notBefore.Has a ∨ v.notAfter.Has a

def RPublicKeyInfo.value (m : Memory) (i : RPublicKeyInfo) : PublicKeyInfo :=
  ⟨i.algorithmIdentifier, i.publicKeyBits, i.publicKey.map (Source.value m (bitOctets i.publicKeyBits))⟩

def RExtension.value (e : RExtension (W Unit)) : Extension := ⟨e.oid, e.critical, e.contentCb⟩

def RExtensions.value (e : RExtensions (W Unit)) : Extensions := ⟨e.extensionsCount, e.extensions.map (·.map RExtension.value)⟩

def RTbs.value (m : Memory) (t : RTbs (W Unit)) : Tbs :=
  ⟨t.serialNumber.value m, t.signatureAlgorithm, t.issuerName.value m, t.validity.value m, t.subjectName.value m, t.subjectPublicKeyInfo.value m, t.extensions.value⟩

def RX509.value (m : Memory) (c : RX509 (W Unit)) : X509 :=
  ⟨c.tbs.map (RTbs.value m), c.signatureAlgorithm, c.signatureBits, c.signature.map (Source.value m (bitOctets c.signatureBits))⟩

def ROpenDiceInput.value (m : Memory) (i : ROpenDiceInput) : OpenDiceInput :=
  ⟨i.codeHash.value m, i.codeDescriptor.value m, i.configurationHash.value m, i.configurationDescriptor.value m, i.authorityHash.value m,
    i.authorityDescriptor.value m, i.mode, i.profileName.value m⟩

def ROpenDiceInput.Has (i : ROpenDiceInput) (a : Addr) : Prop :=
  i.codeHash.Has a ∨ i.codeDescriptor.Has a ∨ i.configurationHash.Has a ∨ i.configurationDescriptor.Has a ∨ i.authorityHash.Has a ∨
    i.authorityDescriptor.Has a ∨ i.profileName.Has a

def RFwid.value (m : Memory) (f : RFwid) : Fwid := ⟨f.hashAlgo, f.digest.value m⟩

def RTcbInfo.value (m : Memory) (t : RTcbInfo) : TcbInfo :=
  ⟨t.vendor.value m, t.model.value m, t.version.value m, t.svn, t.layer, t.index, t.fwids.map (·.map (RFwid.value m)), t.fwidsCount, t.flags, t.flagsMask,
    t.vendorInfo.value m, t.type.value m⟩

def RTcbInfo.Has (t : RTcbInfo) (a : Addr) : Prop :=
  t.vendor.Has a ∨ t.model.Has a ∨ t.version.Has a ∨ (∃ l, t.fwids = some l ∧ ∃ f ∈ l.take t.fwidsCount.toNat, f.digest.Has a) ∨ t.vendorInfo.Has a ∨ t.type.Has a

def RMultiTcbInfo.value (m : Memory) (i : RMultiTcbInfo) : MultiTcbInfo := ⟨i.list.map (·.map (RTcbInfo.value m)), i.count⟩

def RMultiTcbInfo.Has (i : RMultiTcbInfo) (a : Addr) : Prop := ∃ l, i.list = some l ∧ ∃ t ∈ l.take i.count.toNat, t.Has a

/-! ## Structs with callbacks

`K c a` is the octets which the callback `c` reads. -/

section
variable {κ κ' : Type}

def RExtension.map (f : κ → κ') (e : RExtension κ) : RExtension κ' := ⟨e.oid, e.critical, e.contentCb.map f⟩

def RExtensions.map (f : κ → κ') (e : RExtensions κ) : RExtensions κ' := ⟨e.extensionsCount, e.extensions.map (·.map (RExtension.map f))⟩

def RTbs.map (f : κ → κ') (t : RTbs κ) : RTbs κ' :=
  ⟨t.serialNumber, t.signatureAlgorithm, t.issuerName, t.validity, t.subjectName, t.subjectPublicKeyInfo, t.extensions.map f⟩

def RX509.map (f : κ → κ') (c : RX509 κ) : RX509 κ' := ⟨c.tbs.map (RTbs.map f), c.signatureAlgorithm, c.signatureBits, c.signature⟩

variable (K : κ → Addr → Prop)

def RExtensions.Has (e : RExtensions κ) (a : Addr) : Prop := ∃ l, e.extensions = some l ∧ ∃ x ∈ l.take e.extensionsCount.toNat, ∃ c, x.contentCb = some c ∧ K c a

/-- The octets of everything in the struct; for the serial number `serial` says which. -/
def RTbs.Has (serial : RSlice → Addr → Prop) (t : RTbs κ) (a : Addr) : Prop :=
  serial t.serialNumber a ∨ t.issuerName.Has a ∨ t.validity.Has a ∨ t.subjectName.Has a ∨
    BitsHave t.subjectPublicKeyInfo.publicKey t.subjectPublicKeyInfo.publicKeyBits a ∨ t.extensions.Has K a

def RX509.Has (serial : RSlice → Addr → Prop) (c : RX509 κ) (a : Addr) : Prop := (∃ t, c.tbs = some t ∧ t.Has K serial a) ∨ BitsHave c.signature c.signatureBits a

end

/-! ## All rendering functions of the public API -/

/-- A call of a rendering function (see `RenderCall`). -/
inductive RCall (κ : Type) where
  | streamPrepend (src : Option Source) (len : UInt64)
  | streamPut (c : UInt8)
  | base128Int (n : UInt64)
  | header (class_ : UInt8) (constructed : Bool) (tag : UInt32) (len : UInt64)
  | null (ti : TagInfo)
  | objectIdentifier (oid : Option Oid) (ti : TagInfo)
  | integer (n : RSlice) (littleEndian twoComplement : Bool) (ti : TagInfo)
  | uint64 (fr : Frame) (n : UInt64) (ti : TagInfo)
  | int64 (fr : Frame) (n : Int64) (ti : TagInfo)
  | bitstring (b : Option Source) (bits : UInt64) (ti : TagInfo)
  | octetstring (s : Option RSlice) (ti : TagInfo)
  | utf8String (s : Option RSlice) (ti : TagInfo)
  | printablestring (s : Option RSlice) (ti : TagInfo)
  | generalizedTime (s : Option RSlice) (ti : TagInfo)
  | headerWithContent (class_ : UInt8) (constructed : Bool) (tag : UInt32) (cb : Option κ) (ti : TagInfo)
  | sequence (cb : Option κ) (ti : TagInfo)
  | boolean (v : Bool) (ti : TagInfo)
  | cborHeader (type : UInt32) (n : UInt64)
  | cborNull
  | cborBool (b : Bool)
  | cborTag (tag : UInt64)
  | cborUint (n : UInt64)
  | cborInt (n : Int64)
  | cborByteString (s : RSlice)
  | cborTextString (s : RSlice)
  | cborArrayHeader (n : UInt64)
  | cborMapHeader (n : UInt64)
  | name (n : Option RName)
  | extension (e : Option (RExtensions κ))
  | basicConstraints (fr : Frame) (c : Option BasicConstraints)
  | keyUsage (c : Option KeyUsage)
  | certTbs (fr : Frame) (t : Option (RTbs κ))
  | cert (fr : Frame) (c : Option (RX509 κ))
  | openDiceInput (fr : Frame) (c : Option ROpenDiceInput)
  | tcbFreshness (c : Option RSlice)
  | tcbInfo (fr : Frame) (c : Option RTcbInfo)
  | multiTcbInfo (fr : Frame) (c : Option RMultiTcbInfo)
  | ueid (c : Option RSlice)

/-- The program of the call, where `f` says what the callbacks do. -/
def RCall.prog {κ : Type} (f : κ → WP Unit) : RCall κ → WP Unit
  | streamPrepend src len => streamPrependP src len
  | streamPut c => streamPutP c
  | base128Int n => asn1Base128IntP n
  | header class_ constructed tag len => asn1HeaderP class_ constructed tag len
  | null ti => asn1NullP ti
  | objectIdentifier oid ti => asn1ObjectIdentifierP oid ti
  | integer n littleEndian twoComplement ti => asn1IntegerP n littleEndian twoComplement ti
  | uint64 fr n ti => asn1UInt64P fr n ti
  | int64 fr n ti => asn1Int64P fr n ti
  | bitstring b bits ti => asn1BitstringP b bits ti
  | octetstring s ti => asn1OctetStringP s ti
  | utf8String s ti => asn1Utf8StringP s ti
  | printablestring s ti => asn1PrintableStringP s ti
  | generalizedTime s ti => asn1GeneralizedTimeP s ti
  | headerWithContent class_ constructed tag cb ti => asn1HeaderWithContentP class_ constructed tag (cb.map f) ti
  | sequence cb ti => asn1SequenceP (cb.map f) ti
  | boolean v ti => asn1BooleanP v ti
  | cborHeader type n => cborWriteHeaderP type n
  | cborNull => cborWriteNullP
  | cborBool b => cborWriteHeaderP cborTypeSimpleFloat (if b then 21 else 20)
  | cborTag tag => cborWriteHeaderP cborTypeTag tag
  | cborUint n => cborWriteHeaderP cborTypeUint n
  | cborInt n => cborWriteIntP n
  | cborByteString s => cborWriteStringP cborTypeBytes s
  | cborTextString s => cborWriteStringP cborTypeString s
  | cborArrayHeader n => cborWriteHeaderP cborTypeArray n
  | cborMapHeader n => cborWriteHeaderP cborTypeMap n
  | name n => x509NameP n
  | extension e => x509ExtensionP (e.map (RExtensions.map f))
  | basicConstraints fr c => basicConstraintsContentP fr c
  | keyUsage c => keyUsageContentP c
  | certTbs fr t => x509CertTbsP fr (t.map (RTbs.map f))
  | cert fr c => x509CertP fr (c.map (RX509.map f))
  | openDiceInput fr c => openDiceInputContentP fr c
  | tcbFreshness c => oneSliceContentP c
  | tcbInfo fr c => tcbInfoContentP fr c
  | multiTcbInfo fr c => multiTcbInfoContentP fr c
  | ueid c => oneSliceContentP c

/-- The same call with copies of everything its arguments refer to in the memory `m`, as in `Spec/Render`; `f` is what the callbacks do then. -/
def RCall.value {κ : Type} (m : Memory) (f : κ → W Unit) : RCall κ → RenderCall
  | streamPrepend src len => .streamPrepend (src.map (Source.value m len.toNat)) len
  | streamPut c => .streamPut c
  | base128Int n => .base128Int n
  | header class_ constructed tag len => .header class_ constructed tag len
  | null ti => .null ti
  | objectIdentifier oid ti => .objectIdentifier oid ti
  | integer n littleEndian twoComplement ti => .integer (n.value m) littleEndian twoComplement ti
  | uint64 fr n ti => .uint64 fr n ti
  | int64 fr n ti => .int64 fr n ti
  | bitstring b bits ti => .bitstring (b.map (Source.value m (bitOctets bits))) bits ti
  | octetstring s ti => .octetstring (s.map (RSlice.value m)) ti
  | utf8String s ti => .utf8String (s.map (RSlice.value m)) ti
  | printablestring s ti => .printablestring (s.map (RSlice.value m)) ti
  | generalizedTime s ti => .generalizedTime (s.map (RSlice.value m)) ti
  | headerWithContent class_ constructed tag cb ti => .headerWithContent class_ constructed tag (cb.map f) ti
  | sequence cb ti => .sequence (cb.map f) ti
  | boolean v ti => .boolean v ti
  | cborHeader type n => .cborHeader type n
  | cborNull => .cborNull
  | cborBool b => .cborBool b
  | cborTag tag => .cborTag tag
  | cborUint n => .cborUint n
  | cborInt n => .cborInt n
  | cborByteString s => .cborByteString (s.value m)
  | cborTextString s => .cborTextString (s.value m)
  | cborArrayHeader n => .cborArrayHeader n
  | cborMapHeader n => .cborMapHeader n
  | name n => .name (n.map (RName.value m))
  | extension e => .extension (e.map fun e => (e.map f).value)
  | basicConstraints fr c => .basicConstraints fr c
  | keyUsage c => .keyUsage c
  | certTbs fr t => .certTbs fr (t.map fun t => (t.map f).value m)
  | cert fr c => .cert fr (c.map fun c => (c.map f).value m)
  | openDiceInput fr c => .openDiceInput fr (c.map (ROpenDiceInput.value m))
  | tcbFreshness c => .tcbFreshness (c.map (RSlice.value m))
  | tcbInfo fr c => .tcbInfo fr (c.map (RTcbInfo.value m))
  | multiTcbInfo fr c => .multiTcbInfo fr (c.map (RMultiTcbInfo.value m))
  | ueid c => .ueid (c.map (RSlice.value m))

/-- The octet at `a` is one of what the call renders; `int` says which octets belong to integers, and `K` which to the callbacks. -/
def RCall.Has {κ : Type} (int : RSlice → Addr → Prop) (K : κ → Addr → Prop) : RCall κ → Addr → Prop
  | streamPrepend src len, a => ∃ x, src = some x ∧ x.Has len.toNat a
  | integer n _ _ _, a => int n a
  | bitstring b bits _, a => BitsHave b bits a
  | octetstring s _, a => ∃ x, s = some x ∧ x.Has a
  | utf8String s _, a => ∃ x, s = some x ∧ x.Has a
  | printablestring s _, a => ∃ x, s = some x ∧ x.Has a
  | generalizedTime s _, a => ∃ x, s = some x ∧ x.Has a
  | headerWithContent _ _ _ cb _, a => ∃ c, cb = some c ∧ K c a
  | sequence cb _, a => ∃ c, cb = some c ∧ K c a
  | cborByteString s, a => s.Has a
  | cborTextString s, a => s.Has a
  | name n, a => ∃ x, n = some x ∧ x.Has a
  | extension e, a => ∃ x, e = some x ∧ x.Has K a
  | certTbs _ t, a => ∃ x, t = some x ∧ x.Has K int a
  | cert _ c, a => ∃ x, c = some x ∧ x.Has K int a
  | openDiceInput _ c, a => ∃ x, c = some x ∧ x.Has a
  | tcbFreshness c, a => ∃ x, c = some x ∧ x.Has a
  | tcbInfo _ c, a => ∃ x, c = some x ∧ x.Has a
  | multiTcbInfo _ c, a => ∃ x, c = some x ∧ x.Has a
  | ueid c, a => ∃ x, c = some x ∧ x.Has a
  | _, _ => False

/-! ## Callbacks

A callback makes calls of rendering functions itself, whose callbacks ...: at depth 0 there are no callbacks, and a callback of depth
`n + 1` is a list of calls with callbacks of depth `n`. -/

def Content : Nat → Type
  | 0 => Empty
  | n + 1 => List (RCall (Content n))

/-- Calls one after the other. -/
def runAll {κ : Type} (f : κ → WP Unit) : List (RCall κ) → WP Unit
  | [] => Pure.pure ()
  | c :: cs => do c.prog f; runAll f cs

/-- The octet at `a` is one of those that the calls render. -/
def AnyHas {κ : Type} (int : RSlice → Addr → Prop) (K : κ → Addr → Prop) (cs : List (RCall κ)) (a : Addr) : Prop := ∃ c ∈ cs, c.Has int K a

/-- What a callback does. -/
def Content.prog : (n : Nat) → Content n → WP Unit
  | 0, c => nomatch c
  | n + 1, cs => runAll (Content.prog n) cs

/-- What a callback does when everything is copied first. -/
def Content.value (m : Memory) : (n : Nat) → Content n → W Unit
  | 0, c => nomatch c
  | n + 1, cs => renderAll (List.map (RCall.value m (Content.value m n)) cs)

/-- The octet at `a` is one of those that the callback renders. -/
def Content.Has (int : RSlice → Addr → Prop) : (n : Nat) → Content n → Addr → Prop
  | 0, c, _ => nomatch c
  | n + 1, cs, a => AnyHas int (Content.Has int n) cs a

/-- The octet at `a` is one of those that the calls render. -/
def Content.Reads (n : Nat) (cs : Content n) (a : Addr) : Prop := Content.Has RSlice.Has n cs a

/-- The octet at `a` is one of those that the calls render, or right next to an integer. -/
def Content.MayRead (n : Nat) (cs : Content n) (a : Addr) : Prop := Content.Has RSlice.Near n cs a

/-! ## Threads -/

/-- The addresses of the octets that are written in an execution, in order. -/
def storesOf (l : List Event) : List Addr := l.filterMap fun e => match e with
  | .store a => some a
  | _ => none

/-- What a thread does: a call of a function of the context, or a sequence of calls of rendering functions for one stream. -/
inductive Job where
  | call (c : Call)
  | render (n : Nat) (cs : Content n) (v : Option SVars)

/-- What a thread has in the end: the reply of the call, or the stream. -/
abbrev Outcome := PReply ⊕ Option SVars

def Job.prog : Job → Prog Outcome
  | .call c => c.prog >>= fun r => .done (.inl r)
  | .render n cs v => Content.prog n cs v >>= fun r => .done (.inr r.2)

/-- What the thread does when it is alone (see C70 and C75 for what that is). -/
def Job.alone : Job → Memory → Except UB (Outcome × Memory)
  | .call c, m => (c.effect m).map fun x => (.inl ⟨x.err, x.size⟩, x.mem)
  | .render n cs v, m => ((Content.prog n cs v).run m).map fun x => (.inr x.1.2, x.2)

/-- The octet at `a` is one of those that the thread may write. -/
def Job.Writes : Job → Addr → Prop
  | .call c => c.Writes
  | .render _ _ v => Unwritten v

/-- The octet at `a` is one of those that the thread may read. -/
def Job.Reads : Job → Addr → Prop
  | .call c => c.Reads
  | .render n cs _ => Content.MayRead n cs

/-- The output is in memory of the caller, and so are the inputs of digest functions. -/
def Job.OfCaller : Job → Prop
  | .call c => c.OfCaller
  | .render _ _ v => ∀ s, v = some s → CallerOut s.begin_

/-- No thread writes what another one reads or writes. -/
def Job.Independent {ι : Type} (job : ι → Job) : Prop := ∀ i j, i ≠ j → ∀ a, (job i).Writes a → ¬ (job j).Reads a ∧ ¬ (job j).Writes a

/-- The threads at the start. -/
def Job.start {ι : Type} (job : ι → Job) (shared : Nat → Bytes) (stack : ι → Memory) : Machine ι Outcome := ⟨shared, fun i => ⟨(job i).prog, stack i⟩⟩

end Nat20
