import Verif.Model.Sized
/-!
# What it means that a platform with another `size_t` behaves the same
-/

namespace Nat20.Sized

variable {w : Nat}

/-- A slice as it is on a platform on which `size_t` has 64 bits. -/
def Slice.wide (s : Slice w) : Nat20.Slice := ⟨toUInt64 s.size, s.buffer⟩

/-- The stream of a platform with a `size_t` of `w` bits and the stream of a platform with 64 bits after the same calls: the same buffer
with the same contents, the same overflow.  The position is the same as long as it fits; if not, this is reported. -/
def Corresponds : Option (Stream w) → Option Nat20.Stream → Prop
  | none, none => True
  | some t, some u =>
    t.begin_ = u.begin_ ∧ t.size.toNat = u.size.toNat ∧ t.bufferOverflow = u.bufferOverflow ∧
    (t.writePositionOverflow = true ↔ u.writePositionOverflow = true ∨ 2 ^ w ≤ u.writePosition.toNat) ∧
    (t.writePositionOverflow = false → t.writePosition.toNat = u.writePosition.toNat) ∧
    (t.writePositionOverflow = true → t.bufferOverflow = true)
  | _, _ => False

/-- The results of two calls: both undefined in the same way, or both streams correspond again. -/
def SameOutcome (r : Except UB (Unit × Option (Stream w))) (r' : Except UB (Unit × Option Nat20.Stream)) : Prop :=
  match r, r' with
  | .error e, .error e' => e = e'
  | .ok (_, t), .ok (_, u) => Corresponds t u
  | _, _ => False

/-- A function does the same on both platforms, for whatever stream.  Also, it only adds to the stream: it does not take back a reported overflow,
and without an overflow the position does not decrease. -/
def SameRendering (f : W w Unit) (g : Nat20.W Unit) : Prop :=
  (∀ t u, Corresponds t u → SameOutcome (f t) (g u)) ∧
  ∀ t u, Corresponds (some t) u → ∀ r, f (some t) = .ok ((), r) →
    ∃ x, r = some x ∧ (x.writePositionOverflow = false → t.writePositionOverflow = false ∧ t.writePosition.toNat ≤ x.writePosition.toNat)

/-- The fields of the structures, one after the other. -/
def Rdn.wide (r : Rdn w) : Nat20.Rdn := ⟨r.type, r.value.wide⟩

def Name.wide (n : Name w) : Nat20.Name := ⟨toUInt64 n.elementCount, n.elements.map Rdn.wide⟩

def PublicKeyInfo.wide (i : PublicKeyInfo w) : Nat20.PublicKeyInfo := ⟨i.algorithmIdentifier, toUInt64 i.publicKeyBits, i.publicKey⟩

def Validity.wide (v : Validity w) : Nat20.Validity := ⟨v.notBefore.wide, v.notAfter.wide⟩

def OpenDiceInput.wide (i : OpenDiceInput w) : Nat20.OpenDiceInput :=
  ⟨i.codeHash.wide, i.codeDescriptor.wide, i.configurationHash.wide, i.configurationDescriptor.wide, i.authorityHash.wide,
    i.authorityDescriptor.wide, i.mode, i.profileName.wide⟩

def Fwid.wide (f : Fwid w) : Nat20.Fwid := ⟨f.hashAlgo, f.digest.wide⟩

def TcbInfo.wide (t : TcbInfo w) : Nat20.TcbInfo :=
  ⟨t.vendor.wide, t.model.wide, t.version.wide, t.svn, t.layer, t.index, t.fwids.map (·.map Fwid.wide), toUInt64 t.fwidsCount, t.flags, t.flagsMask,
    t.vendorInfo.wide, t.type.wide⟩

def MultiTcbInfo.wide (m : MultiTcbInfo w) : Nat20.MultiTcbInfo := ⟨m.list.map (·.map TcbInfo.wide), toUInt64 m.count⟩

/-- The same extension on both platforms; the callbacks do the same. -/
structure SameExtension (e : Extension w) (e' : Nat20.Extension) : Prop where
  oid : e.oid = e'.oid
  critical : e.critical = e'.critical
  content : match e.contentCb, e'.contentCb with
    | none, none => True
    | some f, some g => SameRendering f g
    | _, _ => False

/-- The same extensions on both platforms. -/
structure SameExtensions (e : Extensions w) (e' : Nat20.Extensions) : Prop where
  count : e.extensionsCount.toNat = e'.extensionsCount.toNat
  array : match e.extensions, e'.extensions with
    | none, none => True
    | some l, some l' => l.length = l'.length ∧ ∀ i (h : i < l.length) (h' : i < l'.length), SameExtension l[i] l'[i]
    | _, _ => False

/-- The same certificate body on both platforms. -/
structure SameTbs (t : Tbs w) (t' : Nat20.Tbs) : Prop where
  serialNumber : t'.serialNumber = t.serialNumber.wide
  signatureAlgorithm : t'.signatureAlgorithm = t.signatureAlgorithm
  issuerName : t'.issuerName = t.issuerName.wide
  validity : t'.validity = t.validity.wide
  subjectName : t'.subjectName = t.subjectName.wide
  subjectPublicKeyInfo : t'.subjectPublicKeyInfo = t.subjectPublicKeyInfo.wide
  extensions : SameExtensions t.extensions t'.extensions

/-- The number of bits of a bit string can be rounded up to octets in a `size_t`. -/
def BitsFit (bits : BitVec w) : Prop := bits.toNat + 7 < 2 ^ w

end Nat20.Sized
