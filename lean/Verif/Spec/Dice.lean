import Verif.Spec.X509
import Verif.Model.Dice
/-!
# DICE certificate extensions, written from their ASN.1 modules

First the field values of an extension and its DER tree, then which field values the arguments of the library denote.
-/

namespace Nat20.Pki

open Der

/-- Members that may be absent. -/
def ifPresent {α : Type} (f : α → Der) (v : Option α) : List Der := (v.map f).toList

/-- `[t] EXPLICIT`. -/
def explicitly (t : Nat) (d : Der) : Der := Tagging.apply (.explicit t) d

/-- `[t] IMPLICIT`. -/
def implicitly (t : Nat) (d : Der) : Der := Tagging.apply (.implicit t) d

/-- Open Profile for DICE, "Certificate Details":
```
OpenDiceInput ::= SEQUENCE {
  codeHash                [0] EXPLICIT OCTET STRING OPTIONAL,
  codeDescriptor          [1] EXPLICIT OCTET STRING OPTIONAL,
  configurationHash       [2] EXPLICIT OCTET STRING OPTIONAL,
  configurationDescriptor [3] EXPLICIT OCTET STRING OPTIONAL,
  authorityHash           [4] EXPLICIT OCTET STRING OPTIONAL,
  authorityDescriptor     [5] EXPLICIT OCTET STRING OPTIONAL,
  mode                    [6] EXPLICIT Mode OPTIONAL,
  profileName             [7] EXPLICIT UTF8String OPTIONAL }
``` -/
structure OpenDiceValue where
  codeHash : Option Bytes
  codeDescriptor : Option Bytes
  configurationHash : Option Bytes
  configurationDescriptor : Option Bytes
  authorityHash : Option Bytes
  authorityDescriptor : Option Bytes
  mode : Nat
  profileName : Option Bytes

def OpenDiceValue.der (v : OpenDiceValue) : Der := sequence (
  ifPresent (fun c => explicitly 0 (octetString c)) v.codeHash ++
  (ifPresent (fun c => explicitly 1 (octetString c)) v.codeDescriptor ++
  (ifPresent (fun c => explicitly 2 (octetString c)) v.configurationHash ++
  (ifPresent (fun c => explicitly 3 (octetString c)) v.configurationDescriptor ++
  (ifPresent (fun c => explicitly 4 (octetString c)) v.authorityHash ++
  (ifPresent (fun c => explicitly 5 (octetString c)) v.authorityDescriptor ++
  ([explicitly 6 (integer v.mode)] ++
  ifPresent (fun c => explicitly 7 (utf8String c)) v.profileName)))))))

/-- TCG DICE Attestation Architecture, 6.1.1: `FWID ::= SEQUENCE { hashAlg OBJECT IDENTIFIER, digest OCTET STRING }`. -/
structure FwidValue where
  hashAlg : Option (List Nat)
  digest : Bytes

def FwidValue.der (f : FwidValue) : Der := sequence [oidDer f.hashAlg, octetString f.digest]

/-- TCG DICE Attestation Architecture, 6.1.1:
```
DiceTcbInfo ::= SEQUENCE {
  vendor     [0] IMPLICIT UTF8String OPTIONAL,
  model      [1] IMPLICIT UTF8String OPTIONAL,
  version    [2] IMPLICIT UTF8String OPTIONAL,
  svn        [3] IMPLICIT INTEGER OPTIONAL,
  layer      [4] IMPLICIT INTEGER OPTIONAL,
  index      [5] IMPLICIT INTEGER OPTIONAL,
  fwids      [6] IMPLICIT FWIDLIST OPTIONAL,
  flags      [7] IMPLICIT OperationalFlags OPTIONAL,
  vendorInfo [8] IMPLICIT OCTET STRING OPTIONAL,
  type       [9] IMPLICIT OCTET STRING OPTIONAL,
  flagsMask  [10] IMPLICIT OperationalFlagsMask OPTIONAL }
``` -/
structure TcbInfoValue where
  vendor : Option Bytes
  model : Option Bytes
  version : Option Bytes
  svn : Int
  layer : Int
  index : Int
  fwids : Option (List FwidValue)
  flags : List Bool
  vendorInfo : Option Bytes
  type : Option Bytes
  flagsMask : List Bool

def TcbInfoValue.der (v : TcbInfoValue) : Der := sequence (
  ifPresent (fun c => implicitly 0 (utf8String c)) v.vendor ++
  (ifPresent (fun c => implicitly 1 (utf8String c)) v.model ++
  (ifPresent (fun c => implicitly 2 (utf8String c)) v.version ++
  ([implicitly 3 (integer v.svn)] ++
  ([implicitly 4 (integer v.layer)] ++
  ([implicitly 5 (integer v.index)] ++
  (ifPresent (fun l => implicitly 6 (sequence (l.map FwidValue.der))) v.fwids ++
  ([implicitly 7 (bitString v.flags)] ++
  (ifPresent (fun c => implicitly 8 (octetString c)) v.vendorInfo ++
  (ifPresent (fun c => implicitly 9 (octetString c)) v.type ++
  [implicitly 10 (bitString v.flagsMask)]))))))))))

/-! ## Field values denoted by arguments -/

/-- A slice denotes a value unless its buffer is NULL. -/
def sliceValue (s : Slice) : Option Bytes := s.buffer.map fun p => p.data.take s.size.toNat

def openDiceValue (i : OpenDiceInput) : OpenDiceValue where
  codeHash := sliceValue i.codeHash
  codeDescriptor := sliceValue i.codeDescriptor
  configurationHash := sliceValue i.configurationHash
  configurationDescriptor := sliceValue i.configurationDescriptor
  authorityHash := sliceValue i.authorityHash
  authorityDescriptor := sliceValue i.authorityDescriptor
  mode := i.mode.toNat
  profileName := sliceValue i.profileName

def fwidValue (f : Fwid) : FwidValue := ⟨oidValue (some f.hashAlgo), f.digest.bytes⟩

def tcbInfoValue (t : TcbInfo) : TcbInfoValue where
  vendor := sliceValue t.vendor
  model := sliceValue t.model
  version := sliceValue t.version
  svn := t.svn.toInt
  layer := t.layer.toInt
  index := t.index.toInt
  fwids := t.fwids.map fun l => (l.take t.fwidsCount.toNat).map fwidValue
  flags := bitsOf t.flags.mask.toList
  vendorInfo := sliceValue t.vendorInfo
  type := sliceValue t.type
  flagsMask := bitsOf t.flagsMask.mask.toList

/-! ## Legal arguments -/

/-- All slices are accessible, and if `mode` is 0 so is the byte the code reads in addition (`C12_reads_outside`). -/
structure OpenDiceArg (fr : Frame) (i : OpenDiceInput) : Prop where
  codeHash : i.codeHash.Valid
  codeDescriptor : i.codeDescriptor.Valid
  configurationHash : i.configurationHash.Valid
  configurationDescriptor : i.configurationDescriptor.Valid
  authorityHash : i.authorityHash.Valid
  authorityDescriptor : i.authorityDescriptor.Valid
  profileName : i.profileName.Valid
  mode : fr.adjacent ≠ [] ∨ i.mode ≠ 0

/-- All slices and list elements are accessible; if one of the numbers is 0 or -1, so is the byte the code reads in
addition. -/
structure TcbInfoArg (fr : Frame) (t : TcbInfo) : Prop where
  vendor : t.vendor.Valid
  model : t.model.Valid
  version : t.version.Valid
  vendorInfo : t.vendorInfo.Valid
  type : t.type.Valid
  fwids : ∀ l, t.fwids = some l → t.fwidsCount.toNat ≤ l.length ∧ ∀ f ∈ l.take t.fwidsCount.toNat, f.digest.Valid
  numbers : fr.adjacent ≠ [] ∨ ∀ n ∈ [t.svn, t.layer, t.index], n ≠ 0 ∧ n ≠ -1

end Nat20.Pki
