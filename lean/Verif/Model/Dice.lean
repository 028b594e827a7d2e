import Verif.Model.X509
/-!
# Model of `src/core/x509_ext_open_dice_input.c`, `src/core/x509_ext_tcg_dice_tcb_info.c`, `src/core/x509_ext_tcg_dice_ueid.c` and
`src/core/x509_ext_tcg_dice_tcb_freshness.c`

As in `Verif/Model/X509.lean`, functions which end up in `n20_asn1_uint64` or `n20_asn1_int64` take the `Frame` around the
parameter of these functions; simplification: the same frame for all calls made by one function.
-/

namespace Nat20

/-! ## Open DICE input -/

/-- `include/nat20/x509_ext_open_dice_input.h` 69-156: `n20_x509_ext_open_dice_input_t`; `mode` is the enum as a number. -/
structure OpenDiceInput where
  codeHash : Slice
  codeDescriptor : Slice
  configurationHash : Slice
  configurationDescriptor : Slice
  authorityHash : Slice
  authorityDescriptor : Slice
  mode : UInt32
  profileName : Slice

/-- `src/core/x509_ext_open_dice_input.c` 22-69: `n20_x509_ext_open_dice_input_sequence_content`. -/
def openDiceInputSequence (fr : Frame) (i : OpenDiceInput) : W Unit := do
  whenW i.profileName.buffer.isSome (asn1Utf8String (some i.profileName) (tagInfoExplicit 7))
  asn1UInt64 fr i.mode.toUInt64 (tagInfoExplicit 6)
  whenW i.authorityDescriptor.buffer.isSome (asn1OctetString (some i.authorityDescriptor) (tagInfoExplicit 5))
  whenW i.authorityHash.buffer.isSome (asn1OctetString (some i.authorityHash) (tagInfoExplicit 4))
  whenW i.configurationDescriptor.buffer.isSome (asn1OctetString (some i.configurationDescriptor) (tagInfoExplicit 3))
  whenW i.configurationHash.buffer.isSome (asn1OctetString (some i.configurationHash) (tagInfoExplicit 2))
  whenW i.codeDescriptor.buffer.isSome (asn1OctetString (some i.codeDescriptor) (tagInfoExplicit 1))
  whenW i.codeHash.buffer.isSome (asn1OctetString (some i.codeHash) (tagInfoExplicit 0))

/-- `src/core/x509_ext_open_dice_input.c` 71-78: `n20_x509_ext_open_dice_input_content`. -/
def openDiceInputContent (fr : Frame) (context : Option OpenDiceInput) : W Unit :=
  match context with
  | none => Pure.pure ()
  | some i => asn1Sequence (some (openDiceInputSequence fr i)) tagInfoNoOverride

/-! ## TCG DICE TcbInfo -/

/-- `include/nat20/x509_ext_tcg_dice_tcb_info.h` 127-137: `n20_x509_ext_tcg_dice_tcb_info_operational_flags_t`. -/
structure OperationalFlags where
  mask : Vector UInt8 4
  deriving DecidableEq

/-- `include/nat20/x509_ext_tcg_dice_tcb_info.h` 53-104: the ten macros
`N20_X509_EXT_TCG_DICE_TCB_INFO_OPERATIONAL_FLAGS_SET_*` and `..._FIXED_WIDTH`, in the order of the header. -/
def operationalFlagsSet (i : Fin 10) (f : OperationalFlags) : OperationalFlags :=
  match i with
  | 0 => ⟨f.mask.set 0 (f.mask[0] ||| 0x80)⟩
  | 1 => ⟨f.mask.set 0 (f.mask[0] ||| 0x40)⟩
  | 2 => ⟨f.mask.set 0 (f.mask[0] ||| 0x20)⟩
  | 3 => ⟨f.mask.set 0 (f.mask[0] ||| 0x10)⟩
  | 4 => ⟨f.mask.set 0 (f.mask[0] ||| 0x08)⟩
  | 5 => ⟨f.mask.set 0 (f.mask[0] ||| 0x04)⟩
  | 6 => ⟨f.mask.set 0 (f.mask[0] ||| 0x02)⟩
  | 7 => ⟨f.mask.set 0 (f.mask[0] ||| 0x01)⟩
  | 8 => ⟨f.mask.set 1 (f.mask[1] ||| 0x80)⟩
  | 9 => ⟨f.mask.set 3 (f.mask[3] ||| 0x01)⟩

/-- `include/nat20/x509_ext_tcg_dice_tcb_info.h` 150-167: `n20_x509_ext_tcg_dice_tcb_info_fwid_t`. -/
structure Fwid where
  hashAlgo : Oid
  digest : Slice

/-- `include/nat20/x509_ext_tcg_dice_tcb_info.h` 206-282: `n20_x509_ext_tcg_dice_tcb_info_t`; `fwids` is the pointer
`fwids.list` to the accessible elements and `fwidsCount` is `fwids.count`. -/
structure TcbInfo where
  vendor : Slice
  model : Slice
  version : Slice
  svn : Int64
  layer : Int64
  index : Int64
  fwids : Option (List Fwid)
  fwidsCount : UInt64
  flags : OperationalFlags
  flagsMask : OperationalFlags
  vendorInfo : Slice
  type : Slice

/-- `src/core/x509_ext_tcg_dice_tcb_info.c` 22-34: `n20_x509_tcg_dice_tcb_info_fwid_content`. -/
def fwidContent (f : Fwid) : W Unit := do
  asn1OctetString (some f.digest) tagInfoNoOverride
  asn1ObjectIdentifier (some f.hashAlgo) tagInfoNoOverride

/-- `src/core/x509_ext_tcg_dice_tcb_info.c` 44-49: the loop of `n20_x509_tcg_dice_tcb_info_fwid_list_content`. -/
def fwidLoop (list : List Fwid) : Nat → W Unit
  | 0 => Pure.pure ()
  | count + 1 => do
    let f ← liftM (readElement list count)
    asn1Sequence (some (fwidContent f)) tagInfoNoOverride
    fwidLoop list count

/-- `src/core/x509_ext_tcg_dice_tcb_info.c` 36-50: `n20_x509_tcg_dice_tcb_info_fwid_list_content` and the check in lines
80-85. -/
def fwidsField (t : TcbInfo) : W Unit :=
  match t.fwids with
  | none => Pure.pure ()
  | some list => asn1Sequence (some (fwidLoop list t.fwidsCount.toNat)) (tagInfoImplicit 6)

/-- `src/core/x509_ext_tcg_dice_tcb_info.c` 52-110: `n20_x509_ext_tcg_dice_tcb_info_sequence_content`. -/
def tcbInfoSequence (fr : Frame) (t : TcbInfo) : W Unit := do
  asn1Bitstring (localPtr t.flagsMask.mask.toList) (8 * 4) (tagInfoImplicit 10)
  whenW t.type.buffer.isSome (asn1OctetString (some t.type) (tagInfoImplicit 9))
  whenW t.vendorInfo.buffer.isSome (asn1OctetString (some t.vendorInfo) (tagInfoImplicit 8))
  asn1Bitstring (localPtr t.flags.mask.toList) (8 * 4) (tagInfoImplicit 7)
  fwidsField t
  asn1Int64 fr t.index (tagInfoImplicit 5)
  asn1Int64 fr t.layer (tagInfoImplicit 4)
  asn1Int64 fr t.svn (tagInfoImplicit 3)
  whenW t.version.buffer.isSome (asn1Utf8String (some t.version) (tagInfoImplicit 2))
  whenW t.model.buffer.isSome (asn1Utf8String (some t.model) (tagInfoImplicit 1))
  whenW t.vendor.buffer.isSome (asn1Utf8String (some t.vendor) (tagInfoImplicit 0))

/-- `src/core/x509_ext_tcg_dice_tcb_info.c` 112-121: `n20_x509_ext_tcg_dice_tcb_info_content`. -/
def tcbInfoContent (fr : Frame) (context : Option TcbInfo) : W Unit :=
  match context with
  | none => Pure.pure ()
  | some t => asn1Sequence (some (tcbInfoSequence fr t)) tagInfoNoOverride

/-- `include/nat20/x509_ext_tcg_dice_tcb_info.h` 315-328: `n20_x509_ext_tcg_dice_multi_tcb_info_t`. -/
structure MultiTcbInfo where
  list : Option (List TcbInfo)
  count : UInt64

/-- `src/core/x509_ext_tcg_dice_tcb_info.c` 133-136: the loop. -/
def multiTcbInfoLoop (fr : Frame) (list : List TcbInfo) : Nat → W Unit
  | 0 => Pure.pure ()
  | count + 1 => do
    let t ← liftM (readElement list count)
    tcbInfoContent fr (some t)
    multiTcbInfoLoop fr list count

/-- `src/core/x509_ext_tcg_dice_tcb_info.c` 123-137: `n20_x509_ext_tcg_dice_multi_tcb_info_sequence_content`. -/
def multiTcbInfoSequence (fr : Frame) (m : MultiTcbInfo) : W Unit :=
  match m.list with
  | none => Pure.pure ()
  | some list => multiTcbInfoLoop fr list m.count.toNat

/-- `src/core/x509_ext_tcg_dice_tcb_info.c` 139-148: `n20_x509_ext_tcg_dice_multi_tcb_info_content`. -/
def multiTcbInfoContent (fr : Frame) (context : Option MultiTcbInfo) : W Unit :=
  match context with
  | none => Pure.pure ()
  | some m => asn1Sequence (some (multiTcbInfoSequence fr m)) tagInfoNoOverride

/-! ## UEID and freshness -/

/-- `src/core/x509_ext_tcg_dice_ueid.c` 22-37: `n20_x509_ext_tcg_dice_ueid_sequence_content` and
`n20_x509_ext_tcg_dice_ueid_content`; the context struct has one slice. -/
def ueidContent (context : Option Slice) : W Unit :=
  match context with
  | none => Pure.pure ()
  | some ueid => asn1Sequence (some (asn1OctetString (some ueid) tagInfoNoOverride)) tagInfoNoOverride

/-- `src/core/x509_ext_tcg_dice_tcb_freshness.c` 22-41: `n20_x509_ext_tcg_dice_tcb_freshness_sequence_content` and
`n20_x509_ext_tcg_dice_tcb_freshness_content`; the context struct has one slice. -/
def freshnessContent (context : Option Slice) : W Unit :=
  match context with
  | none => Pure.pure ()
  | some nonce => asn1Sequence (some (asn1OctetString (some nonce) tagInfoNoOverride)) tagInfoNoOverride

end Nat20
