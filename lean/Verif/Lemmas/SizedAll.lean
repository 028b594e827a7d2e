import Verif.Lemmas.Sized
/-!
# Lemmas for C83: the rendering functions one by one
-/

namespace Nat20.Sized

variable {w k : Nat} {p : Prop}
variable (hw : w ≤ 64) (hw' : 16 ≤ w)

/-! ## `Model/Asn1` -/

theorem quiet_headerLength (len : BitVec w) : Quiet (headerLength len) := by
  unfold headerLength
  split
  · exact quiet_local _
  · exact quiet_bind (quiet_lengthLoop _ _ _) fun _ => quiet_local _

theorem quietWide_headerLength (len : UInt64) : QuietWide w (Nat20.headerLength len) := by
  unfold Nat20.headerLength
  split
  · exact quietWide_local _
  · exact quietWide_bind (quietWide_lengthLoop _ _ _) fun _ => quietWide_local _

include hw hw'

omit hw hw' in
theorem octet_eq (n : BitVec w) (m : UInt64) (h : n.toNat = m.toNat) : toOctet n = m.toUInt8 := by
  apply UInt8.toNat_inj.1
  unfold toOctet
  rw [UInt8.toNat_ofNat', UInt64.toNat_toUInt8, h]

omit hw in
theorem small (n : Nat) (h : n < 65536) : (BitVec.ofNat w n).toNat = n := ofNat_toNat hw' h

theorem sim_headerLength (len : BitVec w) (len' : UInt64) : Sim1 w (len.toNat = len'.toNat) k (headerLength len) (Nat20.headerLength len') := by
  refine sim_quiet (fun h => ?_) (quiet_headerLength _) (quietWide_headerLength _)
  unfold headerLength Nat20.headerLength
  refine sim_iff ?_ (fun _ => ?_) (fun _ => ?_)
  · rw [BitVec.le_def, UInt64.le_iff_toNat_le, h, show (127 : BitVec w).toNat = 127 from small hw' 127 (by decide)]
    exact Iff.rfl
  · rw [octet_eq len len' h]
    exact sim_octet hw hw' _
  · have hp16 : 2 ^ 16 ≤ 2 ^ w := Nat.pow_le_pow_right (by decide) hw'
    have hl := len.isLt
    rw [octet_and hw' len len' h]
    refine sim_bind (sim_lengthLoop hw hw' len len' h _ 0 0 (by simp) (by simp; omega)) fun a b _ => ?_
    refine sim_prependLocal hw hw' _ _ (fun hab => ?_) (by simp) (by simp)
    congr 1
    apply octet_eq
    rw [BitVec.toNat_or, BitVec.toNat_and, UInt64.toNat_or, UInt64.toNat_and, hab.2, show (0x7f : BitVec w).toNat = 127 from small hw' 127 (by decide),
      show (0x80 : BitVec w).toNat = 128 from small hw' 128 (by decide)]
    rfl

theorem sim_headerTag (tag : UInt32) : Sim p k (headerTag tag : W w UInt8) (Nat20.headerTag tag) Eq Any := by
  unfold headerTag Nat20.headerTag
  exact sim_ite (fun _ => sim_then (sim_base128 hw hw' _) (sim_pure _ _ rfl fun _ => trivial)) (fun _ => sim_pure _ _ rfl fun _ => trivial)

theorem sim_header (class_ : UInt8) (constructed : Bool) (tag : UInt32) (len : BitVec w) (len' : UInt64) :
    Sim1 w (len.toNat = len'.toNat) k (asn1Header class_ constructed tag len) (Nat20.asn1Header class_ constructed tag len') := by
  unfold asn1Header Nat20.asn1Header
  refine sim_then (sim_headerLength hw hw' len len') (sim_same (sim_headerTag hw hw' tag) fun a => ?_)
  exact sim_octet hw hw' _

omit hw hw' in
theorem sub_toNat (a b : BitVec w) (a' b' : UInt64) (ha : a.toNat = a'.toNat) (hb : b.toNat = b'.toNat) (h : b.toNat ≤ a.toNat) : (a - b).toNat = (a' - b').toNat := by
  rw [BitVec.toNat_sub_of_le (BitVec.le_def.2 h), UInt64.toNat_sub_of_le _ _ (UInt64.le_iff_toNat_le.2 (by omega)), ha, hb]

/-- The header of what was written since a mark. -/
theorem sim_since {γ δ : Type} (class_ : UInt8) (constructed : Bool) (tag : UInt32) (mark : BitVec w) (mark' : UInt64) (hp : p → mark.toNat = mark'.toNat)
    {f' : Unit → W w γ} {g' : Unit → Nat20.W δ} {Q S : γ → δ → Prop} (h : Sim p mark.toNat (f' ()) (g' ()) Q S) :
    Sim p mark.toNat (byteCount >>= fun count => asn1Header class_ constructed tag (count - mark) >>= f')
      (Nat20.byteCount >>= fun count => Nat20.asn1Header class_ constructed tag (count - mark') >>= g') Q S := by
  refine sim_bind sim_byteCount fun a b _ => sim_then ((sim_header hw hw' _ _ _ _ _).given fun h => ?_) (h.given And.left)
  exact sub_toNat _ _ _ _ h.2.1 (hp h.1) h.2.2

theorem sim_since' (class_ : UInt8) (constructed : Bool) (tag : UInt32) (mark : BitVec w) (mark' : UInt64) (hp : p → mark.toNat = mark'.toNat) :
    Sim1 w p mark.toNat (byteCount >>= fun count => asn1Header class_ constructed tag (count - mark))
      (Nat20.byteCount >>= fun count => Nat20.asn1Header class_ constructed tag (count - mark')) := by
  refine sim_bind sim_byteCount fun a b _ => (sim_header hw hw' _ _ _ _ _).given fun h => ?_
  exact sub_toNat _ _ _ _ h.2.1 (hp h.1) h.2.2

theorem sim_explicitHeader (tagInfo : TagInfo) (mark : BitVec w) (mark' : UInt64) (hp : p → mark.toNat = mark'.toNat) :
    Sim1 w p mark.toNat (explicitHeader tagInfo mark) (Nat20.explicitHeader tagInfo mark') := by
  unfold explicitHeader Nat20.explicitHeader
  exact sim_ite (fun _ => sim_since' hw hw' _ _ _ _ _ hp) fun _ => sim_done

theorem sim_null (tagInfo : TagInfo) : Sim1 w p k (asn1Null tagInfo) (Nat20.asn1Null tagInfo) := by
  unfold asn1Null Nat20.asn1Null
  simp only
  refine sim_mark fun a b => sim_then ((sim_header hw hw' _ _ _ _ _).given fun _ => ?_) (sim_explicitHeader hw hw' _ _ _ And.right)
  simp

/-- The callbacks do the same. -/
def SameCb (f : Option (W w Unit)) (g : Option (Nat20.W Unit)) : Prop :=
  match f, g with
  | none, none => True
  | some f, some g => ∀ p k, Sim1 w p k f g
  | _, _ => False

omit hw hw' in
theorem sim_callContent {f : Option (W w Unit)} {g : Option (Nat20.W Unit)} (h : SameCb f g) : Sim1 w p k (callContent f) (Nat20.callContent g) := by
  match f, g, h with
  | none, none, _ => exact sim_done
  | some f, some g, h => exact h p k

theorem sim_withContent (class_ : UInt8) (constructed : Bool) (tag : UInt32) {f : Option (W w Unit)} {g : Option (Nat20.W Unit)} (h : SameCb f g) (tagInfo : TagInfo) :
    Sim1 w p k (asn1HeaderWithContent class_ constructed tag f tagInfo) (Nat20.asn1HeaderWithContent class_ constructed tag g tagInfo) := by
  unfold asn1HeaderWithContent Nat20.asn1HeaderWithContent
  simp only
  exact sim_mark fun a b => sim_then (sim_callContent h) (sim_since hw hw' _ _ _ _ _ And.right (sim_explicitHeader hw hw' _ _ _ And.right))

theorem sim_content (class_ : UInt8) (constructed : Bool) (tag : UInt32) {f : W w Unit} {g : Nat20.W Unit} (h : ∀ p k, Sim1 w p k f g) (tagInfo : TagInfo) :
    Sim1 w p k (asn1HeaderWithContent class_ constructed tag (some f) tagInfo) (Nat20.asn1HeaderWithContent class_ constructed tag (some g) tagInfo) :=
  sim_withContent hw hw' class_ constructed tag (f := some f) (g := some g) h tagInfo

theorem sim_sequence {f : Option (W w Unit)} {g : Option (Nat20.W Unit)} (h : SameCb f g) (tagInfo : TagInfo) :
    Sim1 w p k (asn1Sequence f tagInfo) (Nat20.asn1Sequence g tagInfo) := sim_withContent hw hw' _ _ _ h _

theorem sim_oidLoop (oid : Oid) (e : Nat) : Sim p k (oidLoop oid e : W w Nat) (Nat20.oidLoop oid e) Eq Any := by
  induction e with
  | zero => exact sim_pure _ _ rfl fun _ => trivial
  | succ e ih =>
    rw [oidLoop, Nat20.oidLoop]
    exact sim_ite (fun _ => sim_read _ fun x => sim_then (sim_base128 hw hw' _) ih) fun _ => sim_pure _ _ rfl fun _ => trivial

theorem sim_oid (oid : Option Oid) (tagInfo : TagInfo) : Sim1 w p k (asn1ObjectIdentifier oid tagInfo) (Nat20.asn1ObjectIdentifier oid tagInfo) := by
  unfold asn1ObjectIdentifier Nat20.asn1ObjectIdentifier
  cases oid with
  | none => exact sim_null hw hw' _
  | some oid =>
    refine sim_ite (fun _ => sim_null hw hw' _) fun _ => sim_content hw hw' _ _ _ (fun p k => ?_) _
    unfold asn1ObjectIdentifierContent Nat20.asn1ObjectIdentifierContent
    exact sim_same (sim_oidLoop hw hw' _ _) fun e => sim_read _ fun h => sim_octet hw hw' _

theorem sim_writeLoop (ptr : Ptr) (inc end_ : Int) (rem : Nat) : Sim1 w p k (writeLoop ptr inc end_ rem) (Nat20.writeLoop ptr inc end_ rem) := by
  induction rem generalizing end_ with
  | zero => exact sim_done
  | succ rem ih =>
    rw [writeLoop, Nat20.writeLoop]
    exact sim_read _ fun b => sim_then (sim_octet hw hw' _) (ih _)

theorem sim_integer (n : Slice w) (little two : Bool) (tagInfo : TagInfo) : Sim1 w p k (asn1Integer n little two tagInfo) (Nat20.asn1Integer n.wide little two tagInfo) := by
  obtain ⟨size, buffer⟩ := n
  unfold asn1Integer Nat20.asn1Integer Slice.wide
  cases buffer with
  | none => exact sim_null hw hw' _
  | some ptr =>
    refine sim_content hw hw' _ _ _ (fun p k => ?_) _
    unfold asn1IntegerContent Nat20.asn1IntegerContent
    simp only [toUInt64_toNat hw]
    refine sim_read _ fun negative => sim_read _ fun rem => sim_read _ fun add => sim_then (sim_writeLoop hw hw' _ _ _ _) ?_
    exact sim_ite (fun _ => sim_octet hw hw' _) fun _ => sim_done

omit hw in
theorem wide_small (n : Nat) (h : n < 65536) (ptr : Option Ptr) : (⟨BitVec.ofNat w n, ptr⟩ : Slice w).wide = ⟨UInt64.ofNat n, ptr⟩ := by
  unfold Slice.wide toUInt64
  simp only [ofNat_toNat hw' h]

theorem sim_uint64 (fr : Frame) (n : UInt64) (tagInfo : TagInfo) : Sim1 w p k (asn1UInt64 fr n tagInfo) (Nat20.asn1UInt64 fr n tagInfo) := by
  unfold asn1UInt64 Nat20.asn1UInt64
  have := wide_small (w := w) hw' 8 (by decide) (some ⟨fr.below, fr.objectBytes n ++ fr.above⟩)
  have h := sim_integer hw hw' (p := p) (k := k) (⟨8, some ⟨fr.below, fr.objectBytes n ++ fr.above⟩⟩ : Slice w) (!fr.bigEndian) false tagInfo
  erw [this] at h
  exact h

theorem sim_int64 (fr : Frame) (n : Int64) (tagInfo : TagInfo) : Sim1 w p k (asn1Int64 fr n tagInfo) (Nat20.asn1Int64 fr n tagInfo) := by
  unfold asn1Int64 Nat20.asn1Int64
  have := wide_small (w := w) hw' 8 (by decide) (some ⟨fr.below, fr.objectBytes n.toUInt64 ++ fr.above⟩)
  have h := sim_integer hw hw' (p := p) (k := k) (⟨8, some ⟨fr.below, fr.objectBytes n.toUInt64 ++ fr.above⟩⟩ : Slice w) (!fr.bigEndian) true tagInfo
  erw [this] at h
  exact h

theorem sim_bitstringLoop (ptr : Ptr) (n : Nat) : Sim1 w p k (bitstringLoop ptr n) (Nat20.bitstringLoop ptr n) := by
  induction n with
  | zero => exact sim_done
  | succ n ih =>
    rw [bitstringLoop, Nat20.bitstringLoop]
    exact sim_read _ fun b => sim_then (sim_octet hw hw' _) ih

theorem sim_bitstring (ptr : Option Ptr) (bits : BitVec w) (bits' : UInt64) (hb : bits.toNat = bits'.toNat) (h : ptr ≠ none → BitsFit bits) (tagInfo : TagInfo) :
    Sim1 w p k (asn1Bitstring ptr bits tagInfo) (Nat20.asn1Bitstring ptr bits' tagInfo) := by
  have hpw : 2 ^ w ≤ 2 ^ 64 := Nat.pow_le_pow_right (by decide) hw
  have hp64 : (2 : Nat) ^ 64 = 18446744073709551616 := by decide
  have hp16 : 2 ^ 16 ≤ 2 ^ w := Nat.pow_le_pow_right (by decide) hw'
  refine sim_content hw hw' _ _ _ (fun p k => ?_) _
  unfold asn1BitstringContent Nat20.asn1BitstringContent
  simp only
  have s7 : (7 : BitVec w).toNat = 7 := small hw' 7 (by decide)
  have s8 : (8 : BitVec w).toNat = 8 := small hw' 8 (by decide)
  -- the number of octets and of unused bits
  have key : ∀ (x : BitVec w) (y : UInt64), x.toNat = y.toNat → BitsFit x →
      ((x + 7) >>> 3).toNat = ((y + 7) >>> 3).toNat ∧ toOctet ((8 - (x &&& 7)) &&& 7) = ((8 - (y &&& 7)) &&& 7).toUInt8 := by
    intro x y hxy hf
    unfold BitsFit at hf
    constructor
    · rw [BitVec.toNat_ushiftRight, UInt64.toNat_shiftRight, BitVec.toNat_add, UInt64.toNat_add, s7, hxy, Nat.mod_eq_of_lt (by omega)]
      rw [show (7 : UInt64).toNat = 7 from rfl, Nat.mod_eq_of_lt (a := y.toNat + 7) (by omega)]
      rfl
    · apply octet_eq
      have hle : x.toNat &&& 7 ≤ 7 := Nat.and_le_right
      rw [BitVec.toNat_and, UInt64.toNat_and, BitVec.toNat_sub_of_le (by rw [BitVec.le_def, BitVec.toNat_and, s7, s8]; omega),
        UInt64.toNat_sub_of_le _ _ (by rw [UInt64.le_iff_toNat_le, UInt64.toNat_and, ← hxy]; exact Nat.le_succ_of_le hle), BitVec.toNat_and, UInt64.toNat_and, hxy, s7, s8]
      rfl
  cases ptr with
  | none =>
    simp only [Option.isNone_none, if_true]
    obtain ⟨k1, k2⟩ := key 0 0 (by simp) (by unfold BitsFit; simp; omega)
    rw [k2]
    refine sim_then ?_ (sim_octet hw hw' _)
    unfold bitstringBytes Nat20.bitstringBytes
    refine sim_iff ?_ (fun _ => sim_done) fun _ => sim_error _
    rw [← BitVec.toNat_inj, ← UInt64.toNat_inj, k1]
    simp
  | some ptr =>
    simp only [Option.isNone_some, Bool.false_eq_true, if_false]
    obtain ⟨k1, k2⟩ := key bits bits' hb (h (by simp))
    rw [k2]
    refine sim_then ?_ (sim_octet hw hw' _)
    unfold bitstringBytes Nat20.bitstringBytes
    refine sim_iff ?_ (fun _ => sim_done) fun hne => ?_
    · rw [← BitVec.toNat_inj, ← UInt64.toNat_inj, k1]
      simp
    · have h1 : 1 ≤ ((bits + 7) >>> 3).toNat := by
        rcases Nat.eq_zero_or_pos ((bits + 7) >>> 3).toNat with h0 | h0
        · exact absurd (BitVec.eq_of_toNat_eq (by rw [h0]; simp)) hne
        · exact h0
      have s1 : (1 : BitVec w).toNat = 1 := small hw' 1 (by decide)
      have k3 : ((bits + 7) >>> 3 - 1).toNat = ((bits' + 7) >>> 3 - 1).toNat :=
        sub_toNat _ _ _ _ k1 (by rw [s1]; rfl) (by rw [s1]; exact h1)
      simp only [k3]
      exact sim_read _ fun c => sim_then (sim_octet hw hw' _) (sim_bitstringLoop hw hw' _ _)

theorem sim_stringish (tag : UInt32) (slice : Option (Slice w)) (tagInfo : TagInfo) :
    Sim1 w p k (asn1Stringish tag slice tagInfo) (Nat20.asn1Stringish tag (slice.map Slice.wide) tagInfo) := by
  refine sim_content hw hw' _ _ _ (fun p k => ?_) _
  cases slice with
  | none => exact sim_done
  | some s =>
    obtain ⟨size, buffer⟩ := s
    cases buffer with
    | none => exact sim_done
    | some ptr => exact (sim_prepend hw _ _ _ _).given fun _ => ⟨rfl, (toUInt64_toNat hw _).symm⟩

theorem sim_octetString (slice : Option (Slice w)) (tagInfo : TagInfo) : Sim1 w p k (asn1OctetString slice tagInfo) (Nat20.asn1OctetString (slice.map Slice.wide) tagInfo) :=
  sim_stringish hw hw' _ _ _

omit hw hw' in
theorem null_wide : (Slice.null : Slice w).wide = Nat20.Slice.null := by
  unfold Slice.wide Slice.null Nat20.Slice.null toUInt64
  simp

theorem sim_printable (str : Option (Slice w)) (tagInfo : TagInfo) : Sim1 w p k (asn1PrintableString str tagInfo) (Nat20.asn1PrintableString (str.map Slice.wide) tagInfo) := by
  unfold asn1PrintableString Nat20.asn1PrintableString
  cases str with
  | none => rw [← null_wide (w := w)]; exact sim_stringish hw hw' _ (some Slice.null) _
  | some s => exact sim_stringish hw hw' _ (some s) _

theorem sim_utf8 (str : Option (Slice w)) (tagInfo : TagInfo) : Sim1 w p k (asn1Utf8String str tagInfo) (Nat20.asn1Utf8String (str.map Slice.wide) tagInfo) := by
  unfold asn1Utf8String Nat20.asn1Utf8String
  cases str with
  | none => rw [← null_wide (w := w)]; exact sim_stringish hw hw' _ (some Slice.null) _
  | some s => exact sim_stringish hw hw' _ (some s) _

theorem sim_time (str : Option (Slice w)) (tagInfo : TagInfo) : Sim1 w p k (asn1GeneralizedTime str tagInfo) (Nat20.asn1GeneralizedTime (str.map Slice.wide) tagInfo) := by
  unfold asn1GeneralizedTime Nat20.asn1GeneralizedTime
  cases str with
  | none => exact sim_null hw hw' _
  | some s => exact sim_stringish hw hw' _ (some s) _

theorem sim_boolean (v : Bool) (tagInfo : TagInfo) : Sim1 w p k (asn1Boolean v tagInfo) (Nat20.asn1Boolean v tagInfo) :=
  sim_content hw hw' _ _ _ (fun _ _ => sim_octet hw hw' _) _

/-! ## `Model/Cbor` -/

theorem sim_cborValueLoop (n : UInt64) (i rem : Nat) : Sim1 w p k (cborValueLoop n i rem) (Nat20.cborValueLoop n i rem) := by
  induction rem generalizing i with
  | zero => exact sim_done
  | succ rem ih =>
    rw [cborValueLoop, Nat20.cborValueLoop]
    exact sim_then (sim_octet hw hw' _) (ih _)

theorem sim_cborHeader (type : UInt32) (n : UInt64) : Sim1 w p k (cborWriteHeader type n) (Nat20.cborWriteHeader type n) := by
  unfold cborWriteHeader Nat20.cborWriteHeader
  exact sim_then (sim_cborValueLoop hw hw' _ _ _) (sim_octet hw hw' _)

theorem sim_cborInt (n : Int64) : Sim1 w p k (cborWriteInt n) (Nat20.cborWriteInt n) := by
  unfold cborWriteInt Nat20.cborWriteInt
  exact sim_ite (fun _ => sim_cborHeader hw hw' _ _) fun _ => sim_read _ fun m => sim_cborHeader hw hw' _ _

omit hw' in
theorem wide_pos (s : Slice w) : (s.size > 0 ∧ s.buffer = none) ↔ (s.wide.size > 0 ∧ s.wide.buffer = none) := by
  unfold Slice.wide
  simp only [gt_iff_lt, BitVec.lt_def, UInt64.lt_iff_toNat_lt, toUInt64_toNat hw]
  simp

theorem sim_cborBytes (s : Slice w) : Sim1 w p k (cborWriteByteString s) (Nat20.cborWriteByteString s.wide) := by
  unfold cborWriteByteString Nat20.cborWriteByteString
  refine sim_iff (wide_pos hw s) (fun _ => sim_cborHeader hw hw' _ _) fun _ => sim_then ?_ (sim_cborHeader hw hw' _ _)
  exact (sim_prepend hw _ _ _ _).given fun _ => ⟨rfl, (toUInt64_toNat hw _).symm⟩

theorem sim_cborText (s : Slice w) : Sim1 w p k (cborWriteTextString s) (Nat20.cborWriteTextString s.wide) := by
  unfold cborWriteTextString Nat20.cborWriteTextString
  refine sim_iff (wide_pos hw s) (fun _ => sim_cborHeader hw hw' _ _) fun _ => sim_then ?_ (sim_cborHeader hw hw' _ _)
  exact (sim_prepend hw _ _ _ _).given fun _ => ⟨rfl, (toUInt64_toNat hw _).symm⟩

end Nat20.Sized
