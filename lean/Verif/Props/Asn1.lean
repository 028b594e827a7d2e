import Verif.Lemmas.Asn1Values
import Verif.Model.Oid
import Verif.Props.Stream
/-!
# C06-C18: ASN.1 renderers

`Prepends w bs` (`Verif/Spec/Stream.lean`) says that the rendering function `w` prepends exactly the bytes `bs` to every
stream state, including overflowed and sizing-only streams, without undefined behaviour.
-/

namespace Nat20

open Der

/-! ## C06 -/

theorem septets_ge (n : Nat) : ∀ b ∈ septets n, 128 ≤ b.toNat := by
  induction n using Nat.strongRecOn with
  | _ n ih =>
    by_cases h : n = 0
    · subst h; simp [septets_zero]
    · rw [septets_pos h]
      intro b hb
      rcases List.mem_append.1 hb with hb | hb
      · exact ih _ (by omega) b hb
      · rw [List.mem_singleton] at hb
        subst hb; rw [u8_ofNat_toNat _ (by omega)]; omega

/-- **C06.** `n20_asn1_base128_int` writes bytes from which a base-128 decoder recovers `n` whatever follows; all but the last
have the top bit set, the last one does not, and the first one is not the superfluous `0x80`. -/
theorem C06_base128 (n : UInt64) :
    ∃ init last, Prepends (asn1Base128Int n) (init ++ [last]) ∧
      (∀ rest, parseBase128 0 (init ++ [last] ++ rest) = some (n.toNat, rest)) ∧
      (∀ b ∈ init, 128 ≤ b.toNat) ∧ last.toNat < 128 ∧ (init ++ [last]).head? ≠ some 0x80 := by
  refine ⟨septets (n.toNat / 128), UInt8.ofNat (n.toNat % 128), prepends_base128 n, parseBase128_base128 n.toNat,
    septets_ge _, ?_, ?_⟩
  · rw [u8_ofNat_toNat _ (by omega)]; omega
  · have := base128_head n.toNat []
    rwa [List.append_nil] at this

/-- Non-vacuity of C06: the largest argument takes ten bytes. -/
example : asn1Base128Int 0xffffffffffffffff (some (streamInit (some (List.replicate 10 0)) 10)) =
    .ok ((), some ⟨some [0x81, 0xff, 0xff, 0xff, 0xff, 0xff, 0xff, 0xff, 0xff, 0x7f], 10, 10, false, false⟩) := by
  decide +kernel

/-! ## C07 -/

/-- **C07.** A strict DER parser reads the header back as class, constructed bit, tag and length, whatever follows. -/
theorem C07_header (cls : UInt8) (hc : cls.toNat < 4) (constructed : Bool) (tag : UInt32) (len : UInt64) :
    ∃ bs, Prepends (asn1Header cls constructed tag len) bs ∧
      ∀ rest, ∃ r, parseIdentifier (bs ++ rest) = some ((cls.toNat, constructed, tag.toNat), r) ∧
        parseLength r = some (len.toNat, rest) := by
  refine ⟨_, prepends_header cls constructed tag len hc, fun rest => ?_⟩
  refine ⟨lengthOctets len.toNat ++ rest, ?_, ?_⟩
  · rw [List.append_assoc, parseIdentifier_octets _ _ _ hc]
  · refine parseLength_octets _ (Nat.lt_of_lt_of_le len.toNat_lt pow_bound) rest

/-- **C07.** The header octets are the only ones the strict parser accepts for this class, constructed bit, tag and length:
they are canonical, hence of minimal length. -/
theorem C07_header_canonical (cls : UInt8) (hc : cls.toNat < 4) (constructed : Bool) (tag : UInt32) (len : UInt64)
    (other r rest : Bytes) (h1 : parseIdentifier other = some ((cls.toNat, constructed, tag.toNat), r))
    (h2 : parseLength r = some (len.toNat, rest)) :
    ∃ bs, Prepends (asn1Header cls constructed tag len) bs ∧ other = bs ++ rest := by
  refine ⟨_, prepends_header cls constructed tag len hc, ?_⟩
  obtain ⟨_, e1⟩ := parseIdentifier_canonical _ _ _ _ _ h1
  have e2 := parseLength_canonical _ _ _ h2
  rw [e1, e2, List.append_assoc]

/-- Non-vacuity of C07: long form tag and long form length. -/
example : asn1Header 2 true 1000 300 (some (streamInit (some (List.replicate 6 0)) 6)) =
    .ok ((), some ⟨some [0xbf, 0x87, 0x68, 0x82, 0x01, 0x2c], 6, 6, false, false⟩) := by decide +kernel

/-! ## C08 -/

/-- **C08.** One complete element whose content is exactly what the callback rendered, in every stream state. -/
theorem C08_header_with_content (cls : UInt8) (hc : cls.toNat < 4) (constructed : Bool) (tag : UInt32) {cb : W Unit}
    {content : Bytes} (hcb : Prepends cb content) :
    ∃ bs, Prepends (asn1HeaderWithContent cls constructed tag (some cb) tagInfoNoOverride) bs ∧
      (content.length < 2 ^ 64 →
        ∀ rest, parseTlv (bs ++ rest) = some ((cls.toNat, constructed, tag.toNat, content), rest)) :=
  ⟨_, prepends_hwc cls constructed tag hc hcb tagInfoNoOverride,
    fun hl rest => parseTlv_tlv _ _ _ _ _ hc (Nat.lt_of_lt_of_le hl pow_bound)⟩

/-- **C08.** A NULL callback gives empty content. -/
theorem C08_null_callback (cls : UInt8) (hc : cls.toNat < 4) (constructed : Bool) (tag : UInt32) :
    ∃ bs, Prepends (asn1HeaderWithContent cls constructed tag none tagInfoNoOverride) bs ∧
      ∀ rest, parseTlv (bs ++ rest) = some ((cls.toNat, constructed, tag.toNat, []), rest) :=
  ⟨_, prepends_hwc_null cls constructed tag hc tagInfoNoOverride,
    fun rest => parseTlv_tlv _ _ _ _ _ hc (Nat.lt_of_lt_of_le (by simp) pow_bound)⟩

/-- **C08.** Sequences. -/
theorem C08_sequence {cb : W Unit} {content : Bytes} (hcb : Prepends cb content) :
    ∃ bs, Prepends (asn1Sequence (some cb) tagInfoNoOverride) bs ∧
      (content.length < 2 ^ 64 → ∀ rest, parseTlv (bs ++ rest) = some ((0, true, 16, content), rest)) :=
  C08_header_with_content classUniversal (by decide) true 0x10 hcb

/-- A callback that renders nested structures: each node renders its children, the last one first. -/
def renderTree : Der → W Unit
  | .prim cls tag content =>
    asn1HeaderWithContent (UInt8.ofNat cls) false (UInt32.ofNat tag) (some (prependLocal content)) tagInfoNoOverride
  | .cons cls tag items =>
    asn1HeaderWithContent (UInt8.ofNat cls) true (UInt32.ofNat tag) (some (renderTrees items)) tagInfoNoOverride
where
  renderTrees : List Der → W Unit
    | [] => Pure.pure ()
    | d :: ds => do renderTrees ds; renderTree d

mutual
/-- Classes, tags and contents are within the range of the C types. -/
def Fits : Der → Prop
  | .prim cls tag content => cls < 4 ∧ tag < 2 ^ 32 ∧ content.length < 2 ^ 64
  | .cons cls tag items => cls < 4 ∧ tag < 2 ^ 32 ∧ FitsAll items
def FitsAll : List Der → Prop
  | [] => True
  | d :: ds => Fits d ∧ FitsAll ds
end

mutual
theorem prepends_renderTree : ∀ d : Der, Fits d → Prepends (renderTree d) d.encode
  | .prim cls tag content, h => by
    rw [renderTree, Der.encode]
    simp only [Fits] at h
    have hc : (UInt8.ofNat cls).toNat = cls := u8_ofNat_toNat _ (by omega)
    have ht : (UInt32.ofNat tag).toNat = tag := UInt32.toNat_ofNat_of_lt' h.2.1
    have := prepends_hwc (UInt8.ofNat cls) false (UInt32.ofNat tag) (by omega) (prepends_local content h.2.2)
      tagInfoNoOverride
    rw [hc, ht] at this
    exact this
  | .cons cls tag items, h => by
    rw [renderTree, Der.encode]
    simp only [Fits] at h
    have hc : (UInt8.ofNat cls).toNat = cls := u8_ofNat_toNat _ (by omega)
    have ht : (UInt32.ofNat tag).toNat = tag := UInt32.toNat_ofNat_of_lt' h.2.1
    have := prepends_hwc (UInt8.ofNat cls) true (UInt32.ofNat tag) (by omega) (prepends_renderTrees items h.2.2)
      tagInfoNoOverride
    rw [hc, ht] at this
    exact this
theorem prepends_renderTrees : ∀ ds : List Der, FitsAll ds → Prepends (renderTree.renderTrees ds) (encodeAll ds)
  | [], _ => Prepends.pure
  | d :: ds, h => by
    rw [renderTree.renderTrees, encodeAll]
    simp only [FitsAll] at h
    exact (prepends_renderTrees ds h.2).bind (prepends_renderTree d h.1)
end

mutual
theorem Fits.classOk : ∀ d : Der, Fits d → d.ClassOk
  | .prim .., h => by simp only [Fits] at h; simp only [Der.ClassOk]; exact h.1
  | .cons _ _ items, h => by
    simp only [Fits] at h; simp only [Der.ClassOk]; exact ⟨h.1, FitsAll.classesOk items h.2.2⟩
theorem FitsAll.classesOk : ∀ ds : List Der, FitsAll ds → ClassesOk ds
  | [], _ => trivial
  | d :: ds, h => by
    simp only [FitsAll] at h; simp only [ClassesOk]; exact ⟨Fits.classOk d h.1, FitsAll.classesOk ds h.2⟩
end

/-- **C08.** Arbitrary nesting: callbacks that call `n20_asn1_header_with_content` with further callbacks, to any depth and
width, render bytes from which a strict recursive DER parser recovers exactly the tree. -/
theorem C08_nesting (d : Der) (h : Fits d) :
    ∃ bs, Prepends (renderTree d) bs ∧ (bs.length < 2 ^ 64 → parse bs = some d) :=
  ⟨_, prepends_renderTree d h, fun hl => parse_encode d (Fits.classOk d h) hl⟩

/-- Non-vacuity of C08: nested sequences in a sizing pass. -/
example :
    let d : Der := .cons 0 16 [.prim 0 4 (List.replicate 130 7), .cons 2 40 [.prim 0 5 []]]
    Fits d ∧ d.encode.length = 141 := by
  refine ⟨?_, by decide +kernel⟩
  simp [Fits, FitsAll]

/-! ## C09 -/

/-- The typed renderers and their arguments other than the tag info. -/
inductive TypedCall where
  | null
  | boolean (v : Bool)
  | objectIdentifier (oid : Oid)
  | integer (n : Slice) (littleEndian twoComplement : Bool)
  | uint64 (fr : Frame) (n : UInt64)
  | int64 (fr : Frame) (n : Int64)
  | bitstring (b : Option Ptr) (bits : UInt64)
  | octetstring (s : Option Slice)
  | printablestring (s : Option Slice)
  | utf8string (s : Option Slice)
  | generalizedTime (s : Slice)
  | sequence (cb : Option (W Unit))
  | headerWithContent (cls : UInt8) (constructed : Bool) (tag : UInt32) (cb : Option (W Unit))

/-- Calling the renderer. -/
def TypedCall.render : TypedCall → TagInfo → W Unit
  | .null, ti => asn1Null ti
  | .boolean v, ti => asn1Boolean v ti
  | .objectIdentifier oid, ti => asn1ObjectIdentifier (some oid) ti
  | .integer n le tc, ti => asn1Integer n le tc ti
  | .uint64 fr n, ti => asn1UInt64 fr n ti
  | .int64 fr n, ti => asn1Int64 fr n ti
  | .bitstring b bits, ti => asn1Bitstring b bits ti
  | .octetstring s, ti => asn1OctetString s ti
  | .printablestring s, ti => asn1PrintableString s ti
  | .utf8string s, ti => asn1Utf8String s ti
  | .generalizedTime s, ti => asn1GeneralizedTime (some s) ti
  | .sequence cb, ti => asn1Sequence cb ti
  | .headerWithContent cls constructed tag cb, ti => asn1HeaderWithContent cls constructed tag cb ti

/-- The arguments are legal and denote a value that can be rendered (see C10, C12 for the condition on integers and C15 for
the arguments which are replaced by NULL). -/
def TypedCall.Valid : TypedCall → Prop
  | .null => True
  | .boolean _ => True
  | .objectIdentifier oid => oid.elemCount.toNat ≤ 10
  | .integer n le tc => n.Valid ∧ n.buffer ≠ none ∧ (tc = true → n.size ≠ 0) ∧
      (n.NeighbourReadable le ∨ (n.value le tc ≠ 0 ∧ n.value le tc ≠ -1))
  | .uint64 fr n => fr.adjacent ≠ [] ∨ n ≠ 0
  | .int64 fr n => fr.adjacent ≠ [] ∨ (n ≠ 0 ∧ n ≠ -1)
  | .bitstring b bits => ∀ p, b = some p → bits.toNat + 7 < 2 ^ 64 ∧ bits.toNat ≤ 8 * p.data.length
  | .octetstring s => ∀ x, s = some x → x.Valid
  | .printablestring s => ∀ x, s = some x → x.Valid
  | .utf8string s => ∀ x, s = some x → x.Valid
  | .generalizedTime s => s.Valid
  | .sequence cb => ∀ w, cb = some w → ∃ content, Prepends w content
  | .headerWithContent cls _ _ cb => cls.toNat < 4 ∧ ∀ w, cb = some w → ∃ content, Prepends w content

theorem typed_element (c : TypedCall) (h : c.Valid) :
    ∃ cls constructed tag content, ∀ ti : TagInfo,
      Prepends (c.render ti) (ti.tagging.element cls constructed tag content) := by
  cases c with
  | null => exact ⟨0, false, 5, [], prepends_null⟩
  | boolean v => exact ⟨0, false, 1, _, prepends_boolean v⟩
  | objectIdentifier oid => exact ⟨0, false, 6, _, fun ti => prepends_oid oid ti h⟩
  | integer n le tc => exact ⟨0, false, 2, _, fun ti => prepends_integer n le tc ti h.1 h.2.1 h.2.2.1 h.2.2.2⟩
  | uint64 fr n => exact ⟨0, false, 2, _, fun ti => prepends_uint64 fr n ti h⟩
  | int64 fr n => exact ⟨0, false, 2, _, fun ti => prepends_int64 fr n ti h⟩
  | bitstring b bits =>
    cases b with
    | none => exact ⟨0, false, 3, _, prepends_bitstring_null bits⟩
    | some p => exact ⟨0, false, 3, _, fun ti => prepends_bitstring p bits ti (h p rfl).1 (h p rfl).2⟩
  | octetstring s => exact ⟨0, false, 4, _, fun ti => prepends_octetString s ti h⟩
  | printablestring s => exact ⟨0, false, 19, _, fun ti => prepends_printableString s ti h⟩
  | utf8string s => exact ⟨0, false, 12, _, fun ti => prepends_utf8String s ti h⟩
  | generalizedTime s => exact ⟨0, false, 24, _, fun ti => prepends_generalizedTime s ti h⟩
  | sequence cb =>
    cases cb with
    | none => exact ⟨0, true, 16, _, fun ti => prepends_hwc_null classUniversal true 16 (by decide) ti⟩
    | some w =>
      obtain ⟨content, hw⟩ := h w rfl
      exact ⟨0, true, 16, _, fun ti => prepends_hwc classUniversal true 16 (by decide) hw ti⟩
  | headerWithContent cls constructed tag cb =>
    cases cb with
    | none => exact ⟨_, _, _, _, fun ti => prepends_hwc_null cls constructed tag h.1 ti⟩
    | some w =>
      obtain ⟨content, hw⟩ := h.2 w rfl
      exact ⟨_, _, _, _, fun ti => prepends_hwc cls constructed tag h.1 hw ti⟩

/-- **C09.** For every typed renderer and every value: implicit tagging changes class and tag only, explicit tagging wraps
the unchanged element. -/
theorem C09_tag_overrides (c : TypedCall) (h : c.Valid) :
    ∃ cls constructed tag content,
      Prepends (c.render tagInfoNoOverride) (tlv cls constructed tag content) ∧
      (∀ t : UInt32, Prepends (c.render ⟨.implicit, t⟩) (tlv 2 constructed t.toNat content)) ∧
      (∀ t : UInt32, Prepends (c.render ⟨.explicit, t⟩) (tlv 2 true t.toNat (tlv cls constructed tag content))) := by
  obtain ⟨cls, constructed, tag, content, he⟩ := typed_element c h
  exact ⟨cls, constructed, tag, content, he tagInfoNoOverride, fun t => he ⟨.implicit, t⟩, fun t => he ⟨.explicit, t⟩⟩

/-- **C09.** The same for tag info structures made by the three helper functions of the API, which take an `int`. -/
theorem C09_tag_info_helpers (c : TypedCall) (h : c.Valid) (t : Int32) (ht : 0 ≤ t.toInt) :
    ∃ cls constructed tag content,
      Prepends (c.render tagInfoNoOverride) (tlv cls constructed tag content) ∧
      Prepends (c.render (tagInfoImplicit t)) (tlv 2 constructed t.toInt.toNat content) ∧
      Prepends (c.render (tagInfoExplicit t)) (tlv 2 true t.toInt.toNat (tlv cls constructed tag content)) := by
  obtain ⟨cls, constructed, tag, content, h0, h1, h2⟩ := C09_tag_overrides c h
  have e : t.toUInt32.toNat = t.toInt.toNat := by
    rw [Int32.toNat_toUInt32_of_le (Int32.le_iff_toInt_le.2 ht)]; rfl
  refine ⟨cls, constructed, tag, content, h0, ?_, ?_⟩
  · rw [← e]; exact h1 _
  · rw [← e]; exact h2 _

/-- Non-vacuity of C09. -/
example :
    (TypedCall.octetstring (some ⟨2, some ⟨[], [1, 2]⟩⟩)).Valid ∧
    asn1OctetString (some ⟨2, some ⟨[], [1, 2]⟩⟩) (tagInfoExplicit 6) (some (streamInit (some (List.replicate 6 0)) 6)) =
      .ok ((), some ⟨some [0xa6, 4, 4, 2, 1, 2], 6, 6, false, false⟩) ∧
    asn1OctetString (some ⟨2, some ⟨[], [1, 2]⟩⟩) (tagInfoImplicit 6) (some (streamInit (some (List.replicate 4 0)) 4)) =
      .ok ((), some ⟨some [0x86, 2, 1, 2], 4, 4, false, false⟩) := by
  refine ⟨?_, by decide +kernel, by decide +kernel⟩
  intro x hx; cases hx; intro p hp; cases hp; decide

/-! ## C10 - C12 -/

/-- **C10** (partial). The content octets are minimal and their two's complement value is the value of the slice.
Missing: for the values 0 and -1 this is only proved if the byte next to the slice is readable, because the code reads it
(see `C12_reads_outside`); for empty slices in two's complement mode it is false, see `C12_empty`. -/
theorem C10_integer_partial (n : Slice) (littleEndian twoComplement : Bool) (hv : n.Valid) (hb : n.buffer ≠ none)
    (hne : twoComplement = true → n.size ≠ 0)
    (hadj : n.NeighbourReadable littleEndian ∨
      (n.value littleEndian twoComplement ≠ 0 ∧ n.value littleEndian twoComplement ≠ -1)) :
    ∃ content, Prepends (asn1Integer n littleEndian twoComplement tagInfoNoOverride) (tlv 0 false 2 content) ∧
      twosComplement content = n.value littleEndian twoComplement ∧ MinimalInteger content ∧
      ∀ c, MinimalInteger c → twosComplement c = n.value littleEndian twoComplement → c = content := by
  refine ⟨_, prepends_integer n littleEndian twoComplement tagInfoNoOverride hv hb hne hadj,
    (intContent_spec _).2, (intContent_spec _).1, ?_⟩
  intro c hm he
  rw [← he, intContent_unique c hm]

/-- Non-vacuity of C10: a little-endian negative number with superfluous sign bytes, strict memory. -/
example :
    Slice.Valid ⟨3, some ⟨[], [0x7f, 0xff, 0xff]⟩⟩ ∧
    Slice.value ⟨3, some ⟨[], [0x7f, 0xff, 0xff]⟩⟩ true true = -129 ∧
    asn1Integer ⟨3, some ⟨[], [0x7f, 0xff, 0xff]⟩⟩ true true tagInfoNoOverride (some (streamInit (some [0, 0, 0, 0]) 4)) =
      .ok ((), some ⟨some [2, 2, 0xff, 0x7f], 4, 4, false, false⟩) := by
  refine ⟨?_, by decide, by decide +kernel⟩
  intro p hp; cases hp; decide

/-- **C11** (partial). `n20_asn1_uint64` renders its argument minimally.  Missing: for 0 only if the byte next to the argument
in memory is readable. -/
theorem C11_uint64_partial (fr : Frame) (n : UInt64) (h : fr.adjacent ≠ [] ∨ n ≠ 0) :
    ∃ content, Prepends (asn1UInt64 fr n tagInfoNoOverride) (tlv 0 false 2 content) ∧
      twosComplement content = n.toNat ∧ MinimalInteger content :=
  ⟨_, prepends_uint64 fr n tagInfoNoOverride h, (intContent_spec _).2, (intContent_spec _).1⟩

/-- **C11** (partial). `n20_asn1_int64` renders its argument minimally.  Missing: for 0 and -1 only if the byte next to the
argument in memory is readable. -/
theorem C11_int64_partial (fr : Frame) (n : Int64) (h : fr.adjacent ≠ [] ∨ (n ≠ 0 ∧ n ≠ -1)) :
    ∃ content, Prepends (asn1Int64 fr n tagInfoNoOverride) (tlv 0 false 2 content) ∧
      twosComplement content = n.toInt ∧ MinimalInteger content :=
  ⟨_, prepends_int64 fr n tagInfoNoOverride h, (intContent_spec _).2, (intContent_spec _).1⟩

/-- **C11, negated** for these numbers: the byte next to the argument is read, in every stream state. -/
theorem C11_reads_outside (fr : Frame) (hfr : fr.adjacent = []) (ti : TagInfo) :
    Faults (asn1UInt64 fr 0 ti) .oobRead ∧ Faults (asn1Int64 fr 0 ti) .oobRead ∧ Faults (asn1Int64 fr (-1) ti) .oobRead :=
  ⟨⟨uint64_ub fr hfr ti _, fun _ _ => uint64_ub fr hfr ti _⟩, ⟨int64_ub fr hfr 0 (Or.inl rfl) ti _, fun _ _ => int64_ub fr hfr 0 (Or.inl rfl) ti _⟩,
    ⟨int64_ub fr hfr (-1) (Or.inr rfl) ti _, fun _ _ => int64_ub fr hfr (-1) (Or.inr rfl) ti _⟩⟩

/-- Non-vacuity of C11: extreme arguments, with nothing else readable. -/
example :
    asn1UInt64 ⟨[], [], false⟩ 0xffffffffffffffff tagInfoNoOverride (some (streamInit (some (List.replicate 11 1)) 11)) =
      .ok ((), some ⟨some [2, 9, 0, 255, 255, 255, 255, 255, 255, 255, 255], 11, 11, false, false⟩) ∧
    asn1Int64 ⟨[], [], false⟩ (-9223372036854775808) tagInfoNoOverride (some (streamInit (some (List.replicate 10 1)) 10)) =
      .ok ((), some ⟨some [2, 8, 128, 0, 0, 0, 0, 0, 0, 0], 10, 10, false, false⟩) := by
  constructor <;> decide +kernel

/-- **C12, negated.** The code violates C12: for *every* slice whose value is 0 or -1 the byte next to the slice is
read; if it is not accessible, the behaviour is undefined. -/
theorem C12_reads_outside (n : Slice) (littleEndian twoComplement : Bool) (ti : TagInfo) (hv : n.Valid)
    (hb : n.buffer ≠ none) (hne : twoComplement = true → n.size ≠ 0) (hadj : ¬ n.NeighbourReadable littleEndian)
    (hval : n.value littleEndian twoComplement = 0 ∨ n.value littleEndian twoComplement = -1) (s : Option Stream) :
    asn1Integer n littleEndian twoComplement ti s = .error .oobRead :=
  integer_ub n littleEndian twoComplement ti hv hb hne hadj hval s

/-- A concrete witness: the one byte number 0, and `n20_asn1_uint64(0)`. -/
theorem C12_reads_outside_witness :
    asn1Integer ⟨1, some ⟨[], [0]⟩⟩ false false tagInfoNoOverride (some (streamInit none 0)) = .error .oobRead ∧
    asn1UInt64 ⟨[], [1, 2, 3], false⟩ 0 tagInfoNoOverride (some (streamInit none 0)) = .error .oobRead := by
  constructor <;> decide +kernel

/-- **C12, negated.** For an empty slice in two's complement mode the output depends on memory outside of the slice. -/
theorem C12_output_depends_on_surroundings :
    asn1Integer ⟨0, some ⟨[], [0x00]⟩⟩ false true tagInfoNoOverride (some (streamInit (some [9, 9, 9]) 3)) =
      .ok ((), some ⟨some [2, 1, 0], 3, 3, false, false⟩) ∧
    asn1Integer ⟨0, some ⟨[], [0x80]⟩⟩ false true tagInfoNoOverride (some (streamInit (some [9, 9, 9]) 3)) =
      .ok ((), some ⟨some [2, 1, 255], 3, 3, false, false⟩) := by
  constructor <;> decide +kernel

/-- **C12, negated.** For *every* empty slice that is not NULL the byte next to it is read.  Its value does not matter for unsigned numbers;
in two's complement mode its highest bit decides between the outputs 0 and -1. -/
theorem C12_empty (p : Ptr) (littleEndian twoComplement : Bool) (ti : TagInfo) :
    (∀ b, Slice.neighbour ⟨0, some p⟩ littleEndian = some b →
      Prepends (asn1Integer ⟨0, some p⟩ littleEndian twoComplement ti)
        (ti.tagging.element 0 false 2 [if twoComplement = true ∧ 128 ≤ b.toNat then 0xff else 0])) ∧
    (Slice.neighbour ⟨0, some p⟩ littleEndian = none → ∀ s, asn1Integer ⟨0, some p⟩ littleEndian twoComplement ti s = .error .oobRead) := by
  have hr : p.read (if littleEndian then -1 else 0) = match Slice.neighbour ⟨0, some p⟩ littleEndian with | some b => .ok b | none => .error .oobRead := by
    unfold Slice.neighbour Ptr.read
    cases littleEndian with
    | false => rfl
    | true =>
      simp only [Option.bind_some, if_true, if_neg (show ¬ (0 : Int) ≤ -1 by omega)]
      rw [show (-1 - -1 : Int).toNat = 0 from rfl, ← List.head?_eq_getElem?, List.head?_reverse]
      cases p.before.getLast? <;> rfl
  constructor
  · intro b hb
    rw [hb] at hr
    simp only at hr
    have hc : Prepends (asn1IntegerContent p 0 littleEndian twoComplement) [if twoComplement = true ∧ 128 ≤ b.toNat then 0xff else 0] := by
      unfold asn1IntegerContent
      simp only [UInt64.toNat_zero, Int.natCast_zero, Int.zero_mul, Int.sub_zero]
      have h1 : integerNegative p twoComplement (if littleEndian then -1 else 0) = .ok (twoComplement && decide (128 ≤ b.toNat)) := by
        unfold integerNegative
        cases twoComplement with
        | false => rfl
        | true =>
          rw [if_pos rfl, hr, ← and_80]
          rfl
      refine Prepends.lift_bind h1 ?_
      refine Prepends.lift_bind (v := 0) (by rw [stripLoop, hr]; rfl) ?_
      refine Prepends.lift_bind (v := true) rfl ?_
      refine (Prepends.bind (b1 := []) Prepends.pure (prepends_byte _)).congr ?_
      simp only [Bool.and_eq_true, decide_eq_true_eq, List.append_nil]
    exact prepends_hwc classUniversal false 2 (by decide) hc ti
  · intro hb s
    rw [hb] at hr
    simp only at hr
    have hc : asn1IntegerContent p 0 littleEndian twoComplement s = .error .oobRead := by
      unfold asn1IntegerContent
      simp only [UInt64.toNat_zero, Int.natCast_zero, Int.zero_mul, Int.sub_zero]
      cases twoComplement with
      | true =>
        have h1 : integerNegative p true (if littleEndian then -1 else 0) = .error .oobRead := by
          rw [integerNegative, if_pos rfl, hr]
          rfl
        rw [h1]
        rfl
      | false =>
        have h1 : ∀ pad inc, stripLoop p pad inc (if littleEndian then -1 else 0) 0 = .error .oobRead := by
          intro pad inc
          rw [stripLoop, hr]
          rfl
        simp only [integerNegative, h1]
        rfl
    show (asn1IntegerContent p 0 littleEndian twoComplement s >>= _) = _
    rw [hc]
    rfl

/-- **C12** (partial). The output for a slice that is not an empty one in two's complement mode does not depend on memory outside of it: two pointers to the same
slice bytes give the same output whatever surrounds them, and values other than 0 and -1 are rendered even if nothing
around the slice is accessible.  Missing: empty slices in two's complement mode, and the two values for which the code reads outside. -/
theorem C12_slice_only_partial (size : UInt64) (bytes : Bytes) (hlen : bytes.length = size.toNat)
    (littleEndian twoComplement : Bool) (hne : twoComplement = true → size ≠ 0) (ti : TagInfo) :
    ∃ bs, (∀ before after : Bytes,
      (Slice.NeighbourReadable ⟨size, some ⟨before, bytes ++ after⟩⟩ littleEndian ∨
        (bytesValue twoComplement (mostSignificantFirst littleEndian bytes) ≠ 0 ∧
         bytesValue twoComplement (mostSignificantFirst littleEndian bytes) ≠ -1)) →
      Prepends (asn1Integer ⟨size, some ⟨before, bytes ++ after⟩⟩ littleEndian twoComplement ti) bs) := by
  refine ⟨ti.tagging.element 0 false 2 (intContent (bytesValue twoComplement (mostSignificantFirst littleEndian bytes))), ?_⟩
  intro before after h
  have hval : Slice.value ⟨size, some ⟨before, bytes ++ after⟩⟩ littleEndian twoComplement =
      bytesValue twoComplement (mostSignificantFirst littleEndian bytes) := by
    simp only [Slice.value, Slice.bytes]
    rw [List.take_left' hlen]
  have := prepends_integer ⟨size, some ⟨before, bytes ++ after⟩⟩ littleEndian twoComplement ti
    (by intro p hp; cases hp; simp [hlen]) (by simp) hne (by rw [hval]; exact h)
  rwa [hval] at this

/-! ## C13 -/

/-- **C13** (partial). The content octets of a bit string are, to a strict reader, exactly the first `bits` bits of the
buffer (the reader insists on zero padding).  Missing: bit counts within 7 of 2^64, see `C13_wraps`. -/
theorem C13_bitstring_partial (p : Ptr) (bits : UInt64) (hlen : bits.toNat ≤ 8 * p.data.length)
    (hwrap : bits.toNat < 2 ^ 64 - 7) :
    ∃ content, Prepends (asn1Bitstring (some p) bits tagInfoNoOverride) (tlv 0 false 3 content) ∧
      parseBitString content = some ((bitsOf p.data).take bits.toNat) ∧
      content.length = 1 + (bits.toNat + 7) / 8 := by
  refine ⟨_, prepends_bitstring p bits tagInfoNoOverride (by omega) hlen, parseBitString_content _, ?_⟩
  rw [bitStringContent, List.length_cons, (bitsOf_packBits _ _ rfl).2, List.length_take, bitsOf_length]
  omega

/-- **C13.** A NULL buffer renders the empty bit string. -/
theorem C13_bitstring_null (bits : UInt64) :
    ∃ content, Prepends (asn1Bitstring none bits tagInfoNoOverride) (tlv 0 false 3 content) ∧
      parseBitString content = some [] :=
  ⟨_, prepends_bitstring_null bits tagInfoNoOverride, parseBitString_content _⟩

/-- **C13, negated** for huge counts: `bits + 7` wraps, so for each of the last 7 counts the output is one content octet, which is malformed, and
the buffer is not read. -/
theorem C13_wraps (p : Ptr) (bits : UInt64) (hbits : 2 ^ 64 - 7 ≤ bits.toNat) :
    ∃ unused, Prepends (asn1Bitstring (some p) bits tagInfoNoOverride) [3, 1, unused] ∧ parseBitString [unused] = none := by
  have hcases : bits ∈ [0xfffffffffffffff9, 0xfffffffffffffffa, 0xfffffffffffffffb, 0xfffffffffffffffc, 0xfffffffffffffffd, 0xfffffffffffffffe, (0xffffffffffffffff : UInt64)] := by
    have := bits.toNat_lt
    simp only [List.mem_cons, List.not_mem_nil, or_false, ← UInt64.toNat_inj, UInt64.reduceToNat]
    omega
  have hall : ∀ b ∈ [0xfffffffffffffff9, 0xfffffffffffffffa, 0xfffffffffffffffb, 0xfffffffffffffffc, 0xfffffffffffffffd, 0xfffffffffffffffe, (0xffffffffffffffff : UInt64)],
      (b + 7) >>> 3 = 0 ∧ parseBitString [(((8 : UInt64) - (b &&& 7)) &&& 7).toUInt8] = none := by decide +kernel
  obtain ⟨e1, e2⟩ := hall bits hcases
  refine ⟨_, ?_, e2⟩
  have h : Prepends (asn1BitstringContent (some p) bits) [(((8 : UInt64) - (bits &&& 7)) &&& 7).toUInt8] := by
    unfold asn1BitstringContent
    simp only [Option.isNone_some, Bool.false_eq_true, if_false]
    rw [e1, bitstringBytes, if_pos rfl]
    exact Prepends.bind (b1 := []) Prepends.pure (prepends_byte _)
  exact (prepends_hwc classUniversal false 3 (by decide) h tagInfoNoOverride).congr rfl

/-- Non-vacuity of C13. -/
example :
    asn1Bitstring (some ⟨[], [0xff, 0xff]⟩) 11 tagInfoNoOverride (some (streamInit (some [0, 0, 0, 0, 0]) 5)) =
      .ok ((), some ⟨some [3, 3, 5, 0xff, 0xe0], 5, 5, false, false⟩) := by decide +kernel

/-! ## C14, C15 -/

/-- **C14** (partial). A decoder recovers the arcs.  Missing: OIDs whose first two arcs do not fit into one octet
(`40 * a + b ≥ 128`, e.g. 2.999), see `C14_large_second_arc`. -/
theorem C14_oid_partial (oid : Oid) (hcount : oid.elemCount.toNat ≤ 10) (hvalid : ValidArcs oid.arcs)
    (hsmall : ∀ a b rest, oid.arcs = a :: b :: rest → 40 * a + b < 128) :
    ∃ content, Prepends (asn1ObjectIdentifier (some oid) tagInfoNoOverride) (tlv 0 false 6 content) ∧
      parseOid content = some oid.arcs := by
  obtain ⟨a, b, rest, he, _⟩ := id hvalid
  refine ⟨_, prepends_oid oid tagInfoNoOverride hcount, ?_⟩
  exact parseOid_content _ hvalid _ (oidCodeContent_eq _ a b rest he (hsmall a b rest he))

/-- **C14** (partial). Different OIDs render differently (same restriction). -/
theorem C14_oid_injective_partial (x y : Oid) (hx : x.elemCount.toNat ≤ 10) (hy : y.elemCount.toNat ≤ 10)
    (vx : ValidArcs x.arcs) (vy : ValidArcs y.arcs)
    (sx : ∀ a b rest, x.arcs = a :: b :: rest → 40 * a + b < 128)
    (sy : ∀ a b rest, y.arcs = a :: b :: rest → 40 * a + b < 128) (bs : Bytes)
    (rx : Prepends (asn1ObjectIdentifier (some x) tagInfoNoOverride) bs)
    (ry : Prepends (asn1ObjectIdentifier (some y) tagInfoNoOverride) bs) (hlen : bs.length < 2 ^ 64) :
    x.arcs = y.arcs := by
  obtain ⟨cx, px, ex⟩ := C14_oid_partial x hx vx sx
  obtain ⟨cy, py, ey⟩ := C14_oid_partial y hy vy sy
  have e1 := rx.unique px hlen
  have e2 := ry.unique py hlen
  have lx := tlv_length 0 false 6 cx
  have ly := tlv_length 0 false 6 cy
  rw [e1] at lx
  rw [e2] at ly
  have := (tlv_prefix_free (c := 0) (c' := 0) (t := 6) (t' := 6) (k := false) (k' := false) (x := cx) (x' := cy)
    (r := []) (r' := []) (by omega) (by omega) (by omega) (by omega) (by rw [e1, e2])).2.2.2.1
  rw [this, ey] at ex
  exact (Option.some.inj ex).symm

/-- **C14** (partial). For standard arcs, `oidCodeContent` is the encoding X.690 demands (same restriction). -/
theorem C14_standard_content_partial (arcs : List Nat) (h : StandardArcs arcs) :
    oidContent arcs = some (oidCodeContent arcs) ∧ parseOid (oidCodeContent arcs) = some arcs := by
  obtain ⟨a, b, rest, he, h1, h2, h3⟩ := h
  have e := oidCodeContent_eq arcs a b rest he h3
  exact ⟨e, parseOid_content arcs ⟨a, b, rest, he, h1, h2⟩ _ e⟩

/-- Non-vacuity of C14. -/
example : (mkOid [1, 2, 840, 113549]).elemCount.toNat ≤ 10 ∧ (mkOid [1, 2, 840, 113549]).arcs = [1, 2, 840, 113549] ∧
    asn1ObjectIdentifier (some (mkOid [1, 2, 840, 113549])) tagInfoNoOverride (some (streamInit (some (List.replicate 8 0)) 8)) =
      .ok ((), some ⟨some [6, 6, 0x2a, 0x86, 0x48, 0x86, 0xf7, 0x0d], 8, 8, false, false⟩) := by decide +kernel

/-- **C14**, exactly where it holds: the decoder recovers the arcs of a valid OID if and only if the first two fit into one octet without the continuation bit.
The property fails for all other OIDs, e.g. 2.48 and up. -/
theorem C14_exact (oid : Oid) (hcount : oid.elemCount.toNat ≤ 10) (a b : Nat) (rest : List Nat) (harcs : oid.arcs = a :: b :: rest) (ha : a ≤ 2) (hb : a < 2 → b < 40) :
    ∃ content, Prepends (asn1ObjectIdentifier (some oid) tagInfoNoOverride) (tlv 0 false 6 content) ∧
      (parseOid content = some oid.arcs ↔ 40 * a + b < 128) := by
  refine ⟨_, prepends_oid oid tagInfoNoOverride hcount, fun h => ?_, fun h => ?_⟩
  · have e := parseOid_canonical _ _ h
    rw [harcs] at e
    simp only [oidContent, oidCodeContent, List.drop_succ_cons, List.drop_zero, Option.some.injEq] at e
    have hl := congrArg List.length e
    simp only [List.length_append, List.length_cons] at hl
    simp only [base128, List.length_append, List.length_singleton] at hl
    refine Classical.byContradiction fun hn => ?_
    have : septets ((40 * a + b) / 128) ≠ [] := by
      rw [septets_pos (by omega)]
      simp
    have := List.length_pos_iff.2 this
    omega
  · exact parseOid_content _ ⟨a, b, rest, harcs, ha, hb⟩ _ (oidCodeContent_eq _ a b rest harcs h)

/-- **C14, negated.** The valid OIDs 2.999 and 2.231 are rendered to the same bytes `06 01 37`, from which a decoder reads
1.15. -/
theorem C14_large_second_arc :
    ValidArcs (mkOid [2, 999]).arcs ∧ ValidArcs (mkOid [2, 231]).arcs ∧
    Prepends (asn1ObjectIdentifier (some (mkOid [2, 999])) tagInfoNoOverride) [6, 1, 0x37] ∧
    Prepends (asn1ObjectIdentifier (some (mkOid [2, 231])) tagInfoNoOverride) [6, 1, 0x37] ∧
    parseOid [0x37] = some [1, 15] := by
  have h1 := prepends_oid (mkOid [2, 999]) tagInfoNoOverride (by decide)
  have h2 := prepends_oid (mkOid [2, 231]) tagInfoNoOverride (by decide)
  refine ⟨⟨2, 999, [], by decide, by omega, by omega⟩, ⟨2, 231, [], by decide, by omega, by omega⟩, ?_, ?_, by decide +kernel⟩
  · exact h1.congr (by decide +kernel)
  · exact h2.congr (by decide +kernel)

/-- **C15.** Values that cannot be rendered become `05 00`, whatever the tag override, in every stream state, and nothing out
of bounds is read (`Prepends` excludes undefined behaviour). -/
theorem C15_null_fallback (ti : TagInfo) :
    Prepends (asn1ObjectIdentifier none ti) [5, 0] ∧
    (∀ oid : Oid, 10 < oid.elemCount.toNat → Prepends (asn1ObjectIdentifier (some oid) ti) [5, 0]) ∧
    (∀ size le tc, Prepends (asn1Integer ⟨size, none⟩ le tc ti) [5, 0]) ∧
    Prepends (asn1GeneralizedTime none ti) [5, 0] :=
  ⟨prepends_oid_null none ti (by intro o h; cases h),
   fun oid h => prepends_oid_null (some oid) ti (by intro o ho; cases ho; exact h),
   fun _ _ _ => prepends_null tagInfoNoOverride,
   prepends_generalizedTime_null ti⟩

/-- Non-vacuity of C15: an OID claiming 2^32 - 1 elements. -/
example : asn1ObjectIdentifier (some ⟨0xffffffff, (mkOid [1, 2]).elements⟩) (tagInfoExplicit 3)
    (some (streamInit (some [1, 1]) 2)) = .ok ((), some ⟨some [5, 0], 2, 2, false, false⟩) := by decide +kernel

/-! ## C16, C17 -/

/-- **C16.** String-like values are rendered verbatim with their universal tag. -/
theorem C16_strings (s : Option Slice) (hv : ∀ x, s = some x → x.Valid) :
    Prepends (asn1OctetString s tagInfoNoOverride) (tlv 0 false 4 (optBytes s)) ∧
    Prepends (asn1PrintableString s tagInfoNoOverride) (tlv 0 false 19 (optBytes s)) ∧
    Prepends (asn1Utf8String s tagInfoNoOverride) (tlv 0 false 12 (optBytes s)) ∧
    (∀ x, s = some x → Prepends (asn1GeneralizedTime s tagInfoNoOverride) (tlv 0 false 24 x.bytes)) :=
  ⟨prepends_octetString s _ hv, prepends_printableString s _ hv, prepends_utf8String s _ hv,
   fun x hx => by subst hx; exact prepends_generalizedTime x _ (hv x rfl)⟩

/-- **C16.** What the bytes are: the `size` bytes at the pointer, none for NULL. -/
theorem C16_bytes (size : UInt64) (p : Ptr) :
    optBytes none = [] ∧ optBytes (some ⟨size, none⟩) = [] ∧ optBytes (some ⟨size, some p⟩) = p.data.take size.toNat :=
  ⟨rfl, rfl, rfl⟩

/-- Non-vacuity of C16. -/
example : asn1Utf8String (some ⟨3, some ⟨[], [0x61, 0x62, 0x63, 0x64]⟩⟩) tagInfoNoOverride
    (some (streamInit (some (List.replicate 5 0)) 5)) =
      .ok ((), some ⟨some [12, 3, 0x61, 0x62, 0x63], 5, 5, false, false⟩) ∧
    asn1Utf8String (some ⟨3, none⟩) tagInfoNoOverride (some (streamInit (some [1, 1]) 2)) =
      .ok ((), some ⟨some [12, 0], 2, 2, false, false⟩) := by constructor <;> decide +kernel

/-- **C17.** BOOLEAN and NULL. -/
theorem C17_boolean_null :
    Prepends (asn1Boolean true tagInfoNoOverride) [0x01, 0x01, 0xff] ∧
    Prepends (asn1Boolean false tagInfoNoOverride) [0x01, 0x01, 0x00] ∧
    Prepends (asn1Null tagInfoNoOverride) [0x05, 0x00] :=
  ⟨(prepends_boolean true _).congr (by decide +kernel), (prepends_boolean false _).congr (by decide +kernel),
   (prepends_null _).congr (by decide +kernel)⟩

/-- **C17.** With overrides. -/
theorem C17_boolean_null_overrides (v : Bool) (t : UInt32) :
    Prepends (asn1Boolean v ⟨.implicit, t⟩) (identifierOctets 2 false t.toNat ++ [1, if v then 0xff else 0]) ∧
    Prepends (asn1Null ⟨.implicit, t⟩) (identifierOctets 2 false t.toNat ++ [0]) ∧
    Prepends (asn1Boolean v ⟨.explicit, t⟩) (identifierOctets 2 true t.toNat ++ [3, 1, 1, if v then 0xff else 0]) ∧
    Prepends (asn1Null ⟨.explicit, t⟩) (identifierOctets 2 true t.toNat ++ [2, 5, 0]) := by
  refine ⟨(prepends_boolean v _).congr ?_, (prepends_null _).congr ?_, (prepends_boolean v _).congr ?_,
    (prepends_null _).congr ?_⟩
  · show identifierOctets 2 false t.toNat ++ lengthOctets 1 ++ _ = _
    rw [List.append_assoc]; rfl
  · show identifierOctets 2 false t.toNat ++ lengthOctets 0 ++ [] = _
    rw [List.append_assoc]; rfl
  · show identifierOctets 2 true t.toNat ++ lengthOctets _ ++ _ = _
    rw [List.append_assoc]; cases v <;> rfl
  · show identifierOctets 2 true t.toNat ++ lengthOctets _ ++ _ = _
    rw [List.append_assoc]; rfl

/-- Non-vacuity of C17. -/
example : asn1Boolean true (tagInfoExplicit 31) (some (streamInit (some (List.replicate 6 0)) 6)) =
    .ok ((), some ⟨some [0xbf, 31, 3, 1, 1, 0xff], 6, 6, false, false⟩) := by decide +kernel

/-! ## C18 -/

theorem oidEqualsLoop_eq (a b : Oid) (rem : Nat) : ∀ i, i + rem ≤ 10 →
    oidEqualsLoop a b i rem = .ok (decide ((a.elements.toList.drop i).take rem = (b.elements.toList.drop i).take rem)) := by
  induction rem with
  | zero => intro i _; simp [oidEqualsLoop]; rfl
  | succ rem ih =>
    intro i hi
    rw [oidEqualsLoop, a.element_ok i (by omega), b.element_ok i (by omega)]
    show (if a.elements[i] ≠ b.elements[i] then Pure.pure false else oidEqualsLoop a b (i + 1) rem : Except UB Bool) = _
    have hla : i < a.elements.toList.length := by simp; omega
    have hlb : i < b.elements.toList.length := by simp; omega
    rw [List.drop_eq_getElem_cons hla, List.drop_eq_getElem_cons hlb, List.take_succ_cons, List.take_succ_cons]
    have ea : a.elements.toList[i] = a.elements[i] := by simp
    have eb : b.elements.toList[i] = b.elements[i] := by simp
    rw [ea, eb]
    by_cases h : a.elements[i] = b.elements[i]
    · rw [if_neg (by simpa using h), ih (i + 1) (by omega)]
      simp [h]
    · rw [if_pos h]; simp [h]; rfl

/-- **C18.** Comparison is equality of the arcs, without undefined behaviour. -/
theorem C18_oid_equals (a b : Option Oid) (ha : ∀ o, a = some o → o.elemCount.toNat ≤ 10)
    (hb : ∀ o, b = some o → o.elemCount.toNat ≤ 10) :
    ∃ r, oidEquals a b = .ok r ∧ (r = true ↔ a.map Oid.arcs = b.map Oid.arcs) := by
  cases a with
  | none =>
    cases b with
    | none => exact ⟨true, rfl, by simp⟩
    | some b => exact ⟨false, rfl, by simp⟩
  | some a =>
    cases b with
    | none => exact ⟨false, rfl, by simp⟩
    | some b =>
      have ha := ha a rfl
      have hb := hb b rfl
      have hlen : ∀ o : Oid, o.elemCount.toNat ≤ 10 → o.arcs.length = o.elemCount.toNat := by
        intro o ho; simp [Oid.arcs]; omega
      by_cases h : a.elemCount = b.elemCount
      · refine ⟨decide (a.elements.toList.take a.elemCount.toNat = b.elements.toList.take a.elemCount.toNat), ?_, ?_⟩
        · unfold oidEquals
          simp only [if_neg (show ¬ a.elemCount ≠ b.elemCount by simpa using h)]
          exact oidEqualsLoop_eq a b _ 0 (by omega)
        · simp only [decide_eq_true_eq, Option.map_some, Option.some.injEq, Oid.arcs, ← h]
          constructor
          · intro e; rw [e]
          · intro e
            exact (List.map_inj_right (f := UInt32.toNat) (fun x y hxy => UInt32.toNat_inj.1 hxy)).1 e
      · refine ⟨false, ?_, ?_⟩
        · unfold oidEquals
          simp only [if_pos (show a.elemCount ≠ b.elemCount from h)]; rfl
        · simp only [Bool.false_eq_true, Option.map_some, Option.some.injEq, false_iff]
          intro e
          apply h
          apply UInt32.toNat_inj.1
          rw [← hlen a ha, ← hlen b hb, e]

/-- **C18.** Comparison is an equivalence relation. -/
theorem C18_equivalence (a b c : Option Oid) (ha : ∀ o, a = some o → o.elemCount.toNat ≤ 10)
    (hb : ∀ o, b = some o → o.elemCount.toNat ≤ 10) (hc : ∀ o, c = some o → o.elemCount.toNat ≤ 10) :
    oidEquals a a = .ok true ∧ oidEquals a b = oidEquals b a ∧
    (oidEquals a b = .ok true → oidEquals b c = .ok true → oidEquals a c = .ok true) := by
  obtain ⟨raa, eaa, haa⟩ := C18_oid_equals a a ha ha
  obtain ⟨rab, eab, hab⟩ := C18_oid_equals a b ha hb
  obtain ⟨rba, eba, hba⟩ := C18_oid_equals b a hb ha
  obtain ⟨rbc, ebc, hbc⟩ := C18_oid_equals b c hb hc
  obtain ⟨rac, eac, hac⟩ := C18_oid_equals a c ha hc
  refine ⟨by rw [eaa, haa.2 rfl], ?_, ?_⟩
  · rw [eab, eba]
    congr 1
    rw [Bool.eq_iff_iff, hab, hba]
    exact eq_comm
  · intro h1 h2
    rw [eab] at h1; rw [ebc] at h2
    cases h1; cases h2
    rw [eac, hac.2 ((hab.1 rfl).trans (hbc.1 rfl))]

/-- Beyond the array the comparison loop reads out of bounds exactly if it has found no difference before. -/
theorem oidEqualsLoop_oob (a b : Oid) : ∀ n i, i + n = 10 → ∀ m, oidEqualsLoop a b i (n + m + 1) =
    if a.elements.toList.drop i = b.elements.toList.drop i then .error .oobRead else .ok false := by
  intro n
  induction n with
  | zero =>
    intro i hi m
    have h10 : i = 10 := by omega
    subst h10
    have hd : ∀ o : Oid, o.elements.toList.drop 10 = [] := fun o => List.drop_eq_nil_of_le (by simp)
    have he : ∀ o : Oid, o.element 10 = .error .oobRead := fun o => by rw [Oid.element, Vector.getElem?_eq_none (by omega)]
    rw [if_pos ((hd a).trans (hd b).symm), oidEqualsLoop, he a]
    rfl
  | succ n ih =>
    intro i hi m
    rw [show n + 1 + m + 1 = (n + m + 1) + 1 from by omega, oidEqualsLoop, a.element_ok i (by omega), b.element_ok i (by omega)]
    show (if a.elements[i] ≠ b.elements[i] then Pure.pure false else oidEqualsLoop a b (i + 1) (n + m + 1) : Except UB Bool) = _
    have hla : i < a.elements.toList.length := by simp; omega
    have hlb : i < b.elements.toList.length := by simp; omega
    rw [List.drop_eq_getElem_cons hla, List.drop_eq_getElem_cons hlb]
    have ea : a.elements.toList[i] = a.elements[i] := by simp
    have eb : b.elements.toList[i] = b.elements[i] := by simp
    rw [ea, eb]
    by_cases h : a.elements[i] = b.elements[i]
    · rw [if_neg (by simpa using h), ih (i + 1) (by omega) m]
      simp [h]
    · rw [if_pos h]; simp [h]; rfl

/-- **C18.** The restriction on the element counts is necessary: exactly if two OIDs claim the same number of more than 10 elements
and agree on the 10 that they have, memory behind them is read. -/
theorem C18_unchecked_count (a b : Oid) : oidEquals (some a) (some b) = .error .oobRead ↔
    a.elemCount = b.elemCount ∧ 10 < a.elemCount.toNat ∧ a.elements = b.elements := by
  unfold oidEquals
  by_cases h : a.elemCount = b.elemCount
  · simp only [if_neg (show ¬ a.elemCount ≠ b.elemCount by simpa using h)]
    by_cases hc : 10 < a.elemCount.toNat
    · obtain ⟨m, hm⟩ : ∃ m, a.elemCount.toNat = 10 + m + 1 := ⟨a.elemCount.toNat - 11, by omega⟩
      rw [hm, oidEqualsLoop_oob a b 10 0 rfl m]
      simp only [List.drop_zero, Vector.toList_inj]
      constructor
      · intro e
        refine ⟨h, by omega, ?_⟩
        by_cases he : a.elements = b.elements
        · exact he
        · rw [if_neg he] at e; cases e
      · intro e; rw [if_pos e.2.2]
    · rw [oidEqualsLoop_eq a b _ 0 (by omega)]
      constructor
      · intro e; cases e
      · intro e; exact absurd e.2.1 hc
  · simp only [if_pos (show a.elemCount ≠ b.elemCount from h)]
    constructor
    · intro e; cases e
    · intro e; exact absurd e.1 h

/-- Two equal OIDs claiming 11 elements. -/
example : oidEquals (some ⟨11, (mkOid [1]).elements⟩) (some ⟨11, (mkOid [1]).elements⟩) = .error .oobRead := by
  decide +kernel

/-- Non-vacuity of C18: equal arcs in different objects (the unused elements differ), and a real difference. -/
example : oidEquals (some ⟨2, (mkOid [2, 5, 7]).elements⟩) (some (mkOid [2, 5])) = .ok true ∧
    oidEquals (some (mkOid [2, 5])) (some (mkOid [2, 5, 0])) = .ok false ∧ oidEquals none none = .ok true := by decide

end Nat20
