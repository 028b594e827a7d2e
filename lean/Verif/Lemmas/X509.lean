import Verif.Props.Asn1
import Verif.Spec.X509
/-!
# Lemmas about the X.509 renderers
-/

namespace Nat20

open Der Pki

/-! ## Composition -/

theorem Prepends.encodeAll_nil {w : W Unit} (h : Prepends w []) : Prepends w (encodeAll []) := h

/-- An element written in front of a list of elements. -/
theorem Prepends.consDer {w1 w2 : W Unit} {ds : List Der} {d : Der} (h1 : Prepends w1 (encodeAll ds))
    (h2 : Prepends w2 d.encode) : Prepends (do w1; w2) (encodeAll (d :: ds)) :=
  h1.bind h2

theorem Prepends.appendDers {w1 w2 : W Unit} {ds es : List Der} (h1 : Prepends w1 (encodeAll ds))
    (h2 : Prepends w2 (encodeAll es)) : Prepends (do w1; w2) (encodeAll (es ++ ds)) :=
  (h1.bind h2).congr (encodeAll_append es ds).symm

theorem Prepends.singleDer {w : W Unit} {d : Der} (h : Prepends w d.encode) : Prepends w (encodeAll [d]) :=
  h.congr (by simp [encodeAll])

theorem prepends_sequence {cb : W Unit} {ds : List Der} (h : Prepends cb (encodeAll ds)) :
    Prepends (asn1Sequence (some cb) tagInfoNoOverride) (sequence ds).encode :=
  prepends_hwc classUniversal true 0x10 (by decide) h tagInfoNoOverride

theorem prepends_whenW (c : Bool) {w : W Unit} {b : Bytes} (h : Prepends w b) :
    Prepends (whenW c w) (if c then b else []) := by
  cases c
  · exact Prepends.pure
  · exact h

theorem prepends_whenDer (c : Bool) {w : W Unit} {d : Der} (h : c = true → Prepends w d.encode) :
    Prepends (whenW c w) (encodeAll (if c then [d] else [])) := by
  cases c
  · exact Prepends.pure
  · exact (h rfl).singleDer

/-- Content, then a header around it. -/
theorem prepends_markHeader (cls : UInt8) (hc : cls.toNat < 4) (constructed : Bool) (tag : UInt32) {w : W Unit}
    {content : Bytes} (h : Prepends w content) :
    Prepends (do let mark ← byteCount; w; let count ← byteCount; asn1Header cls constructed tag (count - mark))
      (tlv cls.toNat constructed tag.toNat content) := by
  refine (prepends_counted (g := fun n => asn1Header cls constructed tag n)
    (hdr := fun n => identifierOctets cls.toNat constructed tag.toNat ++ lengthOctets n) h
    (fun n => prepends_header cls constructed tag n hc)).congr ?_
  rfl

/-! ## OIDs -/

theorem prepends_oidDer (o : Option Oid) :
    Prepends (asn1ObjectIdentifier o tagInfoNoOverride) (oidDer (oidValue o)).encode := by
  cases o with
  | none => exact prepends_oid_null none _ (by intro o h; cases h)
  | some o =>
    unfold oidValue
    simp only
    by_cases hc : 10 < o.elemCount.toNat
    · rw [if_pos hc]
      exact prepends_oid_null (some o) _ (by intro o h; cases h; exact hc)
    · rw [if_neg hc]
      exact prepends_oid o tagInfoNoOverride (by omega)

theorem oidEquals_serial (o : Option Oid) :
    oidEquals o (some OID_SERIAL_NUMBER) = .ok (decide (oidValue o = some serialNumberArcs)) := by
  have hs : OID_SERIAL_NUMBER.elemCount.toNat = 4 := by decide
  have hsa : OID_SERIAL_NUMBER.arcs = serialNumberArcs := by decide
  cases o with
  | none => rfl
  | some o =>
    by_cases hc : 10 < o.elemCount.toNat
    · have hne : o.elemCount ≠ OID_SERIAL_NUMBER.elemCount := by
        intro he; rw [he] at hc; omega
      unfold oidEquals oidValue
      simp only [if_pos hne, if_pos hc]
      rfl
    · obtain ⟨r, h1, h2⟩ := C18_oid_equals (some o) (some OID_SERIAL_NUMBER) (by intro x hx; cases hx; omega)
        (by intro x hx; cases hx; omega)
      rw [h1]
      congr 1
      rw [Bool.eq_iff_iff, h2, decide_eq_true_eq]
      unfold oidValue
      simp only [if_neg hc, Option.map_some, hsa]

/-! ## Names -/

theorem nibble_hex (c : UInt8) :
    readElement nibble2ascii (c >>> 4).toNat = .ok (hexDigit (c.toNat / 16)) ∧
    readElement nibble2ascii (c &&& 0x0f).toNat = .ok (hexDigit (c.toNat % 16)) := by
  have : ∀ i : Fin 256, readElement nibble2ascii ((UInt8.ofNat i.val) >>> 4).toNat = .ok (hexDigit ((UInt8.ofNat i.val).toNat / 16)) ∧
      readElement nibble2ascii ((UInt8.ofNat i.val) &&& 0x0f).toNat = .ok (hexDigit ((UInt8.ofNat i.val).toNat % 16)) := by
    decide +kernel
  have h := this ⟨c.toNat, c.toNat_lt⟩
  simpa using h

theorem hexString_append (a b : Bytes) : hexString (a ++ b) = hexString a ++ hexString b := by simp [hexString]

theorem prepends_serialHexLoop (p : Ptr) (k : Nat) (h : k ≤ p.data.length) :
    Prepends (serialHexLoop p k) (hexString (p.data.take k)) := by
  induction k with
  | zero => exact Prepends.pure
  | succ k ih =>
    have hr : p.read k = .ok (p.data[k]'(by omega)) := by
      unfold Ptr.read
      rw [if_pos (by omega)]
      simp only [Int.toNat_natCast]
      rw [List.getElem?_eq_getElem (by omega)]
    rw [serialHexLoop]
    obtain ⟨h1, h2⟩ := nibble_hex (p.data[k]'(by omega))
    refine Prepends.lift_bind hr (Prepends.lift_bind h1 (Prepends.lift_bind h2 ?_))
    refine ((prepends_local [_, _] (by simp)).bind (ih (by omega))).congr ?_
    rw [List.take_succ_eq_append_getElem (by omega), hexString_append]
    rfl

theorem prepends_serialHex (s : Slice) (hv : s.Valid) :
    Prepends (serialHexString (some s) tagInfoNoOverride) (printableString (hexString s.bytes)).encode := by
  refine prepends_hwc classUniversal false 0x13 (by decide) ?_ tagInfoNoOverride
  obtain ⟨size, buf⟩ := s
  cases buf with
  | none => exact Prepends.pure
  | some p => exact prepends_serialHexLoop p size.toNat (hv p rfl)

theorem prepends_rdn (r : Rdn) (hv : r.value.Valid) : Prepends (x509Rdn r) (attributeValue r).der.encode := by
  unfold x509Rdn
  refine prepends_markHeader classUniversal (by decide) true 0x11 (content := encodeAll [sequence _]) ?_
  refine Prepends.singleDer (prepends_sequence ?_)
  unfold rdnContent
  refine Prepends.lift_bind (oidEquals_serial r.type) ?_
  refine Prepends.consDer (ds := [printableString (attributeValue r).value]) (Prepends.singleDer ?_) (prepends_oidDer r.type)
  unfold rdnValue attributeValue
  by_cases hs : oidValue r.type = some serialNumberArcs
  · simp only [hs, decide_true, if_true]
    exact prepends_serialHex r.value hv
  · simp only [hs, decide_false, if_false]
    exact prepends_printableString (some r.value) tagInfoNoOverride (by intro s hs; cases hs; exact hv)

theorem readElement_ok {α : Type} (l : List α) (k : Nat) (h : k < l.length) : readElement l k = .ok (l[k]) := by
  unfold readElement; rw [List.getElem?_eq_getElem h]

theorem prepends_nameLoop (l : List Rdn) (k : Nat) (hk : k ≤ l.length) (h : ∀ r ∈ l.take k, r.value.Valid) :
    Prepends (nameLoop l k) (encodeAll (((l.take k).map attributeValue).map Attribute.der)) := by
  induction k with
  | zero => exact Prepends.pure
  | succ k ih =>
    have ht := List.take_succ_eq_append_getElem (l := l) (i := k) (by omega)
    rw [nameLoop]
    refine Prepends.lift_bind (readElement_ok l k (by omega)) ?_
    rw [ht] at h ⊢
    rw [List.map_append, List.map_append]
    refine Prepends.appendDers ?_ (ih (by omega) (fun r hr => h r (List.mem_append_left _ hr)))
    exact Prepends.singleDer (prepends_rdn _ (h _ (List.mem_append_right _ (List.mem_singleton_self _))))

theorem prepends_name (n : Option Name) (h : ∀ x, n = some x → NameArg x) :
    Prepends (x509Name n) (nameDer (nameValue n)).encode := by
  unfold x509Name
  cases n with
  | none => exact prepends_sequence (ds := [null]) (Prepends.singleDer (prepends_null tagInfoNoOverride))
  | some n =>
    unfold nameValue nameContent
    have e8 : (n.elementCount > 8) ↔ 8 < n.elementCount.toNat := UInt64.lt_iff_toNat_lt
    simp only [e8]
    by_cases hc : 8 < n.elementCount.toNat
    · simp only [if_pos hc]
      exact prepends_sequence (ds := [null]) (Prepends.singleDer (prepends_null tagInfoNoOverride))
    · simp only [if_neg hc]
      exact prepends_sequence (prepends_nameLoop _ _ (by simp; omega) (h n rfl (by omega)))

/-! ## Extensions -/

theorem prepends_callContent (e : Extension) (content : Bytes) (h : Renders e content) :
    Prepends (callContent e.contentCb) content := by
  unfold Renders at h
  cases hc : e.contentCb with
  | none => rw [hc] at h; simp only at h; subst h; exact Prepends.pure
  | some cb => rw [hc] at h; exact h

/-- A header around what was written since `mark`, with more elements in front of it and a second header around all. -/
theorem prepends_nested {w v : W Unit} {g1 g2 : UInt64 → W Unit} {content front : Bytes} {h1 h2 : Nat → Bytes}
    (hw : Prepends w content) (hv : Prepends v front)
    (hg1 : ∀ n : UInt64, Prepends (g1 n) (h1 n.toNat)) (hg2 : ∀ n : UInt64, Prepends (g2 n) (h2 n.toNat)) :
    Prepends (do
        let mark ← byteCount
        w
        let count ← byteCount
        g1 (count - mark)
        v
        let count ← byteCount
        g2 (count - mark))
      (h2 (front ++ (h1 content.length ++ content)).length ++ (front ++ (h1 content.length ++ content))) := by
  have inner := prepends_counted hw hg1
  have all := prepends_counted (inner.bind hv) hg2
  simp only [bind_assoc] at all
  exact all

theorem prepends_extensionItem (e : Extension) (content : Bytes) (hr : Renders e content) :
    Prepends (extensionItem e) (Ext.der ⟨oidValue e.oid, e.critical, content⟩).encode := by
  have hv : Prepends (do
      whenW e.critical (asn1Boolean true tagInfoNoOverride)
      asn1ObjectIdentifier e.oid tagInfoNoOverride)
      (encodeAll (oidDer (oidValue e.oid) :: (if e.critical then [boolean true] else []))) :=
    Prepends.consDer (prepends_whenDer e.critical fun _ => prepends_boolean true tagInfoNoOverride) (prepends_oidDer e.oid)
  have := prepends_nested (g1 := fun n => asn1Header classUniversal false 0x4 n)
    (g2 := fun n => asn1Header classUniversal true 0x10 n)
    (h1 := fun n => identifierOctets classUniversal.toNat false (0x4 : UInt32).toNat ++ lengthOctets n)
    (h2 := fun n => identifierOctets classUniversal.toNat true (0x10 : UInt32).toNat ++ lengthOctets n)
    (prepends_callContent e content hr) hv
    (fun n => prepends_header classUniversal false 0x4 n (by decide))
    (fun n => prepends_header classUniversal true 0x10 n (by decide))
  have hw : extensionItem e = (do
        let mark ← byteCount
        callContent e.contentCb
        let count ← byteCount
        asn1Header classUniversal false 0x4 (count - mark)
        (do
          whenW e.critical (asn1Boolean true tagInfoNoOverride)
          asn1ObjectIdentifier e.oid tagInfoNoOverride)
        let count ← byteCount
        asn1Header classUniversal true 0x10 (count - mark)) := by
    unfold extensionItem
    simp only [bind_assoc]
  rw [hw]
  refine this.congr ?_
  have e1 : encodeAll (oidDer (oidValue e.oid) :: (if e.critical then [boolean true] else [])) ++
      (identifierOctets 0 false 4 ++ lengthOctets content.length ++ content)
      = encodeAll (oidDer (oidValue e.oid) :: ((if e.critical then [boolean true] else []) ++ [octetString content])) := by
    rw [← List.cons_append, encodeAll_append]
    congr 1
    simp [encodeAll, octetString, Der.encode, tlv]
  have e0 : classUniversal.toNat = 0 := rfl
  have e4 : (0x4 : UInt32).toNat = 4 := rfl
  rw [e0, e4, e1]
  rfl

theorem prepends_extensionLoop (content : Extension → Bytes) (l : List Extension) (k : Nat) (hk : k ≤ l.length)
    (h : ∀ x ∈ l.take k, Renders x (content x)) :
    Prepends (extensionLoop l k) (encodeAll (((l.take k).map (extValue content)).map Ext.der)) := by
  induction k with
  | zero => exact Prepends.pure
  | succ k ih =>
    have ht := List.take_succ_eq_append_getElem (l := l) (i := k) (by omega)
    rw [extensionLoop]
    refine Prepends.lift_bind (readElement_ok l k (by omega)) ?_
    rw [ht] at h ⊢
    rw [List.map_append, List.map_append]
    refine Prepends.appendDers ?_ (ih (by omega) (fun r hr => h r (List.mem_append_left _ hr)))
    exact Prepends.singleDer (prepends_extensionItem _ _ (h (l[k]) (List.mem_append_right _ (List.mem_singleton_self _))))

theorem prepends_extension (content : Extension → Bytes) (e : Extensions) (h : ExtensionsArg content e) :
    Prepends (x509Extension (some e)) (encodeAll (extensionsDers (extensionsValue content e))) := by
  obtain ⟨count, exts⟩ := e
  unfold x509Extension extensionsValue
  simp only
  cases exts with
  | none => exact Prepends.pure
  | some l =>
    by_cases hc : count = 0
    · subst hc
      simp only [Option.isNone_some, Bool.false_eq_true, false_or, if_true]
      exact Prepends.pure
    · have hc' : count.toNat ≠ 0 := by
        intro h0; exact hc (UInt64.toNat_inj.1 h0)
      simp only [Option.isNone_some, Bool.false_eq_true, false_or, if_neg hc]
      obtain ⟨hl, hx⟩ := h l rfl
      simp only at hl hx
      have hloop := prepends_extensionLoop content l count.toNat hl hx
      have hne : (l.take count.toNat).map (extValue content) ≠ [] := by
        intro h0
        have := congrArg List.length h0
        rw [List.length_map, List.length_take, List.length_nil] at this; omega
      generalize (l.take count.toNat).map (extValue content) = vs at hloop hne ⊢
      have e : extensionsDers vs = [.cons 2 3 [sequence (vs.map Ext.der)]] := by
        cases vs with
        | nil => exact absurd rfl hne
        | cons a b => rfl
      rw [e]
      refine Prepends.singleDer ?_
      refine (prepends_hwc classUniversal true 0x10 (by decide) hloop (tagInfoExplicit 3)).congr ?_
      simp only [Der.encode, encodeAll, List.append_nil, sequence]
      rfl

/-! ## The other fields -/

theorem prepends_params (a : AlgorithmIdentifier) :
    Prepends (algorithmParams a) (encodeAll (paramsValue a).ders) := by
  unfold algorithmParams paramsValue
  by_cases h1 : a.variant = 1
  · simp only [if_pos h1]
    exact Prepends.singleDer (prepends_null tagInfoNoOverride)
  · simp only [if_neg h1]
    by_cases h2 : a.variant = 2
    · simp only [if_pos h2]
      have := prepends_oidDer a.ecCurve
      cases hv : oidValue a.ecCurve with
      | none => rw [hv] at this; exact Prepends.singleDer this
      | some arcs => rw [hv] at this; exact Prepends.singleDer this
    · simp only [if_neg h2]
      exact Prepends.pure

theorem prepends_algorithm (a : AlgorithmIdentifier) :
    Prepends (x509AlgorithmIdentifier (some a)) (algorithmValue a).der.encode :=
  prepends_sequence (Prepends.consDer (prepends_params a) (prepends_oidDer a.oid))

theorem prepends_bits (p : Option Ptr) (bits : UInt64) (h : BitsArg p bits) :
    Prepends (asn1Bitstring p bits tagInfoNoOverride) (bitString (bitsValue p bits)).encode := by
  cases p with
  | none => exact prepends_bitstring_null bits tagInfoNoOverride
  | some q => exact prepends_bitstring q bits tagInfoNoOverride (h q rfl).1 (h q rfl).2

theorem prepends_spki (k : PublicKeyInfo) (h : SpkiArg k) :
    Prepends (x509PublicKeyInfo (some k)) (spkiValue k).der.encode :=
  prepends_sequence (Prepends.consDer (Prepends.singleDer (prepends_bits _ _ h)) (prepends_algorithm _))

theorem prepends_time (s d : Slice) (text : Bytes) (hv : s.Valid) (hd : d.Valid) (ht : d.bytes = text) :
    Prepends (asn1GeneralizedTime (some (if s.buffer ≠ none then s else d)) tagInfoNoOverride)
      (generalizedTime (if s.buffer = none then text else s.bytes)).encode := by
  by_cases h : s.buffer = none
  · rw [if_neg (by simpa using h), if_pos h, ← ht]
    exact prepends_generalizedTime d tagInfoNoOverride hd
  · rw [if_pos h, if_neg h]
    exact prepends_generalizedTime s tagInfoNoOverride hv

theorem prepends_validity (v : Validity) (h : ValidityArg v) :
    Prepends (x509Validity (some v)) (periodValue v).der.encode := by
  refine prepends_sequence ?_
  refine Prepends.consDer (Prepends.singleDer ?_) ?_
  · exact prepends_time _ _ _ h.2 (by intro p hp; cases hp; decide) (by decide)
  · exact prepends_time _ _ _ h.1 (by intro p hp; cases hp; decide) (by decide)

theorem prepends_serial (fr : Frame) (s : Slice) (h : SerialArg fr s) :
    Prepends (tbsSerial fr s) (serialDer (serialValue s)).encode := by
  obtain ⟨hv, h0, hn⟩ := h
  unfold tbsSerial serialValue
  by_cases hs : s.size = 0
  · rw [if_pos hs, if_pos hs]
    exact prepends_uint64 fr 0 tagInfoNoOverride (Or.inl (h0 hs))
  · rw [if_neg hs, if_neg hs]
    by_cases hb : s.buffer = none
    · rw [if_pos hb]
      obtain ⟨size, buf⟩ := s
      simp only at hb
      subst hb
      exact prepends_null tagInfoNoOverride
    · rw [if_neg hb]
      refine prepends_integer s false false tagInfoNoOverride hv hb (by intro h; cases h) ?_
      rcases hn hs hb with h | h
      · exact Or.inl h
      · right
        have : s.value false false = (fromBE s.bytes : Int) := rfl
        rw [this]
        omega

theorem prepends_version : Prepends x509Version3 (Der.cons 2 0 [integer 2]).encode :=
  (prepends_local _ (by decide)).congr (by decide +kernel)

theorem prepends_tbs (fr : Frame) (content : Extension → Bytes) (t : Tbs) (h : TbsArg fr content t) :
    Prepends (x509CertTbs fr (some t)) (tbsValue content t).der.encode := by
  refine prepends_sequence ?_
  have h1 := prepends_extension content t.extensions h.extensions
  have h2 := h1.consDer (prepends_spki t.subjectPublicKeyInfo h.spki)
  have h3 := h2.consDer (prepends_name (some t.subjectName) (by intro x hx; cases hx; exact h.subject))
  have h4 := h3.consDer (prepends_validity t.validity h.validity)
  have h5 := h4.consDer (prepends_name (some t.issuerName) (by intro x hx; cases hx; exact h.issuer))
  have h6 := h5.consDer (prepends_algorithm t.signatureAlgorithm)
  have h7 := h6.consDer (prepends_serial fr t.serialNumber h.serial)
  have h8 := h7.consDer prepends_version
  simp only [bind_assoc] at h8
  exact h8

theorem prepends_tbsDer (fr : Frame) (content : Extension → Bytes) (t : Option Tbs)
    (h : ∀ x, t = some x → TbsArg fr content x) :
    Prepends (x509CertTbs fr t) (tbsDer (t.map (tbsValue content))).encode := by
  cases t with
  | none => exact prepends_sequence (ds := []) Prepends.pure
  | some t => exact prepends_tbs fr content t (h t rfl)

theorem prepends_cert (fr : Frame) (content : Extension → Bytes) (x : X509) (h : CertArg fr content x) :
    Prepends (x509Cert fr (some x)) (certValue content x).der.encode := by
  refine prepends_sequence ?_
  have h1 := (prepends_bits x.signature x.signatureBits h.signature).singleDer
  have h2 := h1.consDer (prepends_algorithm x.signatureAlgorithm)
  have h3 := h2.consDer (prepends_tbsDer fr content x.tbs h.tbs)
  simp only [bind_assoc] at h3
  exact h3

end Nat20
