import Verif.Lemmas.SizedAll
/-!
# Certificates and DICE extensions with another `size_t`
-/

namespace Nat20.Sized

variable {w k : Nat} {p : Prop}

theorem sim_when (c : Bool) {f : W w Unit} {g : Nat20.W Unit} (h : Sim1 w p k f g) : Sim1 w p k (whenW c f) (Nat20.whenW c g) :=
  sim_ite (fun _ => h) fun _ => sim_done

/-- Reading elements of corresponding arrays. -/
theorem sim_element {α β : Type} (l : List α) (l' : List β) (i : Nat) (hl : l.length = l'.length) {f : α → W w Unit} {g : β → Nat20.W Unit}
    (h : ∀ (h : i < l.length) (h' : i < l'.length), Sim1 w p k (f l[i]) (g l'[i])) :
    Sim1 w p k ((liftM (readElement l i) : W w α) >>= f) ((liftM (readElement l' i) : Nat20.W β) >>= g) := by
  by_cases hi : i < l.length
  · have e : readElement l i = .ok l[i] := by simp [readElement, hi]
    have e' : readElement l' i = .ok (l'[i]'(hl ▸ hi)) := by simp [readElement, hl ▸ hi]
    rw [e, e']
    exact h hi (hl ▸ hi)
  · have e : readElement l i = .error .oobRead := by simp [readElement, hi]
    have e' : readElement l' i = .error .oobRead := by simp [readElement, hl ▸ hi]
    rw [e, e']
    exact sim_error _

variable (hw : w ≤ 64) (hw' : 16 ≤ w)
include hw hw'

theorem sim_serialHexLoop (ptr : Ptr) (i : Nat) : Sim1 w p k (serialHexLoop ptr i) (Nat20.serialHexLoop ptr i) := by
  induction i with
  | zero => exact sim_done
  | succ i ih =>
    rw [serialHexLoop, Nat20.serialHexLoop]
    exact sim_read _ fun c => sim_read _ fun hi => sim_read _ fun lo => sim_then (sim_prependLocal hw hw' _ _ (fun _ => rfl) (by simp) (by simp)) ih

theorem sim_serialHex (s : Option (Slice w)) (tagInfo : TagInfo) : Sim1 w p k (serialHexString s tagInfo) (Nat20.serialHexString (s.map Slice.wide) tagInfo) := by
  refine sim_content hw hw' _ _ _ (fun p k => ?_) _
  match s with
  | none => exact sim_done
  | some ⟨_, none⟩ => exact sim_done
  | some ⟨size, some ptr⟩ =>
    show Sim1 w p k (serialHexLoop ptr size.toNat) (Nat20.serialHexLoop ptr (toUInt64 size).toNat)
    rw [toUInt64_toNat hw]
    exact sim_serialHexLoop hw hw' _ _

theorem sim_rdn (r : Rdn w) : Sim1 w p k (x509Rdn r) (Nat20.x509Rdn r.wide) := by
  unfold x509Rdn Nat20.x509Rdn
  refine sim_mark fun a b => sim_then (sim_content hw hw' _ _ _ (fun p k => ?_) _) (sim_since' hw hw' _ _ _ _ _ And.right)
  unfold rdnContent Nat20.rdnContent
  refine sim_read _ fun serial => sim_then ?_ (sim_oid hw hw' _ _)
  unfold rdnValue Nat20.rdnValue
  exact sim_ite (fun _ => sim_serialHex hw hw' _ _) fun _ => sim_printable hw hw' _ _

theorem sim_nameLoop (l : List (Rdn w)) (n : Nat) : Sim1 w p k (nameLoop l n) (Nat20.nameLoop (l.map Rdn.wide) n) := by
  induction n with
  | zero => exact sim_done
  | succ n ih =>
    rw [nameLoop, Nat20.nameLoop]
    refine sim_element _ _ _ (by simp) fun h h' => ?_
    rw [List.getElem_map]
    exact sim_then (sim_rdn hw hw' _) ih

theorem sim_name (n : Option (Name w)) : Sim1 w p k (x509Name n) (Nat20.x509Name (n.map Name.wide)) := by
  refine sim_content hw hw' _ _ _ (fun p k => ?_) _
  cases n with
  | none => exact sim_null hw hw' _
  | some n =>
    have e : (n.wide.elements).toList = n.elements.toList.map Rdn.wide := Vector.toList_map
    have c : n.wide.elementCount.toNat = n.elementCount.toNat := toUInt64_toNat hw _
    unfold nameContent Nat20.nameContent
    simp only [Option.map_some, e, c]
    refine sim_iff ?_ (fun _ => sim_null hw hw' _) fun _ => sim_nameLoop hw hw' _ _
    rw [gt_iff_lt, gt_iff_lt, BitVec.lt_def, UInt64.lt_iff_toNat_lt, c, show (8 : BitVec w).toNat = 8 from small hw' 8 (by decide)]
    rfl

theorem sim_extensionItem {e : Extension w} {e' : Nat20.Extension} (h : SameExtension e e') : Sim1 w p k (extensionItem e) (Nat20.extensionItem e') := by
  obtain ⟨oid, critical, cb⟩ := e
  obtain ⟨oid', critical', cb'⟩ := e'
  obtain ⟨h1, h2, h3⟩ := h
  dsimp only at h1 h2 h3
  subst h1 h2
  unfold extensionItem Nat20.extensionItem
  refine sim_mark fun a b => sim_then (sim_callContent ?_) (sim_since hw hw' _ _ _ _ _ And.right (sim_then (sim_when _ (sim_boolean hw hw' _ _))
    (sim_then (sim_oid hw hw' _ _) (sim_since' hw hw' _ _ _ _ _ And.right))))
  match cb, cb', h3 with
  | none, none, _ => trivial
  | some f, some g, h => exact fun p k => h.sim

theorem sim_extensionLoop {l : List (Extension w)} {l' : List Nat20.Extension} (hl : l.length = l'.length)
    (h : ∀ i (h : i < l.length) (h' : i < l'.length), SameExtension l[i] l'[i]) (n : Nat) : Sim1 w p k (extensionLoop l n) (Nat20.extensionLoop l' n) := by
  induction n with
  | zero => exact sim_done
  | succ n ih =>
    rw [extensionLoop, Nat20.extensionLoop]
    exact sim_element _ _ _ hl fun h1 h2 => sim_then (sim_extensionItem hw hw' (h _ h1 h2)) ih

theorem sim_extension {e : Extensions w} {e' : Nat20.Extensions} (h : SameExtensions e e') : Sim1 w p k (x509Extension (some e)) (Nat20.x509Extension (some e')) := by
  obtain ⟨count, l⟩ := e
  obtain ⟨count', l'⟩ := e'
  obtain ⟨h1, h2⟩ := h
  dsimp only at h1 h2
  have hz : count = 0 ↔ count' = 0 := by rw [← BitVec.toNat_inj, ← UInt64.toNat_inj, h1]; simp
  unfold x509Extension Nat20.x509Extension
  match l, l', h2 with
  | none, none, _ => exact sim_iff (by simp) (fun _ => sim_done) fun h => absurd (Or.inl rfl) h
  | some l, some l', ⟨hl, h⟩ =>
    refine sim_iff (by rw [hz]; simp) (fun _ => sim_done) fun _ => sim_content hw hw' _ _ _ (fun p k => ?_) _
    unfold extensionContent Nat20.extensionContent
    simp only [h1]
    exact sim_extensionLoop hw hw' hl h _

theorem sim_basicConstraints (fr : Frame) (c : Option BasicConstraints) : Sim1 w p k (basicConstraintsContent fr c) (Nat20.basicConstraintsContent fr c) := by
  cases c with
  | none => exact sim_done
  | some bc =>
    unfold basicConstraintsContent Nat20.basicConstraintsContent
    refine sim_mark fun a b => sim_then ?_ (sim_since' hw hw' _ _ _ _ _ And.right)
    unfold basicConstraintsBody Nat20.basicConstraintsBody
    exact sim_ite (fun _ => sim_then (sim_when _ (sim_uint64 hw hw' _ _ _)) (sim_boolean hw hw' _ _)) fun _ => sim_done

theorem sim_keyUsage (c : Option KeyUsage) : Sim1 w p k (keyUsageContent c) (Nat20.keyUsageContent c) := by
  cases c with
  | none => exact sim_done
  | some ku =>
    have hp16 : 2 ^ 16 ≤ 2 ^ w := Nat.pow_le_pow_right (by decide) hw'
    have hk : (keyUsageBitCount ku).toNat < 256 := (keyUsageBitCount ku).toNat_lt
    refine sim_bitstring hw hw' _ _ _ ?_ (fun _ => ?_) _
    · rw [BitVec.toNat_ofNat, Nat.mod_eq_of_lt (by omega)]
      simp
    · unfold BitsFit
      rw [BitVec.toNat_ofNat, Nat.mod_eq_of_lt (by omega)]
      omega

theorem sim_algorithm (a : Option AlgorithmIdentifier) : Sim1 w p k (x509AlgorithmIdentifier a) (Nat20.x509AlgorithmIdentifier a) := by
  refine sim_content hw hw' _ _ _ (fun p k => ?_) _
  cases a with
  | none => exact sim_done
  | some a =>
    refine sim_then ?_ (sim_oid hw hw' _ _)
    unfold algorithmParams Nat20.algorithmParams
    exact sim_ite (fun _ => sim_null hw hw' _) fun _ => sim_ite (fun _ => sim_oid hw hw' _ _) fun _ => sim_done

theorem sim_publicKeyInfo (i : Option (PublicKeyInfo w)) (h : ∀ x, i = some x → x.publicKey ≠ none → BitsFit x.publicKeyBits) :
    Sim1 w p k (x509PublicKeyInfo i) (Nat20.x509PublicKeyInfo (i.map PublicKeyInfo.wide)) := by
  refine sim_content hw hw' _ _ _ (fun p k => ?_) _
  cases i with
  | none => exact sim_error _
  | some i => exact sim_then (sim_bitstring hw hw' _ _ _ (toUInt64_toNat hw _).symm (h i rfl) _) (sim_algorithm hw hw' _)

theorem sim_validity (v : Option (Validity w)) : Sim1 w p k (x509Validity v) (Nat20.x509Validity (v.map Validity.wide)) := by
  refine sim_content hw hw' _ _ _ (fun p k => ?_) _
  cases v with
  | none => exact sim_error _
  | some v =>
    obtain ⟨⟨n1, b1⟩, ⟨n2, b2⟩⟩ := v
    have e1 : (x509NoExpiration : Slice w).wide = Nat20.x509NoExpiration := wide_small hw' 15 (by decide) _
    have e2 : (x509UnixEpoch : Slice w).wide = Nat20.x509UnixEpoch := wide_small hw' 15 (by decide) _
    refine sim_then ?_ ?_
    · cases b2 with
      | none => show Sim1 w p k (asn1GeneralizedTime (some x509NoExpiration) _) (Nat20.asn1GeneralizedTime (some Nat20.x509NoExpiration) _); rw [← e1]; exact sim_time hw hw' (some _) _
      | some b => exact sim_time hw hw' (some ⟨n2, some b⟩) _
    · cases b1 with
      | none => show Sim1 w p k (asn1GeneralizedTime (some x509UnixEpoch) _) (Nat20.asn1GeneralizedTime (some Nat20.x509UnixEpoch) _); rw [← e2]; exact sim_time hw hw' (some _) _
      | some b => exact sim_time hw hw' (some ⟨n1, some b⟩) _

theorem sim_version : Sim1 w p k x509Version3 Nat20.x509Version3 := sim_prependLocal hw hw' _ _ (fun _ => rfl) (by simp) (by simp)

theorem sim_serial (fr : Frame) (s : Slice w) : Sim1 w p k (tbsSerial fr s) (Nat20.tbsSerial fr s.wide) := by
  unfold tbsSerial Nat20.tbsSerial
  refine sim_iff ?_ (fun _ => sim_uint64 hw hw' _ _ _) fun _ => sim_integer hw hw' _ _ _ _
  rw [← BitVec.toNat_inj, ← UInt64.toNat_inj, show s.wide.size.toNat = s.size.toNat from toUInt64_toNat hw _]
  simp

theorem sim_tbs (fr : Frame) {t : Tbs w} {t' : Nat20.Tbs} (h : SameTbs t t') (hb : t.subjectPublicKeyInfo.publicKey ≠ none → BitsFit t.subjectPublicKeyInfo.publicKeyBits) :
    Sim1 w p k (x509CertTbs fr (some t)) (Nat20.x509CertTbs fr (some t')) := by
  refine sim_content hw hw' _ _ _ (fun p k => ?_) _
  unfold certTbsContent Nat20.certTbsContent
  dsimp only
  rw [h.serialNumber, h.signatureAlgorithm, h.issuerName, h.validity, h.subjectName, h.subjectPublicKeyInfo]
  exact sim_then (sim_extension hw hw' h.extensions) (sim_then (sim_publicKeyInfo hw hw' (some _) fun x hx => by cases hx; exact hb)
    (sim_then (sim_name hw hw' (some _)) (sim_then (sim_validity hw hw' (some _)) (sim_then (sim_name hw hw' (some _))
    (sim_then (sim_algorithm hw hw' _) (sim_then (sim_serial hw hw' _ _) (sim_version hw hw')))))))

theorem sim_cert (fr : Frame) {c : X509 w} {c' : Nat20.X509} (ht : match c.tbs, c'.tbs with | none, none => True | some t, some t' => SameTbs t t' | _, _ => False)
    (ha : c'.signatureAlgorithm = c.signatureAlgorithm) (hs : c'.signature = c.signature) (hn : c'.signatureBits = toUInt64 c.signatureBits)
    (hb : ∀ t, c.tbs = some t → t.subjectPublicKeyInfo.publicKey ≠ none → BitsFit t.subjectPublicKeyInfo.publicKeyBits) (hb' : c.signature ≠ none → BitsFit c.signatureBits) :
    Sim1 w p k (x509Cert fr (some c)) (Nat20.x509Cert fr (some c')) := by
  obtain ⟨tbs, alg, bits, sig⟩ := c
  obtain ⟨tbs', alg', bits', sig'⟩ := c'
  dsimp only at ht ha hs hn hb hb'
  cases ha; cases hs; cases hn
  have h3 : ∀ p k, Sim1 w p k (x509CertTbs fr tbs) (Nat20.x509CertTbs fr tbs') := by
    intro p k
    match tbs, tbs', ht with
    | none, none, _ => exact sim_content hw hw' _ _ _ (f := certTbsContent fr none) (g := Nat20.certTbsContent fr none) (fun p k => sim_done) _
    | some t, some t', ht => exact sim_tbs hw hw' _ ht (hb t rfl)
  have h1 : ∀ p k, Sim1 w p k (asn1Bitstring sig bits tagInfoNoOverride) (Nat20.asn1Bitstring sig (toUInt64 bits) tagInfoNoOverride) :=
    fun p k => sim_bitstring hw hw' sig bits (toUInt64 bits) (toUInt64_toNat hw bits).symm hb' tagInfoNoOverride
  refine sim_content hw hw' _ _ _ (f := certContent fr (some ⟨tbs, _, bits, _⟩)) (g := Nat20.certContent fr (some ⟨tbs', _, _, _⟩)) (fun p k => ?_) _
  exact (sim_then (h1 p k) (sim_then (sim_algorithm hw hw' _) (h3 p k)))

/-! ## `Model/Dice` -/

theorem sim_openDice (fr : Frame) (i : Option (OpenDiceInput w)) : Sim1 w p k (openDiceInputContent fr i) (Nat20.openDiceInputContent fr (i.map OpenDiceInput.wide)) := by
  cases i with
  | none => exact sim_done
  | some i =>
    refine sim_content hw hw' _ _ _ (fun p k => ?_) _
    have o : ∀ (s : Slice w) t p k, Sim1 w p k (whenW s.buffer.isSome (asn1OctetString (some s) t)) (Nat20.whenW s.buffer.isSome (Nat20.asn1OctetString (some s.wide) t)) :=
      fun s t p k => sim_when _ (sim_octetString hw hw' (some s) t)
    exact sim_then (sim_when _ (sim_utf8 hw hw' (some _) _)) (sim_then (sim_uint64 hw hw' _ _ _) (sim_then (o _ _ _ _) (sim_then (o _ _ _ _) (sim_then (o _ _ _ _) (sim_then (o _ _ _ _)
      (sim_then (o _ _ _ _) (o _ _ _ _)))))))

theorem sim_fwidLoop (l : List (Fwid w)) (n : Nat) : Sim1 w p k (fwidLoop l n) (Nat20.fwidLoop (l.map Fwid.wide) n) := by
  induction n with
  | zero => exact sim_done
  | succ n ih =>
    rw [fwidLoop, Nat20.fwidLoop]
    refine sim_element _ _ _ (by simp) fun h h' => ?_
    rw [List.getElem_map]
    exact sim_then (sim_content hw hw' _ _ _ (fun p k => sim_then (sim_octetString hw hw' (some _) _) (sim_oid hw hw' _ _)) _) ih

theorem sim_flags (ptr : Option Ptr) (t : TagInfo) : Sim1 w p k (asn1Bitstring ptr (8 * 4) t) (Nat20.asn1Bitstring ptr (8 * 4) t) := by
  have hp16 : 2 ^ 16 ≤ 2 ^ w := Nat.pow_le_pow_right (by decide) hw'
  have e : (8 * 4 : BitVec w).toNat = 32 := by
    rw [BitVec.toNat_mul, show (8 : BitVec w).toNat = 8 from small hw' 8 (by decide), show (4 : BitVec w).toNat = 4 from small hw' 4 (by decide)]
    exact Nat.mod_eq_of_lt (by omega)
  exact sim_bitstring hw hw' _ _ _ (by rw [e]; rfl) (fun _ => by unfold BitsFit; rw [e]; omega) _

theorem sim_tcbInfo (fr : Frame) (i : Option (TcbInfo w)) : Sim1 w p k (tcbInfoContent fr i) (Nat20.tcbInfoContent fr (i.map TcbInfo.wide)) := by
  cases i with
  | none => exact sim_done
  | some i =>
    refine sim_content hw hw' _ _ _ (fun p k => ?_) _
    have o : ∀ (s : Slice w) t p k, Sim1 w p k (whenW s.buffer.isSome (asn1OctetString (some s) t)) (Nat20.whenW s.buffer.isSome (Nat20.asn1OctetString (some s.wide) t)) :=
      fun s t p k => sim_when _ (sim_octetString hw hw' (some s) t)
    have u : ∀ (s : Slice w) t p k, Sim1 w p k (whenW s.buffer.isSome (asn1Utf8String (some s) t)) (Nat20.whenW s.buffer.isSome (Nat20.asn1Utf8String (some s.wide) t)) :=
      fun s t p k => sim_when _ (sim_utf8 hw hw' (some s) t)
    show Sim1 w p k (tcbInfoSequence fr i) (Nat20.tcbInfoSequence fr i.wide)
    unfold tcbInfoSequence Nat20.tcbInfoSequence
    rw [show i.wide.flagsMask = i.flagsMask from rfl, show i.wide.flags = i.flags from rfl]
    refine sim_then (sim_flags hw hw' _ _) ?_
    refine sim_then (o _ _ _ _) ?_
    refine sim_then (o _ _ _ _) ?_
    refine sim_then (sim_flags hw hw' _ _) ?_
    refine sim_then ?_ ?_
    rotate_left
    · refine sim_then (sim_int64 hw hw' _ _ _) ?_
      refine sim_then (sim_int64 hw hw' _ _ _) ?_
      refine sim_then (sim_int64 hw hw' _ _ _) ?_
      exact sim_then (u _ _ _ _) (sim_then (u _ _ _ _) (u _ _ _ _))
    unfold fwidsField Nat20.fwidsField TcbInfo.wide
    cases i.fwids with
    | none => exact sim_done
    | some l =>
      refine sim_content hw hw' _ _ _ (fun p k => ?_) _
      rw [toUInt64_toNat hw]
      exact sim_fwidLoop hw hw' _ _

theorem sim_multiLoop (fr : Frame) (l : List (TcbInfo w)) (n : Nat) : Sim1 w p k (multiTcbInfoLoop fr l n) (Nat20.multiTcbInfoLoop fr (l.map TcbInfo.wide) n) := by
  induction n with
  | zero => exact sim_done
  | succ n ih =>
    rw [multiTcbInfoLoop, Nat20.multiTcbInfoLoop]
    refine sim_element _ _ _ (by simp) fun h h' => ?_
    rw [List.getElem_map]
    exact sim_then (sim_tcbInfo hw hw' _ (some _)) ih

theorem sim_multiTcbInfo (fr : Frame) (m : Option (MultiTcbInfo w)) : Sim1 w p k (multiTcbInfoContent fr m) (Nat20.multiTcbInfoContent fr (m.map MultiTcbInfo.wide)) := by
  cases m with
  | none => exact sim_done
  | some m =>
    refine sim_content hw hw' _ _ _ (fun p k => ?_) _
    obtain ⟨l, count⟩ := m
    cases l with
    | none => exact sim_done
    | some l =>
      show Sim1 w p k (multiTcbInfoLoop fr l count.toNat) (Nat20.multiTcbInfoLoop fr (l.map TcbInfo.wide) (toUInt64 count).toNat)
      rw [toUInt64_toNat hw]
      exact sim_multiLoop hw hw' _ _ _

theorem sim_ueid (s : Option (Slice w)) : Sim1 w p k (ueidContent s) (Nat20.ueidContent (s.map Slice.wide)) := by
  cases s with
  | none => exact sim_done
  | some s => exact sim_content hw hw' _ _ _ (fun p k => sim_octetString hw hw' (some s) _) _

theorem sim_freshness (s : Option (Slice w)) : Sim1 w p k (freshnessContent s) (Nat20.freshnessContent (s.map Slice.wide)) := by
  cases s with
  | none => exact sim_done
  | some s => exact sim_content hw hw' _ _ _ (fun p k => sim_octetString hw hw' (some s) _) _

end Nat20.Sized
