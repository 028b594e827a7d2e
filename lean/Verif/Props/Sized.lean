import Verif.Lemmas.SizedCert
import Verif.Props.Asn1
/-!
# C83: platforms on which `size_t` has another width

`w` is the number of bits of `size_t`, at least 16 (C11 7.20.3) and at most 64.  On the left of `SameRendering` is the function on
this platform, on the right the function with a `size_t` of 64 bits, which the other properties are about; sizes are converted with `toUInt64` and
slices with `Slice.wide`, which keep the values.
-/

namespace Nat20.Sized

open Der

variable {w : Nat} (hw : w ≤ 64) (hw' : 16 ≤ w)
include hw hw'

/-! ## The stream -/

omit hw' in
/-- **C83.** Fresh streams correspond.  For streams that correspond, the answers of the query functions are the same: the buffer overflow always; the position overflow
is reported exactly if the position does not fit; the number of octets and the offset of the data as long as no overflow is reported. -/
theorem C83_stream :
    (∀ (buffer : Option Bytes) (size : BitVec w), Corresponds (some (streamInit buffer size)) (some (Nat20.streamInit buffer (toUInt64 size)))) ∧
    ∀ (t : Option (Stream w)) (u : Option Nat20.Stream), Corresponds t u →
      streamHasBufferOverflow t = Nat20.streamHasBufferOverflow u ∧
      (streamHasWritePositionOverflow t = true ↔ Nat20.streamHasWritePositionOverflow u = true ∨ 2 ^ w ≤ (Nat20.streamByteCount u).toNat) ∧
      (streamHasWritePositionOverflow t = false → (streamByteCount t).toNat = (Nat20.streamByteCount u).toNat) ∧
      (∀ x, t = some x → streamHasBufferOverflow t = false → x.writePosition.toNat ≤ x.size.toNat →
        (streamData t).map BitVec.toNat = (Nat20.streamData u).map UInt64.toNat) := by
  refine ⟨fun buffer size => ?_, fun t u h => ?_⟩
  · cases buffer with
    | none => simp [Corresponds, streamInit, Nat20.streamInit]
    | some mem => simp [Corresponds, streamInit, Nat20.streamInit, toUInt64_toNat hw]
  · match t, u, h with
    | none, none, _ => simp [streamHasBufferOverflow, Nat20.streamHasBufferOverflow, streamHasWritePositionOverflow, Nat20.streamHasWritePositionOverflow]
    | some t, some u, ⟨_, h2, h3, h4, h5, h6⟩ =>
      refine ⟨h3, h4, h5, fun x hx hno hle => ?_⟩
      cases hx
      have hwpo : t.writePositionOverflow = false := by
        cases e : t.writePositionOverflow with
        | false => rfl
        | true => exact absurd (h6 e) (by rw [show t.bufferOverflow = false from hno]; decide)
      have h5 := h5 hwpo
      show some (t.size - t.writePosition).toNat = some (u.size - u.writePosition).toNat
      rw [sub_toNat _ _ _ _ h2 h5 hle]

/-- **C83.** The calls that write to the stream. -/
theorem C83_write :
    (∀ (src : Option Ptr) (len : BitVec w), SameRendering (streamPrepend src len) (Nat20.streamPrepend src (toUInt64 len))) ∧
    ∀ c, SameRendering (streamPut c : W w Unit) (Nat20.streamPut c) :=
  ⟨fun src len => Sim1.same ((sim_prepend hw src src len (toUInt64 len)).given fun _ => ⟨rfl, (toUInt64_toNat hw _).symm⟩), fun c => (sim_octet hw hw' c).same⟩

omit hw hw' in
/-- **C83.** Calls one after the other. -/
theorem C83_then {f f' : W w Unit} {g g' : Nat20.W Unit} (h : SameRendering f g) (h' : SameRendering f' g') : SameRendering (do f; f') (do g; g') :=
  Sim1.same (sim_then h.sim h'.sim)

omit hw' in
/-- **C83.** What a function with the same rendering leaves in a buffer: with `bs` the octets that the function writes on a platform with 64 bits, a buffer overflow is
reported exactly if `bs` does not fit the buffer, a position overflow exactly if its length does not fit `size_t`; if there is no position overflow, the number of octets is
the length of `bs`, and if there is no buffer overflow the octets are at the end of the buffer and all else is as before. -/
theorem C83_contents {f : W w Unit} {g : Nat20.W Unit} (h : SameRendering f g) {bs : Bytes} (hg : Prepends g bs) (mem : Bytes) (size : BitVec w) (hs : size.toNat ≤ mem.length) :
    ∃ t mem', f (some (streamInit (some mem) size)) = .ok ((), some t) ∧ t.begin_ = some mem' ∧ mem'.length = mem.length ∧
      (t.bufferOverflow = true ↔ size.toNat < bs.length) ∧ (t.writePositionOverflow = true ↔ 2 ^ w ≤ bs.length) ∧
      (t.writePositionOverflow = false → t.writePosition.toNat = bs.length) ∧
      (t.bufferOverflow = false → mem' = mem.take (size.toNat - bs.length) ++ bs ++ mem.drop size.toNat) := by
  have hs' : (toUInt64 size).toNat = size.toNat := toUInt64_toNat hw size
  have hp : 2 ^ w ≤ 2 ^ 64 := Nat.pow_le_pow_right (by decide) hw
  obtain ⟨u, mem', e, _, h1, h2, _, h4, h5, h6, h7⟩ := fresh_stream hg mem (toUInt64 size) (by rw [hs']; exact hs)
  have hc := h.1 _ _ ((C83_stream hw).1 (some mem) size)
  rw [e] at hc
  unfold SameOutcome at hc
  rw [hs'] at h4 h7
  match hf : f (some (streamInit (some mem) size)), hc with
  | .ok ((), some t), hc =>
    obtain ⟨c1, _, c3, c4, c5, _⟩ := hc
    have hwp : t.writePositionOverflow = true ↔ 2 ^ w ≤ bs.length := by
      rw [c4, h5]
      constructor
      · rintro (h | h)
        · omega
        · cases e : u.writePositionOverflow with
          | false => rw [← h6 e]; exact h
          | true => have := h5.1 e; omega
      · intro h
        cases e : u.writePositionOverflow with
        | false => exact Or.inr (by rw [h6 e]; exact h)
        | true => exact Or.inl (h5.1 e)
    refine ⟨t, mem', rfl, c1.trans h1, h2, by rw [c3]; exact h4, hwp, fun hno => ?_, fun hno => (h7 (by rw [← c3]; exact hno)).1⟩
    rw [c5 hno]
    refine h6 ?_
    cases e : u.writePositionOverflow with
    | false => rfl
    | true => rw [c4.2 (Or.inl e)] at hno; cases hno

/-! ## ASN.1 -/

/-- **C83.** The functions for ASN.1 values, other than bit strings. -/
theorem C83_asn1 :
    (∀ class_ constructed tag (len : BitVec w), SameRendering (asn1Header class_ constructed tag len) (Nat20.asn1Header class_ constructed tag (toUInt64 len))) ∧
    (∀ class_ constructed tag ti, SameRendering (asn1HeaderWithContent class_ constructed tag none ti : W w Unit) (Nat20.asn1HeaderWithContent class_ constructed tag none ti)) ∧
    (∀ class_ constructed tag ti (f : W w Unit) (g : Nat20.W Unit), SameRendering f g →
      SameRendering (asn1HeaderWithContent class_ constructed tag (some f) ti) (Nat20.asn1HeaderWithContent class_ constructed tag (some g) ti)) ∧
    (∀ ti (f : W w Unit) (g : Nat20.W Unit), SameRendering f g → SameRendering (asn1Sequence (some f) ti) (Nat20.asn1Sequence (some g) ti)) ∧
    (∀ ti, SameRendering (asn1Null ti : W w Unit) (Nat20.asn1Null ti)) ∧
    (∀ n, SameRendering (asn1Base128Int n : W w Unit) (Nat20.asn1Base128Int n)) ∧
    (∀ oid ti, SameRendering (asn1ObjectIdentifier oid ti : W w Unit) (Nat20.asn1ObjectIdentifier oid ti)) ∧
    (∀ (n : Slice w) little two ti, SameRendering (asn1Integer n little two ti) (Nat20.asn1Integer n.wide little two ti)) ∧
    (∀ fr n ti, SameRendering (asn1UInt64 fr n ti : W w Unit) (Nat20.asn1UInt64 fr n ti)) ∧
    (∀ fr n ti, SameRendering (asn1Int64 fr n ti : W w Unit) (Nat20.asn1Int64 fr n ti)) ∧
    (∀ (s : Option (Slice w)) ti, SameRendering (asn1OctetString s ti) (Nat20.asn1OctetString (s.map Slice.wide) ti)) ∧
    (∀ (s : Option (Slice w)) ti, SameRendering (asn1PrintableString s ti) (Nat20.asn1PrintableString (s.map Slice.wide) ti)) ∧
    (∀ (s : Option (Slice w)) ti, SameRendering (asn1Utf8String s ti) (Nat20.asn1Utf8String (s.map Slice.wide) ti)) ∧
    (∀ (s : Option (Slice w)) ti, SameRendering (asn1GeneralizedTime s ti) (Nat20.asn1GeneralizedTime (s.map Slice.wide) ti)) ∧
    (∀ v ti, SameRendering (asn1Boolean v ti : W w Unit) (Nat20.asn1Boolean v ti)) :=
  ⟨fun _ _ _ len => Sim1.same ((sim_header hw hw' _ _ _ _ _).given fun _ => (toUInt64_toNat hw len).symm),
    fun _ _ _ _ => (sim_withContent hw hw' _ _ _ (f := none) (g := none) trivial _).same,
    fun _ _ _ _ _ _ h => (sim_content hw hw' _ _ _ (fun _ _ => h.sim) _).same,
    fun _ _ _ h => (sim_content hw hw' _ _ _ (fun _ _ => h.sim) _).same,
    fun _ => (sim_null hw hw' _).same, fun _ => (sim_base128 hw hw' _).same, fun _ _ => (sim_oid hw hw' _ _).same, fun _ _ _ _ => (sim_integer hw hw' _ _ _ _).same,
    fun _ _ _ => (sim_uint64 hw hw' _ _ _).same, fun _ _ _ => (sim_int64 hw hw' _ _ _).same, fun _ _ => (sim_octetString hw hw' _ _).same,
    fun _ _ => (sim_printable hw hw' _ _).same, fun _ _ => (sim_utf8 hw hw' _ _).same, fun _ _ => (sim_time hw hw' _ _).same, fun _ _ => (sim_boolean hw hw' _ _).same⟩

/-- **C83** (partial).  Bit strings.  Missing: the last seven numbers of bits that a `size_t` can express, see `C83_wraps`. -/
theorem C83_bitstring_partial (b : Option Ptr) (bits : BitVec w) (h : b ≠ none → BitsFit bits) (ti : TagInfo) :
    SameRendering (asn1Bitstring b bits ti) (Nat20.asn1Bitstring b (toUInt64 bits) ti) :=
  (sim_bitstring hw hw' b bits (toUInt64 bits) (toUInt64_toNat hw bits).symm h ti).same

/-- **C83, negated** for these: rounding up wraps, so a bit string with that many bits (with 32 bits: 512 MiB) is rendered as a malformed bit string of
one content octet, and no bit of it is used. -/
theorem C83_wraps (p : Ptr) (bits : BitVec w) (h : ¬ BitsFit bits) :
    ∃ unused g, SameRendering (asn1Bitstring (some p) bits tagInfoNoOverride) g ∧ Prepends g [3, 1, unused] ∧ parseBitString [unused] = none := by
  unfold BitsFit at h
  have hp16 : 2 ^ 16 ≤ 2 ^ w := Nat.pow_le_pow_right (by decide) hw'
  have hlt : bits.toNat < 2 ^ w := bits.isLt
  have hdvd : 2 ^ w % 8 = 0 := Nat.mod_eq_zero_of_dvd ((by decide : (8 : Nat) = 2 ^ 3) ▸ Nat.pow_dvd_pow 2 (by omega))
  have s7 : (7 : BitVec w).toNat = 7 := small hw' 7 (by decide)
  have s8 : (8 : BitVec w).toNat = 8 := small hw' 8 (by decide)
  have hbytes : (bits + 7) >>> 3 = 0 := by
    apply BitVec.eq_of_toNat_eq
    rw [BitVec.toNat_ushiftRight, BitVec.toNat_add, s7, Nat.shiftRight_eq_div_pow, Nat.mod_eq_sub_mod (by omega), Nat.mod_eq_of_lt (by omega)]
    simp
    omega
  have hand : ∀ n : Nat, n &&& 7 = n % 8 := fun n => Nat.and_two_pow_sub_one_eq_mod n 3
  have hunused : ((8 - (bits &&& 7)) &&& 7).toNat = 8 - bits.toNat % 8 := by
    have h1 : (bits &&& 7).toNat = bits.toNat % 8 := by rw [BitVec.toNat_and, s7, hand]
    rw [BitVec.toNat_and, BitVec.toNat_sub_of_le (by rw [BitVec.le_def, h1, s8]; omega), s7, s8, h1, hand]
    omega
  refine ⟨toOctet ((8 - (bits &&& 7)) &&& 7), Nat20.asn1HeaderWithContent classUniversal false 3 (some (Nat20.prependLocal [toOctet ((8 - (bits &&& 7)) &&& 7)])) tagInfoNoOverride,
    (sim_content hw hw' _ _ _ (fun p k => ?_) _).same, (prepends_hwc classUniversal false 3 (by decide) (prepends_byte _) tagInfoNoOverride).congr rfl, ?_⟩
  · unfold asn1BitstringContent
    simp only [Option.isNone_some, Bool.false_eq_true, if_false]
    rw [hbytes, bitstringBytes, if_pos rfl]
    exact sim_octet hw hw' _
  · unfold toOctet
    rw [hunused]
    have : ∀ r < 8, 1 ≤ r → parseBitString [UInt8.ofNat (8 - r)] = none := by decide
    exact this _ (by omega) (by omega)

/-! ## CBOR -/

/-- **C83.** All CBOR functions. -/
theorem C83_cbor :
    (∀ type n, SameRendering (cborWriteHeader type n : W w Unit) (Nat20.cborWriteHeader type n)) ∧
    SameRendering (cborWriteNull : W w Unit) Nat20.cborWriteNull ∧
    (∀ b, SameRendering (cborWriteBool b : W w Unit) (Nat20.cborWriteBool b)) ∧
    (∀ t, SameRendering (cborWriteTag t : W w Unit) (Nat20.cborWriteTag t)) ∧
    (∀ n, SameRendering (cborWriteUInt n : W w Unit) (Nat20.cborWriteUInt n)) ∧
    (∀ n, SameRendering (cborWriteInt n : W w Unit) (Nat20.cborWriteInt n)) ∧
    (∀ s : Slice w, SameRendering (cborWriteByteString s) (Nat20.cborWriteByteString s.wide)) ∧
    (∀ s : Slice w, SameRendering (cborWriteTextString s) (Nat20.cborWriteTextString s.wide)) ∧
    (∀ len : BitVec w, SameRendering (cborWriteArrayHeader len) (Nat20.cborWriteArrayHeader (toUInt64 len))) ∧
    ∀ len : BitVec w, SameRendering (cborWriteMapHeader len) (Nat20.cborWriteMapHeader (toUInt64 len)) :=
  ⟨fun _ _ => (sim_cborHeader hw hw' _ _).same, (sim_cborHeader hw hw' _ _).same, fun _ => (sim_cborHeader hw hw' _ _).same, fun _ => (sim_cborHeader hw hw' _ _).same,
    fun _ => (sim_cborHeader hw hw' _ _).same, fun _ => (sim_cborInt hw hw' _).same, fun _ => (sim_cborBytes hw hw' _).same, fun _ => (sim_cborText hw hw' _).same,
    fun _ => (sim_cborHeader hw hw' _ _).same, fun _ => (sim_cborHeader hw hw' _ _).same⟩

/-! ## Certificates -/

/-- **C83.** The parts of a certificate that have no bit string of the caller, and the extensions. -/
theorem C83_x509 :
    (∀ n : Option (Name w), SameRendering (x509Name n) (Nat20.x509Name (n.map Name.wide))) ∧
    (∀ v : Option (Validity w), SameRendering (x509Validity v) (Nat20.x509Validity (v.map Validity.wide))) ∧
    (∀ a, SameRendering (x509AlgorithmIdentifier a : W w Unit) (Nat20.x509AlgorithmIdentifier a)) ∧
    (∀ (e : Extensions w) e', SameExtensions e e' → SameRendering (x509Extension (some e)) (Nat20.x509Extension (some e'))) ∧
    (∀ fr c, SameRendering (basicConstraintsContent fr c : W w Unit) (Nat20.basicConstraintsContent fr c)) ∧
    ∀ c, SameRendering (keyUsageContent c : W w Unit) (Nat20.keyUsageContent c) :=
  ⟨fun _ => (sim_name hw hw' _).same, fun _ => (sim_validity hw hw' _).same, fun _ => (sim_algorithm hw hw' _).same, fun _ _ h => (sim_extension hw hw' h).same,
    fun _ _ => (sim_basicConstraints hw hw' _ _).same, fun _ => (sim_keyUsage hw hw' _).same⟩

/-- **C83.** The DICE extensions. -/
theorem C83_dice (fr : Frame) :
    (∀ i : Option (OpenDiceInput w), SameRendering (openDiceInputContent fr i) (Nat20.openDiceInputContent fr (i.map OpenDiceInput.wide))) ∧
    (∀ i : Option (TcbInfo w), SameRendering (tcbInfoContent fr i) (Nat20.tcbInfoContent fr (i.map TcbInfo.wide))) ∧
    (∀ i : Option (MultiTcbInfo w), SameRendering (multiTcbInfoContent fr i) (Nat20.multiTcbInfoContent fr (i.map MultiTcbInfo.wide))) ∧
    (∀ s : Option (Slice w), SameRendering (ueidContent s) (Nat20.ueidContent (s.map Slice.wide))) ∧
    ∀ s : Option (Slice w), SameRendering (freshnessContent s) (Nat20.freshnessContent (s.map Slice.wide)) :=
  ⟨fun _ => (sim_openDice hw hw' fr _).same, fun _ => (sim_tcbInfo hw hw' fr _).same, fun _ => (sim_multiTcbInfo hw hw' fr _).same, fun _ => (sim_ueid hw hw' _).same,
    fun _ => (sim_freshness hw hw' _).same⟩

/-- **C83** (partial).  The public key, the certificate body and the certificate, for public keys and signatures whose number of bits can be rounded up to octets. -/
theorem C83_certificate_partial (fr : Frame) :
    (∀ i : PublicKeyInfo w, (i.publicKey ≠ none → BitsFit i.publicKeyBits) → SameRendering (x509PublicKeyInfo (some i)) (Nat20.x509PublicKeyInfo (some i.wide))) ∧
    (∀ (t : Tbs w) t', SameTbs t t' → (t.subjectPublicKeyInfo.publicKey ≠ none → BitsFit t.subjectPublicKeyInfo.publicKeyBits) →
      SameRendering (x509CertTbs fr (some t)) (Nat20.x509CertTbs fr (some t'))) ∧
    ∀ (t : Tbs w) t', SameTbs t t' → (t.subjectPublicKeyInfo.publicKey ≠ none → BitsFit t.subjectPublicKeyInfo.publicKeyBits) →
      ∀ alg bits (signature : Option Ptr), (signature ≠ none → BitsFit bits) →
        SameRendering (x509Cert fr (some ⟨some t, alg, bits, signature⟩)) (Nat20.x509Cert fr (some ⟨some t', alg, toUInt64 bits, signature⟩)) :=
  ⟨fun i h => (sim_publicKeyInfo hw hw' (some i) fun x hx => by cases hx; exact h).same, fun _ _ h hb => (sim_tbs hw hw' fr h hb).same,
    fun _ _ h hb _ _ _ hb' => (sim_cert hw hw' fr h rfl rfl rfl (fun x hx => by cases hx; exact hb) hb').same⟩

/-! ## Non-vacuity -/

omit hw hw'

/-- With 16 bits: two strings of 40000 octets each.  Their common length does not fit `size_t`; this is reported.  With 64 bits only the buffer overflow is reported. -/
example :
    let twice : W 16 Unit := do streamPrepend (some ⟨[], List.replicate 40000 7⟩) 40000; streamPrepend (some ⟨[], List.replicate 40000 7⟩) 40000
    let twice' : Nat20.W Unit := do Nat20.streamPrepend (some ⟨[], List.replicate 40000 7⟩) 40000; Nat20.streamPrepend (some ⟨[], List.replicate 40000 7⟩) 40000
    SameRendering twice twice' ∧
    (twice (some (streamInit (some [1, 2]) 2))).toOption.map (·.2) = some (some ⟨some [1, 2], 2, 14464, true, true⟩) ∧
    (twice' (some (Nat20.streamInit (some [1, 2]) 2))).toOption.map (·.2) = some (some ⟨some [1, 2], 2, 80000, true, false⟩) := by
  refine ⟨C83_then ((C83_write (by decide) (by decide)).1 _ 40000) ((C83_write (by decide) (by decide)).1 _ 40000), ?_, ?_⟩ <;> decide

/-- With 32 bits: a header, an integer and a string, in a buffer that is large enough and in one that is not. -/
example :
    let f : W 32 Unit := asn1Sequence (some do asn1OctetString (some ⟨3, some ⟨[], [7, 8, 9]⟩⟩) tagInfoNoOverride; asn1Integer ⟨2, some ⟨[], [0xff, 1]⟩⟩ false false tagInfoNoOverride) tagInfoNoOverride
    f (some (streamInit (some (List.replicate 13 0)) 13)) = .ok ((), some ⟨some [0, 0x30, 10, 2, 3, 0, 0xff, 1, 4, 3, 7, 8, 9], 13, 12, false, false⟩) ∧
    (f (some (streamInit (some (List.replicate 5 0)) 5))).toOption.map (fun r => (streamByteCount r.2, streamHasBufferOverflow r.2, streamHasWritePositionOverflow r.2)) = some (12, true, false) := by
  decide +kernel

/-- A certificate with 32 bits that meets the hypotheses, with an extension whose content is rendered by a callback. -/
def exampleTbs : Tbs 32 where
  serialNumber := ⟨1, some ⟨[], [5]⟩⟩
  signatureAlgorithm := ⟨some OID_ED25519, 0, none⟩
  issuerName := ⟨1, Vector.replicate 8 ⟨some OID_SERIAL_NUMBER, ⟨2, some ⟨[], [0x12, 0xab]⟩⟩⟩⟩
  validity := ⟨⟨0, none⟩, ⟨0, none⟩⟩
  subjectName := ⟨1, Vector.replicate 8 ⟨some OID_COMMON_NAME, ⟨2, some ⟨[], [0x41, 0x42]⟩⟩⟩⟩
  subjectPublicKeyInfo := ⟨⟨some OID_ED25519, 0, none⟩, 24, some ⟨[], [1, 2, 3]⟩⟩
  extensions := ⟨1, some [⟨some OID_KEY_USAGE, true, some (keyUsageContent (some ⟨0x04, 0⟩))⟩]⟩

/-- The same certificate with 64 bits. -/
def exampleTbs' : Nat20.Tbs where
  serialNumber := ⟨1, some ⟨[], [5]⟩⟩
  signatureAlgorithm := ⟨some OID_ED25519, 0, none⟩
  issuerName := ⟨1, Vector.replicate 8 ⟨some OID_SERIAL_NUMBER, ⟨2, some ⟨[], [0x12, 0xab]⟩⟩⟩⟩
  validity := ⟨⟨0, none⟩, ⟨0, none⟩⟩
  subjectName := ⟨1, Vector.replicate 8 ⟨some OID_COMMON_NAME, ⟨2, some ⟨[], [0x41, 0x42]⟩⟩⟩⟩
  subjectPublicKeyInfo := ⟨⟨some OID_ED25519, 0, none⟩, 24, some ⟨[], [1, 2, 3]⟩⟩
  extensions := ⟨1, some [⟨some OID_KEY_USAGE, true, some (Nat20.keyUsageContent (some ⟨0x04, 0⟩))⟩]⟩

theorem exampleTbs_same : SameTbs exampleTbs exampleTbs' where
  serialNumber := rfl
  signatureAlgorithm := rfl
  issuerName := by simp only [exampleTbs, exampleTbs', Name.wide, Vector.map_replicate]; rfl
  validity := rfl
  subjectName := by simp only [exampleTbs, exampleTbs', Name.wide, Vector.map_replicate]; rfl
  subjectPublicKeyInfo := rfl
  extensions :=
    ⟨rfl, rfl, fun i h h' => by
      match i, h with
      | 0, _ => exact ⟨rfl, rfl, (C83_x509 (by decide) (by decide)).2.2.2.2.2 _⟩⟩

/-- The whole certificate, with a signature of two octets: what is written with 32 bits is what is written with 64 bits. -/
example (fr : Frame) :
    SameRendering (x509Cert fr (some ⟨some exampleTbs, ⟨some OID_ED25519, 0, none⟩, 16, some ⟨[], [0xaa, 0xbb]⟩⟩))
      (Nat20.x509Cert fr (some ⟨some exampleTbs', ⟨some OID_ED25519, 0, none⟩, 16, some ⟨[], [0xaa, 0xbb]⟩⟩)) :=
  (C83_certificate_partial (by decide) (by decide) fr).2.2 _ _ exampleTbs_same (fun _ => by unfold BitsFit; decide) _ 16 _ (fun _ => by unfold BitsFit; decide)

/-- It runs, and writes 135 octets. -/
example :
    ((x509Cert ⟨[], [], false⟩ (some ⟨some exampleTbs, ⟨some OID_ED25519, 0, none⟩, 16, some ⟨[], [0xaa, 0xbb]⟩⟩)) (some (streamInit (some (List.replicate 256 0)) 256))).toOption.map
      (fun r => ((streamByteCount r.2).toNat, streamHasBufferOverflow r.2)) = some (135, false) := by decide +kernel

end Nat20.Sized
