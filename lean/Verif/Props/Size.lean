import Verif.Lemmas.Size
import Verif.Props.Dice
/-!
# C77: the sizes of certificates

`Verif/Spec/Size.lean` gives the number of octets of a certificate and of each extension as arithmetic on the lengths of the fields,
and says what it means that a writer renders that many octets (`Size.Renders`).
-/

namespace Nat20

open Der Pki

theorem renders_of_prepends {w : W Unit} {bs : Bytes} (h : Prepends w bs) {n : Nat} (hn : bs.length = n) : Size.Renders w n where
  sizing := by
    intro anySize
    obtain ⟨s, e, _, p⟩ := h.run _ (streamInit_null_wf anySize)
    have h0 : (streamInit none anySize).writePosition.toNat = 0 := rfl
    refine ⟨s, e, ?_, fun ho => ?_⟩
    · show s.writePositionOverflow = true ↔ _
      rw [p.wpo_iff, h0, Nat.zero_add, hn]
      simp [streamInit]
    · have := p.count ho
      rw [h0, Nat.zero_add, hn] at this
      exact this
  buffer := by
    intro mem size hs
    obtain ⟨s, e, wf, p⟩ := h.run _ (streamInit_wf mem size hs)
    have h0 : (streamInit (some mem) size).writePosition.toNat = 0 := rfl
    have h1 : (streamInit (some mem) size).size.toNat = size.toNat := rfl
    refine ⟨s, e, ?_, fun ho => ?_⟩
    · show s.bufferOverflow = true ↔ _
      rw [p.bo_iff, h0, h1, Nat.zero_add, hn]
      simp [streamInit]
    · have : s.writePositionOverflow = false := by
        cases hw : s.writePositionOverflow with
        | false => rfl
        | true => have := wf.wpo_bo hw; simp only [streamHasBufferOverflow] at ho; rw [this] at ho; cases ho
      have := p.count this
      rw [h0, Nat.zero_add, hn] at this
      exact this

/-- **C77.** A certificate has exactly the number of octets that follows from the lengths of its fields. -/
theorem C77_certificate (fr : Frame) (content : Extension → Bytes) (x : X509) (h : CertArg fr content x) :
    Size.Renders (x509Cert fr (some x)) (Size.certificate (fun e => (content e).length) x) :=
  renders_of_prepends (prepends_cert fr content x h) (Size.len_certificate fr content x h)

/-- **C77.** The same for the part to be signed. -/
theorem C77_tbs (fr : Frame) (content : Extension → Bytes) (t : Tbs) (h : TbsArg fr content t) :
    Size.Renders (x509CertTbs fr (some t)) (Size.tbs (fun e => (content e).length) t) :=
  renders_of_prepends (prepends_tbs fr content t h) (Size.len_tbs fr content t h)

/-- Non-vacuity of C77: the size of the example certificate, and what a sizing pass reports. -/
example : (∀ fr, CertArg fr exampleContent exampleCert) ∧ Size.certificate (fun e => (exampleContent e).length) exampleCert = 180 ∧
    (x509Cert ⟨[], [], false⟩ (some exampleCert) (some (streamInit none 0))).toOption.bind
      (fun r => r.2.map fun s => (s.bufferOverflow, s.writePosition)) = some (true, 180) :=
  ⟨exampleCert_arg, by decide +kernel, by decide +kernel⟩

/-- **C77.** A buffer that suffices for one certificate suffices for every certificate with the same algorithms whose other fields are
at most as long (and whose serial number is at most as large). -/
theorem C77_fits (fr fr' : Frame) (content content' : Extension → Bytes) (x x' : X509) (h : CertArg fr content x) (h' : CertArg fr' content' x')
    (hle : Size.CertLe (fun e => (content e).length) (fun e => (content' e).length) x x')
    (size : UInt64) (mem mem' : Bytes) (hm : size.toNat ≤ mem.length) (hm' : size.toNat ≤ mem'.length) (s' : Stream)
    (run : x509Cert fr' (some x') (some (streamInit (some mem') size)) = .ok ((), some s')) (good : streamHasBufferOverflow (some s') = false) :
    ∃ s, x509Cert fr (some x) (some (streamInit (some mem) size)) = .ok ((), some s) ∧ streamHasBufferOverflow (some s) = false ∧
      streamByteCount (some s) ≤ streamByteCount (some s') := by
  obtain ⟨s1, e1, b1, c1⟩ := (C77_certificate fr content x h).buffer mem size hm
  obtain ⟨s2, e2, b2, c2⟩ := (C77_certificate fr' content' x' h').buffer mem' size hm'
  rw [run] at e2
  cases e2
  have hmono := Size.certificate_mono hle
  have hno : ¬ size.toNat < Size.certificate (fun e => (content' e).length) x' := by
    intro hlt; rw [b2.2 hlt] at good; cases good
  have hgood : streamHasBufferOverflow (some s1) = false := by
    cases hs : streamHasBufferOverflow (some s1) with
    | false => rfl
    | true => have := b1.1 hs; omega
  refine ⟨s1, e1, hgood, ?_⟩
  have h1 := c1 hgood
  have h2 := c2 good
  exact UInt64.le_iff_toNat_le.2 (by omega)

/-- **C77.** The size does not depend on the signature, only on its number of bits: a buffer can be allocated before signing. -/
theorem C77_signature (fr : Frame) (content : Extension → Bytes) (x : X509) (q q' : Ptr) (hq : CertArg fr content { x with signature := some q })
    (hq' : CertArg fr content { x with signature := some q' }) :
    ∃ n, Size.Renders (x509Cert fr (some { x with signature := some q })) n ∧ Size.Renders (x509Cert fr (some { x with signature := some q' })) n :=
  ⟨_, C77_certificate fr content _ hq, C77_certificate fr content _ hq'⟩

/-- A certificate with longer fields than the example. -/
def exampleLongCert : X509 :=
  { exampleCert with
    tbs := some { exampleTbs with
      serialNumber := ⟨3, some ⟨[], [0xff, 0xff, 0xff]⟩⟩
      subjectPublicKeyInfo := ⟨exampleKey.algorithmIdentifier, 24, some ⟨[], [1, 2, 3]⟩⟩ }
    signatureBits := 64
    signature := some ⟨[], [1, 2, 3, 4, 5, 6, 7, 8]⟩ }

/-- Non-vacuity of C77: the fields of the example are at most as long as those of another certificate. -/
example : (∀ fr, CertArg fr exampleContent exampleLongCert) ∧
    Size.CertLe (fun e => (exampleContent e).length) (fun e => (exampleContent e).length) exampleCert exampleLongCert := by
  constructor
  · intro fr
    refine ⟨fun t ht => ?_, by intro q hq; cases hq; decide⟩
    cases ht
    exact { exampleTbs_arg fr with
      serial := ⟨slice_valid_of_le _ _ _ (by decide), fun h => absurd h (by decide), fun _ _ => Or.inr (by decide)⟩
      spki := by intro q hq; cases hq; decide }
  · refine ⟨⟨exampleTbs, _, rfl, rfl, ?_⟩, rfl, ⟨fun h => (by cases h), by decide⟩⟩
    exact {
      serial := ⟨by decide, by decide, by decide⟩
      algorithm := rfl
      issuer := ⟨by decide, by decide, fun i _ _ => ⟨rfl, Nat.le_refl _⟩⟩
      notBefore := Nat.le_refl _
      notAfter := Nat.le_refl _
      subject := ⟨by decide, by decide, fun i _ _ => ⟨rfl, Nat.le_refl _⟩⟩
      keyAlgorithm := rfl
      key := ⟨fun h => (by cases h), by decide⟩
      extensions := ⟨Nat.le_refl _, fun i x y hx hy => by
        have : x = y := Option.some.inj (hx.symm.trans hy)
        subst this
        exact ⟨rfl, fun h => h, Nat.le_refl _⟩⟩ }

/-! ## Extension contents -/

/-- **C77.** Basic constraints. -/
theorem C77_basic_constraints (fr : Frame) (bc : BasicConstraints)
    (h : bc.isCa = true → bc.hasPathLength = true → bc.pathLength = 0 → fr.adjacent ≠ []) :
    Size.Renders (basicConstraintsContent fr (some bc)) (Size.basicConstraints bc) := by
  obtain ⟨ds, h1, _, h4⟩ := prepends_basicConstraintsBody fr bc h
  have hp : Prepends (basicConstraintsContent fr (some bc)) (sequence ds).encode :=
    prepends_markHeader classUniversal (by decide) true 0x10 h1
  refine renders_of_prepends hp ?_
  rw [Size.len_sequence, h4, Size.basicConstraints]
  have hb : (boolean true).encode.length = 3 := rfl
  congr 1
  split
  · split
    · rw [Size.len_all_cons, Size.len_all_cons, Size.len_nil, hb, Size.len_integer, Nat.add_zero]
    · rw [Size.len_all_cons, Size.len_nil, hb]
  · rfl

/-- **C77.** Key usage has at most 5 octets. -/
theorem C77_key_usage (flags : List (Fin 9)) : ∃ n ≤ 5, Size.Renders (keyUsageContent (some (keyUsageOf flags))) n := by
  obtain ⟨bits, h, _, hl, _⟩ := C28_key_usage flags
  refine ⟨_, ?_, renders_of_prepends h (Size.len_bitString bits)⟩
  have : Size.element (1 + (bits.length + 7) / 8) ≤ Size.element 3 := Size.element_mono (by omega)
  exact Nat.le_trans this (by decide)

/-- **C77.** The DICE extensions. -/
theorem C77_dice (fr : Frame) :
    (∀ i, OpenDiceArg fr i → Size.Renders (openDiceInputContent fr (some i)) (Size.openDiceInput i)) ∧
    (∀ t, TcbInfoArg fr t → Size.Renders (tcbInfoContent fr (some t)) (Size.tcbInfo t)) ∧
    (∀ m : MultiTcbInfo, (∀ l, m.list = some l → m.count.toNat ≤ l.length ∧ ∀ t ∈ l.take m.count.toNat, TcbInfoArg fr t) →
      Size.Renders (multiTcbInfoContent fr (some m)) (Size.multiTcbInfo m)) ∧
    (∀ s : Slice, s.Valid → Size.Renders (ueidContent (some s)) (Size.element (Size.element s.bytes.length)) ∧
      Size.Renders (freshnessContent (some s)) (Size.element (Size.element s.bytes.length))) := by
  refine ⟨fun i h => renders_of_prepends (prepends_openDice fr i h) (Size.len_openDice i),
    fun t h => renders_of_prepends (prepends_tcbInfo fr t h) (Size.len_tcbInfo t), fun m h => ?_, fun s h => ?_⟩
  · have hp : Prepends (multiTcbInfoContent fr (some m)) (sequence (((m.list.getD []).take m.count.toNat).map fun t => (tcbInfoValue t).der)).encode := by
      refine prepends_sequence ?_
      unfold multiTcbInfoSequence
      cases hm : m.list with
      | none => simp only [Option.getD_none, List.take_nil, List.map_nil]; exact Prepends.pure
      | some l =>
        obtain ⟨h1, h2⟩ := h l hm
        exact prepends_multiLoop fr l _ h1 h2
    refine renders_of_prepends hp ?_
    rw [Size.len_sequence, Size.len_all_map _ Size.tcbInfo]
    · rfl
    · intro t _; exact Size.len_tcbInfo t
  · have hs : Prepends (asn1OctetString (some s) tagInfoNoOverride) (octetString s.bytes).encode :=
      prepends_octetString (some s) tagInfoNoOverride (by intro x hx; cases hx; exact h)
    have hlen : (sequence [octetString s.bytes]).encode.length = Size.element (Size.element s.bytes.length) := by
      rw [Size.len_sequence, Size.len_all_cons, Size.len_nil, octetString, Size.len_prim 0 4 (by decide), Nat.add_zero]
    exact ⟨renders_of_prepends (prepends_sequence (Prepends.singleDer hs)) hlen, renders_of_prepends (prepends_sequence (Prepends.singleDer hs)) hlen⟩

/-- Non-vacuity of C77: sizes of extensions and what sizing passes report. -/
example : (∀ fr, OpenDiceArg fr exampleDice) ∧ Size.openDiceInput exampleDice = 29 ∧
    (openDiceInputContent ⟨[], [], false⟩ (some exampleDice) (some (streamInit none 0))).toOption.bind
      (fun r => r.2.map fun s => s.writePosition) = some 29 ∧
    Size.basicConstraints ⟨true, true, 200⟩ = 9 ∧ Size.tcbInfo exampleTcb = 69 :=
  ⟨exampleDice_arg, by decide +kernel, by decide +kernel, by decide +kernel, by decide +kernel⟩

end Nat20
