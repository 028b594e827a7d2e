import Verif.Lemmas.Outside
import Verif.Lemmas.X509Inj
/-!
# C24-C33: X.509 certificates

`Verif/Spec/X509.lean` defines, from RFC 5280, the DER trees of certificates (`Pki.CertValue.der` etc.) and which field values
the arguments of the library functions denote (`Pki.certValue` etc.).  `Prepends w bs` says that `w` prepends exactly the bytes
`bs` to every stream state.  `Der.parse` is a strict DER parser.
-/

namespace Nat20

open Der Pki

/-! ## Examples of arguments -/

/-- A name with a common name and a serial number. -/
def exampleName : Name where
  elementCount := 2
  elements := #v[⟨some OID_COMMON_NAME, ⟨2, some ⟨[], [0x41, 0x42]⟩⟩⟩, ⟨some OID_SERIAL_NUMBER, ⟨2, some ⟨[], [0x0f, 0xa0]⟩⟩⟩,
    ⟨none, Slice.null⟩, ⟨none, Slice.null⟩, ⟨none, Slice.null⟩, ⟨none, Slice.null⟩, ⟨none, Slice.null⟩, ⟨none, Slice.null⟩]

theorem slice_valid_of_le (n : UInt64) (b d : Bytes) (h : n.toNat ≤ d.length) : Slice.Valid ⟨n, some ⟨b, d⟩⟩ := by
  intro p hp; cases hp; exact h

theorem exampleName_arg : NameArg exampleName := by
  intro _ r hr
  have e : exampleName.elements.toList.take exampleName.elementCount.toNat =
      [⟨some OID_COMMON_NAME, ⟨2, some ⟨[], [0x41, 0x42]⟩⟩⟩, ⟨some OID_SERIAL_NUMBER, ⟨2, some ⟨[], [0x0f, 0xa0]⟩⟩⟩] := rfl
  rw [e] at hr
  simp only [List.mem_cons, List.not_mem_nil, or_false] at hr
  rcases hr with rfl | rfl <;> exact slice_valid_of_le _ _ _ (by decide)

/-- Everything a tree renders to is accepted by the strict parser, nothing left over. -/
theorem strictly_parsed (d : Der) (h : d.ClassOk) (hl : d.encode.length < 2 ^ 64) : Der.parse d.encode = some d :=
  Der.parse_encode d h hl

/-! ## C24 -/

/-- **C24.** A name with at most eight elements renders as the SEQUENCE of one-element SETs of type and value in the order of
the array; the strict parser reads exactly this tree. -/
theorem C24_name (n : Name) (hc : n.elementCount.toNat ≤ 8) (h : NameArg n) :
    ∃ bs, Prepends (x509Name (some n)) bs ∧
      (bs.length < 2 ^ 64 → Der.parse bs = some (sequence ((n.elements.toList.take n.elementCount.toNat).map fun r =>
        set [sequence [oidDer (oidValue r.type), printableString (attributeValue r).value]]))) := by
  have hp := prepends_name (some n) (by intro x hx; cases hx; exact h)
  refine ⟨_, hp, fun hl => ?_⟩
  rw [strictly_parsed _ (classOk_name _) hl]
  unfold nameValue
  simp only [if_neg (show ¬ 8 < n.elementCount.toNat by omega), nameDer, List.map_map]
  rfl

/-- **C24.** All attributes but serial numbers carry the given bytes (see C25 for serial numbers). -/
theorem C24_attribute_value (r : Rdn) (h : oidValue r.type ≠ some [2, 5, 4, 5]) : (attributeValue r).value = r.value.bytes := by
  unfold attributeValue
  exact if_neg h

/-- **C24.** A NULL name, or one with more elements than the array has, renders a SEQUENCE holding an ASN.1 NULL, whatever the
elements are (they are not read: no assumption on them is made).  Note that the header promises the NULL without the
SEQUENCE around it. -/
theorem C24_null_name (n : Option Name) (h : ∀ x, n = some x → 8 < x.elementCount.toNat) :
    Prepends (x509Name n) [0x30, 0x02, 0x05, 0x00] := by
  refine (prepends_name n (fun x hx => ?_)).congr ?_
  · intro hc; have := h x hx; omega
  · cases n with
    | none => decide +kernel
    | some n =>
      have : nameValue (some n) = none := by unfold nameValue; simp only [if_pos (h n rfl)]
      rw [this]; decide +kernel

/-- Non-vacuity of C24: the example name meets the hypotheses and renders as expected. -/
example : NameArg exampleName ∧
    x509Name (some exampleName) (some (streamInit (some (List.replicate 32 9)) 32)) = .ok ((), some ⟨some
      [9, 9, 0x30, 0x1c, 0x31, 0x0b, 0x30, 0x09, 0x06, 0x03, 0x55, 0x04, 0x03, 0x13, 0x02, 0x41, 0x42,
       0x31, 0x0d, 0x30, 0x0b, 0x06, 0x03, 0x55, 0x04, 0x05, 0x13, 0x04, 0x30, 0x66, 0x61, 0x30], 32, 30, false, false⟩) :=
  ⟨exampleName_arg, by decide +kernel⟩

/-! ## C25 -/

/-- **C25.** A serial number attribute carries two hexadecimal digits per byte of the value, in order. -/
theorem C25_serial_hex (r : Rdn) (h : oidValue r.type = some [2, 5, 4, 5]) (hv : r.value.Valid) :
    ∃ bs, Prepends (x509Rdn r) bs ∧
      (bs.length < 2 ^ 64 → Der.parse bs = some (set [sequence [oidDer (some [2, 5, 4, 5]),
        printableString (r.value.bytes.flatMap fun b => [hexDigit (b.toNat / 16), hexDigit (b.toNat % 16)])]])) := by
  refine ⟨_, prepends_rdn r hv, fun hl => ?_⟩
  rw [strictly_parsed _ (classOk_attribute _) hl]
  unfold Attribute.der attributeValue
  rw [h, if_pos (show some [2, 5, 4, 5] = some serialNumberArcs from rfl)]
  rfl

/-- **C25.** The sixteen digits. -/
theorem C25_digits : (List.range 16).map hexDigit = ascii "0123456789abcdef" := by decide

/-- **C25.** Serial numbers that differ render differently. -/
theorem C25_distinct (r r' : Rdn) (h : oidValue r.type = some [2, 5, 4, 5]) (h' : oidValue r'.type = some [2, 5, 4, 5])
    (hv : r.value.Valid) (hv' : r'.value.Valid) (bs : Bytes) (hl : bs.length < 2 ^ 64) (hr : Prepends (x509Rdn r) bs)
    (hr' : Prepends (x509Rdn r') bs) : r.value.bytes = r'.value.bytes := by
  obtain ⟨b1, p1, e1⟩ := C25_serial_hex r h hv
  obtain ⟨b2, p2, e2⟩ := C25_serial_hex r' h' hv'
  obtain rfl := Prepends.unique hr p1 hl
  obtain rfl := Prepends.unique hr' p2 hl
  have := (e1 hl).symm.trans (e2 hl)
  simp only [Option.some.injEq, Der.set, sequence, printableString, Der.cons.injEq, List.cons.injEq, Der.prim.injEq, true_and,
    and_true] at this
  exact hexString_injective _ _ this

/-- Non-vacuity of C25. -/
example : oidValue (some OID_SERIAL_NUMBER) = some [2, 5, 4, 5] ∧
    x509Rdn ⟨some OID_SERIAL_NUMBER, ⟨2, some ⟨[], [0x0f, 0xa0]⟩⟩⟩ (some (streamInit (some (List.replicate 15 9)) 15)) =
      .ok ((), some ⟨some [0x31, 0x0d, 0x30, 0x0b, 0x06, 0x03, 0x55, 0x04, 0x05, 0x13, 0x04, 0x30, 0x66, 0x61, 0x30],
        15, 15, false, false⟩) := by
  constructor <;> decide +kernel

/-! ## C26 -/

/-- **C26.** A non-empty list renders as `[3]` around a SEQUENCE with one element per extension in the order of the array:
OID, `critical` only if true, and an OCTET STRING of what the callback of the extension renders. -/
theorem C26_extensions (l : List Extension) (count : UInt64) (hcount : count ≠ 0) (hl : count.toNat ≤ l.length)
    (content : Extension → Bytes)
    (hcb : ∀ e ∈ l.take count.toNat, match e.contentCb with
      | some cb => Prepends cb (content e)
      | none => content e = []) :
    ∃ bs, Prepends (x509Extension (some ⟨count, some l⟩)) bs ∧
      (bs.length < 2 ^ 64 → Der.parse bs = some (.cons 2 3 [sequence ((l.take count.toNat).map fun e =>
        sequence (oidDer (oidValue e.oid) :: ((if e.critical then [boolean true] else []) ++ [octetString (content e)])))])) := by
  have hp := prepends_extension content ⟨count, some l⟩ (by
    intro m hm
    cases hm
    refine ⟨hl, fun x hx => ?_⟩
    have := hcb x hx
    unfold Renders
    cases hc : x.contentCb <;> simp only [hc] at this ⊢ <;> exact this)
  have hc' : count.toNat ≠ 0 := fun h0 => hcount (UInt64.toNat_inj.1 h0)
  have hne : (l.take count.toNat).map (extValue content) ≠ [] := by
    intro h0
    have := congrArg List.length h0
    rw [List.length_map, List.length_take, List.length_nil] at this; omega
  have e : extensionsDers (extensionsValue content ⟨count, some l⟩) =
      [.cons 2 3 [sequence (((l.take count.toNat).map (extValue content)).map Ext.der)]] := by
    show extensionsDers ((l.take count.toNat).map (extValue content)) = _
    generalize (l.take count.toNat).map (extValue content) = vs at hne ⊢
    cases vs with
    | nil => exact absurd rfl hne
    | cons a b => rfl
  have hcls := (classesOk_extensions (extensionsValue content ⟨count, some l⟩))
  rw [e] at hp hcls
  refine ⟨_, hp.congr (List.append_nil _), fun hlen => ?_⟩
  rw [strictly_parsed _ hcls.1 hlen, List.map_map]
  rfl

/-- **C26.** Without extensions nothing is rendered; no element is read. -/
theorem C26_none (e : Option Extensions) (h : ∀ x, e = some x → x.extensions = none ∨ x.extensionsCount = 0) :
    Prepends (x509Extension e) [] := by
  cases e with
  | none => exact Prepends.pure
  | some x =>
    have : x509Extension (some x) = Pure.pure () := by
      unfold x509Extension
      simp only
      rw [if_pos]
      rcases h x rfl with h | h
      · left; rw [h]; rfl
      · right; exact h
    rw [this]; exact Prepends.pure

/-- Non-vacuity of C26: two extensions, one critical, one without callback. -/
example :
    x509Extension (some ⟨2, some [⟨some OID_BASIC_CONSTRAINTS, true, some (prependLocal [1, 2])⟩, ⟨some OID_KEY_USAGE, false, none⟩]⟩)
      (some (streamInit (some (List.replicate 27 9)) 27)) =
      .ok ((), some ⟨some [0xa3, 0x19, 0x30, 0x17, 0x30, 0x0c, 0x06, 0x03, 0x55, 0x1d, 0x13, 0x01, 0x01, 0xff, 0x04, 0x02, 0x01,
        0x02, 0x30, 0x07, 0x06, 0x03, 0x55, 0x1d, 0x0f, 0x04, 0x00], 27, 27, false, false⟩) := by
  decide +kernel

/-! ## C27 -/

/-- The body of a BasicConstraints extension. -/
theorem prepends_basicConstraintsBody (fr : Frame) (bc : BasicConstraints)
    (h : bc.isCa = true → bc.hasPathLength = true → bc.pathLength = 0 → fr.adjacent ≠ []) :
    ∃ ds, Prepends (basicConstraintsBody fr bc) (encodeAll ds) ∧ ClassesOk ds ∧
      ds = if bc.isCa then (if bc.hasPathLength then [boolean true, integer bc.pathLength.toNat] else [boolean true]) else [] := by
  obtain ⟨ca, hp, pl⟩ := bc
  unfold basicConstraintsBody
  cases ca
  · exact ⟨[], Prepends.pure, trivial, rfl⟩
  · cases hp
    · exact ⟨[boolean true], Prepends.consDer (ds := []) Prepends.pure (prepends_boolean true tagInfoNoOverride),
        ⟨by simp [boolean, Der.ClassOk], trivial⟩, rfl⟩
    · refine ⟨[boolean true, integer pl.toNat], Prepends.consDer (ds := [integer pl.toNat]) (Prepends.singleDer ?_)
        (prepends_boolean true tagInfoNoOverride), ⟨by simp [boolean, Der.ClassOk], by simp [integer, Der.ClassOk], trivial⟩, rfl⟩
      have e : pl.toUInt64.toNat = pl.toNat := UInt32.toNat_toUInt64 pl
      have := prepends_uint64 fr pl.toUInt64 tagInfoNoOverride (by
        by_cases h0 : pl = 0
        · exact Or.inl (h rfl rfl h0)
        · right
          intro h1
          apply h0
          apply UInt32.toNat_inj.1
          rw [← e, h1]; rfl)
      rw [e] at this
      exact this

/-- **C27** (partial). Basic constraints: no member for a non-CA, TRUE for a CA, followed by the path length if there is one.
Missing: the path length 0 if the byte next to the local variable is not accessible, because the code reads it
(`C27_reads_outside`). -/
theorem C27_basic_constraints_partial (fr : Frame) (bc : BasicConstraints)
    (h : bc.isCa = true → bc.hasPathLength = true → bc.pathLength = 0 → fr.adjacent ≠ []) :
    ∃ bs, Prepends (basicConstraintsContent fr (some bc)) bs ∧
      (bs.length < 2 ^ 64 → Der.parse bs = some (sequence (
        if bc.isCa then (if bc.hasPathLength then [boolean true, integer bc.pathLength.toNat] else [boolean true]) else []))) := by
  obtain ⟨ds, h1, h2, h4⟩ := prepends_basicConstraintsBody fr bc h
  refine ⟨_, prepends_markHeader classUniversal (by decide) true 0x10 h1, fun hl => ?_⟩
  have := strictly_parsed (sequence ds) (classOk_sequence h2) hl
  rw [← h4]
  exact this

/-- **C27.** A NULL context renders nothing. -/
theorem C27_null (fr : Frame) : Prepends (basicConstraintsContent fr none) [] := Prepends.pure

/-- **C27, negated** for path length 0: the byte next to a local variable is read, in every stream state.  Together with `C27_basic_constraints_partial` this says
exactly for which arguments the rendering is defined. -/
theorem C27_reads_outside (fr : Frame) (hfr : fr.adjacent = []) : Faults (basicConstraintsContent fr (some ⟨true, true, 0⟩)) .oobRead :=
  faults_basicConstraints fr hfr

/-- Non-vacuity of C27. -/
example :
    basicConstraintsContent ⟨[], [], false⟩ (some ⟨true, true, 0x80⟩) (some (streamInit (some (List.replicate 9 9)) 9)) =
      .ok ((), some ⟨some [0x30, 0x07, 0x01, 0x01, 0xff, 0x02, 0x02, 0x00, 0x80], 9, 9, false, false⟩) ∧
    basicConstraintsContent ⟨[], [], false⟩ (some ⟨false, true, 1⟩) (some (streamInit (some [9, 9]) 2)) =
      .ok ((), some ⟨some [0x30, 0x00], 2, 2, false, false⟩) := by
  constructor <;> decide +kernel

/-! ## C28 -/

/-- The result of applying the macros for the usages `flags` to a zero-initialised variable. -/
def keyUsageOf (flags : List (Fin 9)) : KeyUsage := flags.foldl (fun ku i => keyUsageSet i ku) ⟨0, 0⟩

/-- The variable in which exactly the flags in the bit mask `m` are set. -/
def keyUsageOfMask (m : Nat) : KeyUsage :=
  ([0, 1, 2, 3, 4, 5, 6, 7, 8] : List (Fin 9)).foldl (fun ku i => if m.testBit i.val then keyUsageSet i ku else ku) ⟨0, 0⟩

theorem keyUsageSet_mask : ∀ m : Fin 512, ∀ i : Fin 9,
    keyUsageSet i (keyUsageOfMask m) = keyUsageOfMask (m.val ||| 2 ^ i.val) := by decide +kernel

theorem keyUsage_bits : ∀ m : Fin 512,
    let bits := (bitsOf [(keyUsageOfMask m).mask0, (keyUsageOfMask m).mask1]).take (keyUsageBitCount (keyUsageOfMask m)).toNat
    (∀ i : Fin 9, (bits[i.val]?).getD false = m.val.testBit i.val) ∧ bits.length ≤ 9 ∧ bits.getLast? ≠ some false := by
  decide +kernel

theorem keyUsageOf_mask (flags : List (Fin 9)) (m : Nat) (hm : m < 512) :
    ∃ n, n < 512 ∧ flags.foldl (fun ku i => keyUsageSet i ku) (keyUsageOfMask m) = keyUsageOfMask n ∧
      ∀ i : Fin 9, n.testBit i.val = (m.testBit i.val || decide (i ∈ flags)) := by
  induction flags generalizing m with
  | nil => exact ⟨m, hm, rfl, by simp⟩
  | cons j fs ih =>
    have hlt : m ||| 2 ^ j.val < 512 := Nat.or_lt_two_pow (n := 9) hm (Nat.pow_lt_pow_right (by decide) j.isLt)
    obtain ⟨n, h1, h2, h3⟩ := ih (m ||| 2 ^ j.val) hlt
    refine ⟨n, h1, ?_, ?_⟩
    · rw [List.foldl_cons, ← h2, ← keyUsageSet_mask ⟨m, hm⟩ j]
    · intro i
      rw [h3 i, Nat.testBit_or, Nat.testBit_two_pow, Bool.or_assoc]
      congr 1
      rw [Bool.eq_iff_iff]
      simp only [Bool.or_eq_true, decide_eq_true_eq, List.mem_cons]
      constructor
      · rintro (h | h)
        · exact Or.inl (Fin.ext h.symm)
        · exact Or.inr h
      · rintro (h | h)
        · exact Or.inl (by rw [h])
        · exact Or.inr h

/-- **C28.** Whichever flags are set, in whichever order, the key usage renders as a BIT STRING whose bit `i` is set exactly
if flag `i` was set and which has no trailing zero bits. -/
theorem C28_key_usage (flags : List (Fin 9)) :
    ∃ bits, Prepends (keyUsageContent (some (keyUsageOf flags))) (bitString bits).encode ∧
      (∀ i : Fin 9, (bits[i.val]?).getD false = decide (i ∈ flags)) ∧ bits.length ≤ 9 ∧ bits.getLast? ≠ some false := by
  obtain ⟨n, h1, h2, h3⟩ := keyUsageOf_mask flags 0 (by decide)
  have hz : keyUsageOfMask 0 = ⟨0, 0⟩ := by decide
  rw [hz] at h2
  obtain ⟨k1, k2, k3⟩ := keyUsage_bits ⟨n, h1⟩
  have hn : ∀ i : Fin 9, n.testBit i.val = decide (i ∈ flags) := by
    intro i; rw [h3 i, Nat.zero_testBit, Bool.false_or]
  have hcount : (keyUsageBitCount (keyUsageOfMask n)).toNat ≤ 9 := by
    have : ∀ m : Fin 512, (keyUsageBitCount (keyUsageOfMask m)).toNat ≤ 9 := by decide +kernel
    exact this ⟨n, h1⟩
  have e : (keyUsageBitCount (keyUsageOfMask n)).toUInt64.toNat = (keyUsageBitCount (keyUsageOfMask n)).toNat :=
    UInt8.toNat_toUInt64 _
  refine ⟨_, ?_, fun i => ?_, k2, k3⟩
  · show Prepends (keyUsageContent (some (flags.foldl _ ⟨0, 0⟩))) _
    rw [h2]
    have := prepends_bits (some ⟨[], [(keyUsageOfMask n).mask0, (keyUsageOfMask n).mask1]⟩)
      (keyUsageBitCount (keyUsageOfMask n)).toUInt64 (by
        intro q hq
        cases hq
        rw [e]
        exact ⟨by omega, by simp; omega⟩)
    unfold bitsValue at this
    rw [e] at this
    exact this
  · rw [k1 i]; exact hn i

/-- **C28.** A NULL context renders nothing. -/
theorem C28_null : Prepends (keyUsageContent none) [] := Prepends.pure

/-- **C28.** Flag sets that differ render differently. -/
theorem C28_distinct (f g : List (Fin 9)) (bs : Bytes) (hl : bs.length < 2 ^ 64) (hf : Prepends (keyUsageContent (some (keyUsageOf f))) bs)
    (hg : Prepends (keyUsageContent (some (keyUsageOf g))) bs) (i : Fin 9) : i ∈ f ↔ i ∈ g := by
  obtain ⟨b1, p1, e1, _⟩ := C28_key_usage f
  obtain ⟨b2, p2, e2, _⟩ := C28_key_usage g
  have h1 := Prepends.unique hf p1 hl
  have h2 := Prepends.unique hg p2 hl
  have := encode_injective (classOk_bitString b1) (classOk_bitString b2) (by rw [h1]; exact hl) (by rw [h1, h2])
  have := bitString_inj this
  subst this
  have := (e1 i).symm.trans (e2 i)
  simpa using this

/-- Non-vacuity of C28: digital signature and key cert sign; decipher only. -/
example :
    keyUsageContent (some (keyUsageOf [5, 0])) (some (streamInit (some [9, 9, 9, 9]) 4)) =
      .ok ((), some ⟨some [3, 2, 2, 0x84], 4, 4, false, false⟩) ∧
    keyUsageContent (some (keyUsageOf [8])) (some (streamInit (some [9, 9, 9, 9, 9]) 5)) =
      .ok ((), some ⟨some [3, 3, 7, 0, 0x80], 5, 5, false, false⟩) := by
  constructor <;> decide +kernel

/-! ## C29 -/

/-- **C29.** Algorithm identifiers: OID, then nothing, NULL or the curve as selected by the variant. -/
theorem C29_algorithm (a : AlgorithmIdentifier) :
    ∃ bs, Prepends (x509AlgorithmIdentifier (some a)) bs ∧
      (bs.length < 2 ^ 64 → Der.parse bs = some (sequence (oidDer (oidValue a.oid) ::
        (if a.variant = 1 then [null] else if a.variant = 2 then [oidDer (oidValue a.ecCurve)] else [])))) := by
  refine ⟨_, prepends_algorithm a, fun hl => ?_⟩
  rw [strictly_parsed _ (classOk_algorithm _) hl]
  unfold Algorithm.der algorithmValue paramsValue
  congr 3
  by_cases h1 : a.variant = 1
  · simp only [if_pos h1]; rfl
  · simp only [if_neg h1]
    by_cases h2 : a.variant = 2
    · simp only [if_pos h2]
      cases oidValue a.ecCurve <;> rfl
    · simp only [if_neg h2]; rfl

/-- **C29.** A NULL algorithm identifier renders an empty SEQUENCE. -/
theorem C29_null : Prepends (x509AlgorithmIdentifier none) [0x30, 0x00] :=
  (prepends_sequence (ds := []) Prepends.pure).congr (by decide +kernel)

/-- **C29.** Public keys: the algorithm and exactly the given bits. -/
theorem C29_public_key (k : PublicKeyInfo) (h : SpkiArg k) :
    ∃ bs, Prepends (x509PublicKeyInfo (some k)) bs ∧
      (bs.length < 2 ^ 64 → Der.parse bs = some (sequence [(algorithmValue k.algorithmIdentifier).der,
        bitString (bitsValue k.publicKey k.publicKeyBits)])) := by
  refine ⟨_, prepends_spki k h, fun hl => ?_⟩
  rw [strictly_parsed _ (classOk_spki _) hl]
  rfl

/-- An elliptic curve public key. -/
def exampleKey : PublicKeyInfo := ⟨⟨some OID_EC_PUBLIC_KEY, 2, some OID_SECP256R1⟩, 11, some ⟨[], [0xab, 0xff]⟩⟩

theorem exampleKey_arg : SpkiArg exampleKey := by intro q hq; cases hq; decide

/-- Non-vacuity of C29. -/
example : SpkiArg exampleKey ∧ x509PublicKeyInfo (some exampleKey) (some (streamInit (some (List.replicate 28 9)) 28)) =
    .ok ((), some ⟨some [0x30, 0x1a, 0x30, 0x13, 0x06, 0x07, 0x2a, 0x86, 0x48, 0xce, 0x3d, 0x02, 0x01, 0x06, 0x08, 0x2a, 0x86,
      0x48, 0xce, 0x3d, 0x03, 0x01, 0x07, 0x03, 0x03, 0x05, 0xab, 0xe0], 28, 28, false, false⟩) :=
  ⟨exampleKey_arg, by decide +kernel⟩

/-! ## C30 -/

/-- **C30.** Validity: two GeneralizedTimes with the given texts, each replaced by its default if missing. -/
theorem C30_validity (v : Validity) (h : ValidityArg v) :
    ∃ bs, Prepends (x509Validity (some v)) bs ∧
      (bs.length < 2 ^ 64 → Der.parse bs = some (sequence [
        generalizedTime (if v.notBefore.buffer = none then ascii "19700101000000Z" else v.notBefore.bytes),
        generalizedTime (if v.notAfter.buffer = none then ascii "99991231235959Z" else v.notAfter.bytes)])) := by
  refine ⟨_, prepends_validity v h, fun hl => ?_⟩
  exact strictly_parsed (periodValue v).der (by simp [Period.der, sequence, generalizedTime, Der.ClassOk, ClassesOk]) hl

/-- Non-vacuity of C30: one time given, the other one missing. -/
example : ValidityArg ⟨⟨2, some ⟨[], [0x31, 0x32, 0x33]⟩⟩, Slice.null⟩ ∧
    x509Validity (some ⟨⟨2, some ⟨[], [0x31, 0x32, 0x33]⟩⟩, Slice.null⟩) (some (streamInit (some (List.replicate 23 9)) 23)) =
      .ok ((), some ⟨some ([0x30, 0x15, 0x18, 0x02, 0x31, 0x32, 0x18, 0x0f] ++ ascii "99991231235959Z"), 23, 23, false, false⟩) :=
  ⟨⟨slice_valid_of_le _ _ _ (by decide), by intro p hp; cases hp⟩, by decide +kernel⟩

/-! ## C31 -/

/-- A TBS certificate with two names, a key, a default validity and one extension. -/
def exampleTbs : Tbs where
  serialNumber := ⟨2, some ⟨[], [0x00, 0x81]⟩⟩
  signatureAlgorithm := ⟨some OID_ED25519, 0, none⟩
  issuerName := exampleName
  validity := ⟨Slice.null, ⟨15, some ⟨[], ascii "20300101000000Z"⟩⟩⟩
  subjectName := exampleName
  subjectPublicKeyInfo := exampleKey
  extensions := ⟨1, some [⟨some OID_KEY_USAGE, true, some (keyUsageContent (some (keyUsageOf [5])))⟩]⟩

/-- What the extension callback of the example renders. -/
def exampleContent : Extension → Bytes := fun _ => [3, 2, 2, 4]

theorem exampleTbs_arg (fr : Frame) : TbsArg fr exampleContent exampleTbs where
  serial := ⟨slice_valid_of_le _ _ _ (by decide), fun h => absurd h (by decide), fun _ _ => Or.inr (by decide)⟩
  issuer := exampleName_arg
  validity := ⟨(by intro p hp; cases hp), slice_valid_of_le _ _ _ (by decide)⟩
  subject := exampleName_arg
  spki := exampleKey_arg
  extensions := by
    intro l hl
    cases hl
    refine ⟨by decide, fun x hx => ?_⟩
    simp only [List.mem_singleton, show (exampleTbs.extensions.extensionsCount).toNat = 1 from rfl, List.take_succ_cons,
      List.take_zero] at hx
    subst hx
    show Prepends (keyUsageContent (some (keyUsageOf [5]))) [3, 2, 2, 4]
    refine (prepends_bits (some ⟨[], [0x04, 0x00]⟩) 6 (by intro q hq; cases hq; decide)).congr (by decide +kernel)

/-- **C31** (partial). The TBS certificate is the SEQUENCE of version `[0] 2`, serial number, signature algorithm, issuer,
validity, subject, public key and `[3]` extensions, each with the value of the input; an empty serial number is 0.
Missing: a serial number 0 if the byte next to it is not accessible, because the code reads it (`C31_reads_outside`). -/
theorem C31_tbs_partial (fr : Frame) (content : Extension → Bytes) (t : Tbs) (h : TbsArg fr content t) :
    ∃ bs, Prepends (x509CertTbs fr (some t)) bs ∧
      (bs.length < 2 ^ 64 → Der.parse bs = some (sequence ([
        .cons 2 0 [integer 2],
        serialDer (serialValue t.serialNumber),
        (algorithmValue t.signatureAlgorithm).der,
        nameDer (nameValue (some t.issuerName)),
        (periodValue t.validity).der,
        nameDer (nameValue (some t.subjectName)),
        (spkiValue t.subjectPublicKeyInfo).der] ++ extensionsDers (extensionsValue content t.extensions)))) := by
  refine ⟨_, prepends_tbs fr content t h, fun hl => ?_⟩
  rw [strictly_parsed _ (classOk_tbs _) hl]
  rfl

/-- **C31.** What serial numbers denote. -/
theorem C31_serial (s : Slice) (hb : s.buffer ≠ none) :
    (s.size = 0 → serialDer (serialValue s) = integer 0) ∧
    (s.size ≠ 0 → serialDer (serialValue s) = integer (fromBE s.bytes)) := by
  constructor
  · intro h; simp [serialValue, h, serialDer]
  · intro h; simp [serialValue, h, hb, serialDer]

/-- **C31, negated** for serial number 0: in every stream state and whatever the other fields are, the code reads outside of the serial number.  Together with
`C31_tbs_partial` this says exactly for which serial numbers the rendering is defined. -/
theorem C31_reads_outside (fr fr' : Frame) (content : Extension → Bytes) (t : Tbs) (serial : Slice) (h : TbsArg fr' content { t with serialNumber := serial })
    (hv : t.serialNumber.Valid)
    (h0 : (t.serialNumber.size = 0 ∧ fr.adjacent = []) ∨
      (t.serialNumber.size ≠ 0 ∧ t.serialNumber.buffer ≠ none ∧ fromBE t.serialNumber.bytes = 0 ∧ ¬ t.serialNumber.NeighbourReadable false)) :
    Faults (x509CertTbs fr (some t)) .oobRead :=
  faults_tbs fr fr' content t serial h (faults_serial fr _ hv h0)

/-- Non-vacuity of C31, negated: no serial number, and one with the value 0 followed by nothing. -/
example : TbsArg ⟨[], [], false⟩ exampleContent { { exampleTbs with serialNumber := Slice.null } with serialNumber := exampleTbs.serialNumber } ∧
    x509CertTbs ⟨[], [], false⟩ (some { exampleTbs with serialNumber := Slice.null }) (some (streamInit none 0)) = .error .oobRead ∧
    x509CertTbs ⟨[1], [1], false⟩ (some { exampleTbs with serialNumber := ⟨1, some ⟨[1], [0]⟩⟩ }) (some (streamInit none 0)) =
      .error .oobRead := by
  refine ⟨exampleTbs_arg _, by decide +kernel, by decide +kernel⟩

/-- Non-vacuity of C31: the example meets the hypotheses for every frame and is rendered. -/
example : (∀ fr, TbsArg fr exampleContent exampleTbs) ∧
    (x509CertTbs ⟨[], [], false⟩ (some exampleTbs) (some (streamInit none 0))).toOption.bind
      (fun r => r.2.map fun s => (s.bufferOverflow, s.writePosition)) = some (true, 163) :=
  ⟨exampleTbs_arg, by decide +kernel⟩

/-! ## C32 -/

/-- A certificate. -/
def exampleCert : X509 := ⟨some exampleTbs, ⟨some OID_ED25519, 0, none⟩, 32, some ⟨[], [0xde, 0xad, 0xbe, 0xef]⟩⟩

theorem exampleCert_arg (fr : Frame) : CertArg fr exampleContent exampleCert where
  tbs := by intro t ht; cases ht; exact exampleTbs_arg fr
  signature := by intro q hq; cases hq; decide

/-- **C32.** Whatever `n20_x509_cert_tbs` renders for the TBS input, the certificate is a SEQUENCE of exactly these bytes
followed by the signature algorithm and the signature.  Nothing is assumed about the TBS input but that it is rendered at
all, so this holds for all extension callbacks. -/
theorem C32_tbs_embedded (fr : Frame) (x : X509) (tbs : Bytes) (htbs : Prepends (x509CertTbs fr x.tbs) tbs)
    (hs : BitsArg x.signature x.signatureBits) :
    ∃ bs, Prepends (x509Cert fr (some x)) bs ∧
      (bs.length < 2 ^ 64 → parseTlv bs = some ((0, true, 16, tbs ++ ((algorithmValue x.signatureAlgorithm).der.encode ++
        (bitString (bitsValue x.signature x.signatureBits)).encode)), [])) := by
  have h1 := (prepends_bits x.signature x.signatureBits hs).bind (prepends_algorithm x.signatureAlgorithm)
  have h2 := h1.bind htbs
  simp only [bind_assoc] at h2
  refine ⟨_, prepends_hwc classUniversal true 0x10 (by decide) h2 tagInfoNoOverride, fun hl => ?_⟩
  have := parseTlv_tlv 0 true 16 (tbs ++ ((algorithmValue x.signatureAlgorithm).der.encode ++
        (bitString (bitsValue x.signature x.signatureBits)).encode)) [] (by decide) ?_
  · rw [List.append_nil] at this; exact this
  · refine Nat.lt_of_lt_of_le ?_ pow_bound
    refine Nat.lt_of_le_of_lt ?_ hl
    have := tlv_length 0 true 16 (tbs ++ ((algorithmValue x.signatureAlgorithm).der.encode ++
        (bitString (bitsValue x.signature x.signatureBits)).encode))
    exact Nat.le_trans (Nat.le_add_right _ 2) this

/-- **C32.** The TBS bytes inside of the certificate end where they should: a parser which reads the first element of the
certificate's contents gets the same element as from the separately rendered TBS certificate. -/
theorem C32_tbs_recovered (fr fr' : Frame) (content : Extension → Bytes) (x : X509) (h : CertArg fr content x)
    (h' : CertArg fr' content x) :
    ∃ bs tbs rest, Prepends (x509Cert fr (some x)) bs ∧ Prepends (x509CertTbs fr' x.tbs) tbs ∧
      (bs.length < 2 ^ 64 → parseTlv bs = some ((0, true, 16, tbs ++ rest), []) ∧
        ∃ c, parseTlv tbs = some (c, []) ∧ parseTlv (tbs ++ rest) = some (c, rest)) := by
  have ht := prepends_tbsDer fr content x.tbs h.tbs
  have ht' := prepends_tbsDer fr' content x.tbs h'.tbs
  obtain ⟨bs, h1, h2⟩ := C32_tbs_embedded fr x _ ht h.signature
  refine ⟨bs, _, _, h1, ht', fun hl => ⟨h2 hl, ?_⟩⟩
  obtain ⟨ds, hds⟩ : ∃ ds, tbsDer (x.tbs.map (tbsValue content)) = sequence ds := by
    cases x.tbs with
    | none => exact ⟨[], rfl⟩
    | some t => exact ⟨_, rfl⟩
  have hlen : (encodeAll ds).length < 256 ^ 127 := by
    refine Nat.lt_of_lt_of_le ?_ pow_bound
    have e2 := h2 hl
    have e3 := congrArg List.length (parseTlv_canonical _ _ _ _ _ _ e2).2
    have e4 := tlv_length 0 true 16 (encodeAll ds)
    have e6 := tlv_length 0 true 16 ((tbsDer (x.tbs.map (tbsValue content))).encode ++
      ((algorithmValue x.signatureAlgorithm).der.encode ++ (bitString (bitsValue x.signature x.signatureBits)).encode))
    rw [hds] at e3 e6
    have e7 := List.length_append (as := (sequence ds).encode) (bs := (algorithmValue x.signatureAlgorithm).der.encode ++ (bitString (bitsValue x.signature x.signatureBits)).encode)
    rw [List.append_nil] at e3
    have e5 : (sequence ds).encode.length = (tlv 0 true 16 (encodeAll ds)).length := rfl
    omega
  rw [hds]
  refine ⟨(0, true, 16, encodeAll ds), ?_, parseTlv_tlv 0 true 16 _ _ (by decide) hlen⟩
  have := parseTlv_tlv 0 true 16 (encodeAll ds) [] (by decide) hlen
  rw [List.append_nil] at this
  exact this

/-- Non-vacuity of C32 and C33. -/
example : (∀ fr, CertArg fr exampleContent exampleCert) ∧
    (x509Cert ⟨[], [], false⟩ (some exampleCert) (some (streamInit none 0))).toOption.bind
      (fun r => r.2.map fun s => (s.bufferOverflow, s.writePosition)) = some (true, 180) :=
  ⟨exampleCert_arg, by decide +kernel⟩

/-! ## C33 -/

/-- **C33** (partial). The complete output is consumed by the strict recursive DER parser, which yields the tree of the field
values.  Missing: serial number 0, as in C31. -/
theorem C33_certificate_partial (fr : Frame) (content : Extension → Bytes) (x : X509) (h : CertArg fr content x) :
    ∃ bs, Prepends (x509Cert fr (some x)) bs ∧ (bs.length < 2 ^ 64 → Der.parse bs = some (certValue content x).der) :=
  ⟨_, prepends_cert fr content x h, fun hl => strictly_parsed _ (classOk_cert _) hl⟩

/-- **C33, negated** for serial number 0: such a certificate cannot be rendered without reading outside of the serial number. -/
theorem C33_reads_outside (fr fr' : Frame) (content : Extension → Bytes) (x : X509) (t : Tbs) (ht : x.tbs = some t) (hb : BitsArg x.signature x.signatureBits) (serial : Slice)
    (h : TbsArg fr' content { t with serialNumber := serial }) (hv : t.serialNumber.Valid)
    (h0 : (t.serialNumber.size = 0 ∧ fr.adjacent = []) ∨
      (t.serialNumber.size ≠ 0 ∧ t.serialNumber.buffer ≠ none ∧ fromBE t.serialNumber.bytes = 0 ∧ ¬ t.serialNumber.NeighbourReadable false)) :
    Faults (x509Cert fr (some x)) .oobRead :=
  faults_cert fr x t ht hb (C31_reads_outside fr fr' content t serial h hv h0)

/-- **C33** (partial). Inputs which render to the same bytes denote the same field values.  Missing: serial number 0 as above,
and OIDs that C14 excludes, for which it is false (`C14_large_second_arc`). -/
theorem C33_unambiguous_partial (fr fr' : Frame) (content content' : Extension → Bytes) (x x' : X509) (h : CertArg fr content x)
    (h' : CertArg fr' content' x') (ho : (certValue content x).Ok) (ho' : (certValue content' x').Ok) (bs : Bytes) (hl : bs.length < 2 ^ 64) (hx : Prepends (x509Cert fr (some x)) bs)
    (hx' : Prepends (x509Cert fr' (some x')) bs) : certValue content x = certValue content' x' := by
  have h1 := Prepends.unique hx (prepends_cert fr content x h) hl
  have h2 := Prepends.unique hx' (prepends_cert fr' content' x' h') hl
  refine certValue_inj ho ho' ?_
  refine encode_injective (classOk_cert _) (classOk_cert _) (by rw [h1]; exact hl) (by rw [h1, h2])

theorem exampleArcs_ok (o : Option (List Nat)) (a b : Nat) (rest : List Nat) (h : o = some (a :: b :: rest))
    (h' : a ≤ 2 ∧ (a < 2 → b < 40) ∧ 40 * a + b < 128) : ArcsOk o := by
  intro arcs ha
  rw [h] at ha
  cases ha
  exact ⟨a, b, rest, rfl, h'⟩

theorem exampleName_ok : NameOk (nameValue (some exampleName)) := by
  intro l hl a ha
  have e : nameValue (some exampleName) =
      some [⟨some [2, 5, 4, 3], [0x41, 0x42]⟩, ⟨some [2, 5, 4, 5], [0x30, 0x66, 0x61, 0x30]⟩] := by rfl
  rw [e] at hl
  cases hl
  simp only [List.mem_cons, List.not_mem_nil, or_false] at ha
  rcases ha with rfl | rfl
  · intro arcs h; cases h; exact ⟨2, 5, [4, 3], rfl, by decide⟩
  · intro arcs h; cases h; exact ⟨2, 5, [4, 5], rfl, by decide⟩

/-- Non-vacuity of the hypotheses of C33 on OIDs. -/
theorem exampleCert_ok : (certValue exampleContent exampleCert).Ok where
  tbs := by
    intro t ht
    cases ht
    exact {
      signature := ⟨exampleArcs_ok _ 1 3 [101, 112] (by decide) (by decide), trivial⟩
      issuer := exampleName_ok
      subject := exampleName_ok
      spki := ⟨exampleArcs_ok _ 1 2 [840, 10045, 2, 1] (by decide) (by decide),
        ⟨1, 2, [840, 10045, 3, 1, 7], by decide, by decide⟩⟩
      extensions := by
        intro e he
        simp only [tbsValue, exampleTbs, extensionsValue, show (1 : UInt64).toNat = 1 from rfl, List.take_succ_cons,
          List.take_zero, List.map_cons, List.map_nil, List.mem_singleton] at he
        subst he
        exact exampleArcs_ok _ 2 5 [29, 15] (by decide) (by decide) }
  algorithm := ⟨exampleArcs_ok _ 1 3 [101, 112] (by decide) (by decide), trivial⟩

end Nat20
