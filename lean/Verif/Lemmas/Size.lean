import Verif.Spec.Size
import Verif.Lemmas.X509
import Verif.Lemmas.Dice
/-!
# The number of octets of a certificate
-/

namespace Nat20.Size

open Der Pki

theorem bitLength_zero : bitLength 0 = 0 := rfl

theorem bitLength_half {n : Nat} (h : n ≠ 0) : bitLength n = bitLength (n / 2) + 1 := by
  unfold bitLength
  rw [if_neg h, Nat.log2_def]
  by_cases h2 : 2 ≤ n
  · rw [if_pos h2, if_neg (by omega)]
  · rw [if_neg h2, if_pos (by omega)]

theorem bitLength_shift (k : Nat) : ∀ n, n / 2 ^ k ≠ 0 → bitLength n = bitLength (n / 2 ^ k) + k := by
  induction k with
  | zero => intro n _; simp
  | succ k ih =>
    intro n h
    have e : n / 2 ^ (k + 1) = n / 2 / 2 ^ k := by rw [Nat.div_div_eq_div_mul, Nat.pow_succ, Nat.mul_comm]
    have h0 : n ≠ 0 := by intro h0; apply h; rw [h0]; simp
    rw [e] at h ⊢
    rw [bitLength_half h0, ih (n / 2) h]; omega

theorem bitLength_le_iff (n k : Nat) : bitLength n ≤ k ↔ n < 2 ^ k := by
  unfold bitLength
  by_cases h : n = 0
  · rw [if_pos h, h]; simp [Nat.pow_pos]
  · rw [if_neg h, Nat.succ_le_iff, Nat.log2_lt h]

theorem bitLength_mono {m n : Nat} (h : m ≤ n) : bitLength m ≤ bitLength n := by
  rw [bitLength_le_iff]
  exact Nat.lt_of_le_of_lt h ((bitLength_le_iff n _).1 (Nat.le_refl _))

theorem bitLength_pos {n : Nat} (h : n ≠ 0) : 0 < bitLength n := by rw [bitLength_half h]; omega

theorem len_beBytes (n : Nat) : (beBytes n).length = (bitLength n + 7) / 8 := by
  induction n using Nat.strongRecOn with
  | _ n ih =>
    by_cases h : n = 0
    · rw [h, beBytes_zero]; rfl
    · rw [beBytes_pos h, List.length_append, ih (n / 256) (by omega)]
      by_cases h2 : n / 256 = 0
      · have h3 := (bitLength_le_iff n 8).2 (by omega)
        have h4 := bitLength_pos h
        rw [h2, bitLength_zero]; simp; omega
      · have := bitLength_shift 8 n (by simpa using h2)
        simp only [Nat.reducePow] at this
        rw [this]; simp; omega

theorem len_septets (n : Nat) : (septets n).length = (bitLength n + 6) / 7 := by
  induction n using Nat.strongRecOn with
  | _ n ih =>
    by_cases h : n = 0
    · rw [h, septets_zero]; rfl
    · rw [septets_pos h, List.length_append, ih (n / 128) (by omega)]
      by_cases h2 : n / 128 = 0
      · have h3 := (bitLength_le_iff n 7).2 (by omega)
        have h4 := bitLength_pos h
        rw [h2, bitLength_zero]; simp; omega
      · have := bitLength_shift 7 n (by simpa using h2)
        simp only [Nat.reducePow] at this
        rw [this]; simp; omega

theorem len_base128 (n : Nat) : (base128 n).length = max 1 ((bitLength n + 6) / 7) := by
  rw [base128, List.length_append, len_septets]
  by_cases h2 : n / 128 = 0
  · have h3 := (bitLength_le_iff n 7).2 (by omega)
    rw [h2, bitLength_zero]; simp; omega
  · have := bitLength_shift 7 n (by simpa using h2)
    simp only [Nat.reducePow] at this
    rw [this]; simp; omega

theorem natContent_shift {n : Nat} (h : n / 256 ≠ 0) : natContent n = natContent (n / 256) ++ [UInt8.ofNat (n % 256)] := by
  have h0 : n ≠ 0 := by omega
  unfold natContent
  rw [beBytes_pos h0]
  have hne := beBytes_ne_nil h
  cases hb : beBytes (n / 256) with
  | nil => exact absurd hb hne
  | cons b r =>
    simp only [List.cons_append]
    split <;> rfl

theorem len_natContent (n : Nat) : (natContent n).length = bitLength n / 8 + 1 := by
  induction n using Nat.strongRecOn with
  | _ n ih =>
    by_cases h2 : n / 256 = 0
    · have hn : n < 256 := by omega
      have : ∀ m : Fin 256, (natContent m.val).length = bitLength m.val / 8 + 1 := by decide +kernel
      exact this ⟨n, hn⟩
    · rw [natContent_shift h2, List.length_append, ih (n / 256) (by omega)]
      have := bitLength_shift 8 n (by simpa using h2)
      simp only [Nat.reducePow] at this
      rw [this]; simp

theorem len_lengthOctets (n : Nat) : (lengthOctets n).length = lengthField n := by
  unfold lengthOctets lengthField
  split
  · rfl
  · rw [List.length_cons, len_beBytes]; omega

theorem len_tlv (c : Nat) (k : Bool) (t : Nat) (ht : t < 31) (content : Bytes) : (tlv c k t content).length = element content.length := by
  simp only [tlv, identifierOctets, if_pos ht, List.length_append, len_lengthOctets, element, List.length_singleton]

theorem len_prim (c t : Nat) (ht : t < 31) (content : Bytes) : (Der.prim c t content).encode.length = element content.length := by
  rw [Der.encode, len_tlv c false t ht]

theorem len_cons (c t : Nat) (ht : t < 31) (ds : List Der) : (Der.cons c t ds).encode.length = element (encodeAll ds).length := by
  rw [Der.encode, len_tlv c true t ht]

theorem len_nil : (encodeAll []).length = 0 := rfl

theorem len_all_cons (d : Der) (ds : List Der) : (encodeAll (d :: ds)).length = d.encode.length + (encodeAll ds).length := by
  rw [encodeAll, List.length_append]

theorem len_all_append (a b : List Der) : (encodeAll (a ++ b)).length = (encodeAll a).length + (encodeAll b).length := by
  rw [encodeAll_append, List.length_append]

theorem len_all_map {α : Type} (f : α → Der) (g : α → Nat) (l : List α) (h : ∀ a ∈ l, (f a).encode.length = g a) :
    (encodeAll (l.map f)).length = (l.map g).sum := by
  induction l with
  | nil => rfl
  | cons a l ih =>
    rw [List.map_cons, len_all_cons, h a (by simp), ih fun b hb => h b (by simp [hb]), List.map_cons, List.sum_cons]

theorem len_sequence (ds : List Der) : (sequence ds).encode.length = element (encodeAll ds).length := len_cons 0 16 (by decide) ds

theorem len_set (ds : List Der) : (set ds).encode.length = element (encodeAll ds).length := len_cons 0 17 (by decide) ds

theorem len_null : Der.null.encode.length = 2 := rfl

theorem len_intContent (v : Int) : element (intContent v).length = integer v := by
  cases v with
  | ofNat n => rw [intContent, len_natContent]; rfl
  | negSucc n => rw [intContent, List.length_map, len_natContent]; rfl

theorem len_integer (v : Int) : (Der.integer v).encode.length = integer v := by
  rw [Der.integer, len_prim 0 2 (by decide), len_intContent]

theorem len_packBits (l : List Bool) : (packBits l).length = (l.length + 7) / 8 := by
  induction h : l.length using Nat.strongRecOn generalizing l with
  | _ n ih =>
    by_cases h0 : l = []
    · subst h0; rw [packBits_nil]; simp at h; subst h; rfl
    · have hl : l.length ≠ 0 := by simpa using h0
      rw [packBits_cons h0, List.length_cons, ih (l.drop 8).length (by simp; omega) (l.drop 8) rfl]
      simp only [List.length_drop]; omega

theorem len_bitString (l : List Bool) : (bitString l).encode.length = element (1 + (l.length + 7) / 8) := by
  rw [bitString, len_prim 0 3 (by decide), bitStringContent, List.length_cons, len_packBits, Nat.add_comm]

theorem len_bits (p : Option Ptr) (n : UInt64) (h : BitsArg p n) : (bitString (bitsValue p n)).encode.length = bits p n := by
  rw [len_bitString, bits]
  cases p with
  | none => simp [bitsValue]
  | some q =>
    have := (h q rfl).2
    simp only [bitsValue, List.length_take, bitsOf_length]
    rw [Nat.min_eq_left this]; simp

theorem len_oidCodeContent (arcs : List Nat) :
    (oidCodeContent arcs).length = 1 + ((arcs.drop 2).map fun a => max 1 ((bitLength a + 6) / 7)).sum := by
  unfold oidCodeContent
  rw [List.length_cons, List.length_flatten, List.map_map, Nat.add_comm]
  congr 2
  exact List.map_congr_left fun a _ => len_base128 a

theorem len_oid (o : Option Oid) : (oidDer (oidValue o)).encode.length = oid o := by
  cases o with
  | none => rfl
  | some o =>
    by_cases h : 10 < o.elemCount.toNat
    · simp only [oidValue, oid, if_pos h]; rfl
    · simp only [oidValue, oid, if_neg h]
      rw [oidDer, len_prim 0 6 (by decide), len_oidCodeContent]

/-- Arguments that denote the same OID have the same size. -/
theorem oid_congr {o o' : Option Oid} (h : oidValue o = oidValue o') : oid o = oid o' := by rw [← len_oid, ← len_oid, h]

theorem len_hexString (l : Bytes) : (hexString l).length = 2 * l.length := by
  induction l with
  | nil => rfl
  | cons a l ih =>
    have : hexString (a :: l) = [hexDigit (a.toNat / 16), hexDigit (a.toNat % 16)] ++ hexString l := rfl
    rw [this, List.length_append, ih]; simp; omega

theorem len_attribute (r : Rdn) : (attributeValue r).der.encode.length = rdn r := by
  rw [Attribute.der, len_set, len_all_cons, len_nil, len_sequence, len_all_cons, len_all_cons, len_nil, printableString, len_prim 0 19 (by decide)]
  have : (attributeValue r).type = oidValue r.type := rfl
  rw [this, len_oid]
  have e : (attributeValue r).value.length = attributeOctets r := by
    unfold attributeValue attributeOctets serialNumberArcs
    simp only
    split
    · rw [len_hexString]
    · omega
  rw [e]; rfl

theorem len_name (n : Name) : (nameDer (nameValue (some n))).encode.length = name n := by
  unfold nameValue name
  by_cases h : 8 < n.elementCount.toNat
  · simp only [if_pos h]; rfl
  · simp only [if_neg h]
    rw [nameDer, len_sequence, List.map_map, len_all_map _ rdn]
    intro r _; exact len_attribute r

theorem len_params (a : AlgorithmIdentifier) :
    (encodeAll (paramsValue a).ders).length = if a.variant = 1 then null else if a.variant = 2 then oid a.ecCurve else 0 := by
  unfold paramsValue
  split
  · rfl
  split
  · rw [← len_oid]
    cases oidValue a.ecCurve with
    | none => rfl
    | some arcs => simp only [Params.ders]; rw [len_all_cons, len_nil, Nat.add_zero]
  · rfl

theorem len_algorithm (a : AlgorithmIdentifier) : (algorithmValue a).der.encode.length = algorithm a := by
  rw [Algorithm.der, len_sequence, len_all_cons]
  have h1 : (algorithmValue a).oid = oidValue a.oid := rfl
  have h2 : (algorithmValue a).params = paramsValue a := rfl
  rw [h1, h2, len_oid, len_params]; rfl

theorem len_spki (k : PublicKeyInfo) (h : SpkiArg k) : (spkiValue k).der.encode.length = publicKeyInfo k := by
  rw [Spki.der, len_sequence, len_all_cons, len_all_cons, len_nil]
  have h1 : (spkiValue k).algorithm = algorithmValue k.algorithmIdentifier := rfl
  have h2 : (spkiValue k).key = bitsValue k.publicKey k.publicKeyBits := rfl
  rw [h1, h2, len_algorithm, len_bits _ _ h]; rfl

theorem len_time (s : Slice) (d : Bytes) (hd : d.length = 15) :
    (generalizedTime (if s.buffer = none then d else s.bytes)).encode.length = element (timeOctets s) := by
  rw [generalizedTime, len_prim 0 24 (by decide), timeOctets]
  split
  · rw [hd]
  · rfl

theorem len_period (v : Validity) : (periodValue v).der.encode.length = validity v := by
  rw [Period.der, len_sequence, len_all_cons, len_all_cons, len_nil]
  unfold periodValue
  simp only
  rw [len_time _ _ (by decide), len_time _ _ (by decide)]; rfl

theorem len_serial (s : Slice) : (serialDer (serialValue s)).encode.length = serial s := by
  unfold serialValue serial
  split
  · exact len_integer 0
  split
  · rfl
  · exact len_integer _

theorem len_extension (content : Extension → Bytes) (e : Extension) : (extValue content e).der.encode.length = extension (fun e => (content e).length) e := by
  have : (extValue content e).der = sequence (oidDer (oidValue e.oid) :: ((if e.critical then [boolean true] else []) ++ [octetString (content e)])) := rfl
  rw [this, len_sequence, len_all_cons, len_all_append, len_all_cons, len_nil, len_oid, octetString, len_prim 0 4 (by decide)]
  unfold extension
  cases e.critical
  · simp [encodeAll]
  · have : (boolean true).encode.length = 3 := rfl
    simp only [if_true, len_all_cons, len_nil, this]
    congr 1; omega

theorem extensionsValue_eq (content : Extension → Bytes) (e : Extensions) : extensionsValue content e = (announced e).map (extValue content) := by
  unfold extensionsValue announced
  cases e.extensions <;> simp

theorem len_extensions (content : Extension → Bytes) (e : Extensions) :
    (encodeAll (extensionsDers (extensionsValue content e))).length = extensions (fun e => (content e).length) e := by
  rw [extensionsValue_eq]
  unfold extensions
  cases h : announced e with
  | nil => rfl
  | cons a l =>
    rw [if_neg (by simp)]
    have : extensionsDers ((a :: l).map (extValue content)) = [.cons 2 3 [sequence (((a :: l).map (extValue content)).map Ext.der)]] := rfl
    rw [this, len_all_cons, len_nil, len_cons 2 3 (by decide), len_all_cons, len_nil, len_sequence, List.map_map,
      len_all_map _ (extension fun e => (content e).length)]
    · rfl
    · intro x _; exact len_extension content x

theorem len_tbs (fr : Frame) (content : Extension → Bytes) (t : Tbs) (h : TbsArg fr content t) :
    (tbsValue content t).der.encode.length = tbs (fun e => (content e).length) t := by
  rw [TbsValue.der, len_sequence, len_all_append]
  unfold tbsValue
  simp only [len_all_cons, len_nil, len_extensions, len_serial, len_algorithm, len_name, len_period, len_spki _ h.spki]
  have : (Der.cons 2 0 [Der.integer 2]).encode.length = 5 := by decide +kernel
  rw [this, tbs]
  congr 1; omega

theorem len_certificate (fr : Frame) (content : Extension → Bytes) (x : X509) (h : CertArg fr content x) :
    (certValue content x).der.encode.length = certificate (fun e => (content e).length) x := by
  rw [CertValue.der, len_sequence]
  unfold certValue certificate
  simp only [len_all_cons, len_nil, len_algorithm, len_bits _ _ h.signature]
  cases ht : x.tbs with
  | none =>
    have : (tbsDer (Option.map (tbsValue content) none)).encode.length = element 0 := rfl
    rw [this]; simp only
    congr 1; omega
  | some t =>
    simp only [Option.map_some, tbsDer, len_tbs fr content t (h.tbs t ht)]
    congr 1; omega

/-! ## Extension contents -/

theorem len_explicitly (t : Nat) (ht : t < 31) (d : Der) : (explicitly t d).encode.length = element d.encode.length := by
  rw [explicitly, Tagging.apply, len_cons 2 t ht, len_all_cons, len_nil, Nat.add_zero]

theorem len_implicitly (t : Nat) (ht : t < 31) (cls tag : Nat) (c : Bytes) : (implicitly t (.prim cls tag c)).encode.length = element c.length := by
  rw [implicitly, Tagging.apply, len_prim 2 t ht]

theorem len_present (s : Slice) (f : Bytes → Der) (size : Nat → Nat) (h : ∀ c, (f c).encode.length = size c.length) :
    (encodeAll (ifPresent f (sliceValue s))).length = optional s size := by
  unfold optional
  by_cases hb : s.buffer = none
  · rw [sliceValue_none hb, if_pos hb]; rfl
  · rw [sliceValue_some hb, if_neg hb]
    simp only [ifPresent, Option.map_some, Option.toList_some]
    rw [len_all_cons, len_nil, h, Nat.add_zero]

theorem len_openDice (i : OpenDiceInput) : (openDiceValue i).der.encode.length = openDiceInput i := by
  have ho : ∀ t, t < 31 → ∀ c : Bytes, (explicitly t (octetString c)).encode.length = explicitString c.length := by
    intro t ht c; rw [len_explicitly t ht, octetString, len_prim 0 4 (by decide)]; rfl
  have hu : ∀ t, t < 31 → ∀ c : Bytes, (explicitly t (utf8String c)).encode.length = explicitString c.length := by
    intro t ht c; rw [len_explicitly t ht, utf8String, len_prim 0 12 (by decide)]; rfl
  rw [OpenDiceValue.der, len_sequence]
  unfold openDiceValue openDiceInput
  simp only [len_all_append, len_all_cons, len_nil]
  rw [len_present _ _ _ (ho 0 (by decide)), len_present _ _ _ (ho 1 (by decide)), len_present _ _ _ (ho 2 (by decide)),
    len_present _ _ _ (ho 3 (by decide)), len_present _ _ _ (ho 4 (by decide)), len_present _ _ _ (ho 5 (by decide)),
    len_present _ _ _ (hu 7 (by decide)), len_explicitly 6 (by decide), len_integer]
  congr 1; omega

theorem len_fwid (f : Fwid) : (fwidValue f).der.encode.length = fwid f := by
  have : (fwidValue f).der = sequence [oidDer (oidValue (some f.hashAlgo)), octetString f.digest.bytes] := rfl
  rw [this, len_sequence, len_all_cons, len_all_cons, len_nil, len_oid, octetString, len_prim 0 4 (by decide)]; rfl

theorem len_fwids (t : TcbInfo) :
    (encodeAll (ifPresent (fun l : List FwidValue => implicitly 6 (sequence (l.map FwidValue.der))) (tcbInfoValue t).fwids)).length = fwids t := by
  unfold tcbInfoValue fwids
  cases t.fwids with
  | none => rfl
  | some l =>
    simp only [ifPresent, Option.map_some, Option.toList_some]
    rw [len_all_cons, len_nil, implicitly, sequence, Tagging.apply, len_cons 2 6 (by decide), List.map_map, len_all_map _ fwid, Nat.add_zero]
    intro f _; exact len_fwid f

theorem len_flags (m : Vector UInt8 4) (t : Nat) (ht : t < 31) : (implicitly t (bitString (bitsOf m.toList))).encode.length = 7 := by
  rw [bitString, len_implicitly t ht, bitStringContent_bitsOf, List.length_cons, Vector.length_toList]; rfl

theorem len_tcbInfo (t : TcbInfo) : (tcbInfoValue t).der.encode.length = tcbInfo t := by
  have ho : ∀ n, n < 31 → ∀ c : Bytes, (implicitly n (octetString c)).encode.length = element c.length := by
    intro n hn c; rw [octetString, len_implicitly n hn]
  have hu : ∀ n, n < 31 → ∀ c : Bytes, (implicitly n (utf8String c)).encode.length = element c.length := by
    intro n hn c; rw [utf8String, len_implicitly n hn]
  have hi : ∀ n, n < 31 → ∀ v : Int, (implicitly n (Der.integer v)).encode.length = integer v := by
    intro n hn v; rw [Der.integer, len_implicitly n hn, len_intContent]
  have hf := len_fwids t
  rw [TcbInfoValue.der, len_sequence]
  simp only [len_all_append, len_all_cons, len_nil]
  rw [hf]
  unfold tcbInfoValue tcbInfo
  simp only []
  rw [len_present _ _ _ (hu 0 (by decide)), len_present _ _ _ (hu 1 (by decide)), len_present _ _ _ (hu 2 (by decide)),
    hi 3 (by decide), hi 4 (by decide), hi 5 (by decide), len_flags _ 7 (by decide), len_flags _ 10 (by decide),
    len_present _ _ _ (ho 8 (by decide)), len_present _ _ _ (ho 9 (by decide))]
  congr 1; omega

/-! ## Monotonicity -/

theorem lengthField_mono {m n : Nat} (h : m ≤ n) : lengthField m ≤ lengthField n := by
  have := bitLength_mono h
  unfold lengthField
  split <;> split <;> omega

theorem element_mono {m n : Nat} (h : m ≤ n) : element m ≤ element n := by
  have := lengthField_mono h
  unfold element; omega

theorem integer_mono {m n : Nat} (h : m ≤ n) : integer (m : Int) ≤ integer (n : Int) := by
  have := bitLength_mono h
  exact element_mono (by omega)

theorem rdn_mono {r r' : Rdn} (h : RdnLe r r') : rdn r ≤ rdn r' := by
  unfold rdn
  rw [oid_congr h.1]
  have : attributeOctets r ≤ attributeOctets r' := by
    unfold attributeOctets; rw [h.1]; exact Nat.mul_le_mul_left _ h.2
  exact element_mono (element_mono (by have := element_mono this; omega))

theorem sum_mono {α β : Type} (f : α → Nat) (g : β → Nat) : ∀ (l : List α) (m : List β), l.length ≤ m.length →
    (∀ (i : Nat) x y, l[i]? = some x → m[i]? = some y → f x ≤ g y) → (l.map f).sum ≤ (m.map g).sum := by
  intro l
  induction l with
  | nil => intro m _ _; simp
  | cons a l ih =>
    intro m hl h
    cases m with
    | nil => simp at hl
    | cons b m =>
      have h0 := h 0 a b rfl rfl
      have := ih m (by simpa using hl) fun i x y hx hy => h (i + 1) x y (by simpa using hx) (by simpa using hy)
      simp only [List.map_cons, List.sum_cons]; omega

theorem name_mono {n n' : Name} (h : NameLe n n') : name n ≤ name n' := by
  obtain ⟨h1, h2, h3⟩ := h
  have h1 : n.elementCount.toNat ≤ n'.elementCount.toNat := UInt64.le_iff_toNat_le.1 h1
  have h2 : n'.elementCount.toNat ≤ 8 := UInt64.le_iff_toNat_le.1 h2
  unfold name
  rw [if_neg (by omega), if_neg (by omega)]
  apply element_mono
  apply sum_mono
  · simp; omega
  · intro i x y hx hy
    rw [List.getElem?_take] at hx hy
    split at hx
    · rename_i hi
      rw [if_pos (by omega)] at hy
      have hi8 : i < 8 := by omega
      have := h3 i hi8 hi
      rw [List.getElem?_eq_getElem (by simpa using hi8)] at hx hy
      simp only [Vector.getElem_toList, Option.some.injEq] at hx hy
      rw [← hx, ← hy]; exact rdn_mono this
    · cases hx

theorem bits_mono {p p' : Option Ptr} {n n' : UInt64} (h : BitsLe p n p' n') : bits p n ≤ bits p' n' := by
  have h2 : n.toNat ≤ n'.toNat := UInt64.le_iff_toNat_le.1 h.2
  unfold bits
  apply element_mono
  by_cases hp : p' = none
  · rw [if_pos hp, if_pos (h.1 hp)]; omega
  · rw [if_neg hp]
    split <;> omega

theorem serial_mono {s s' : Slice} (h : SerialLe s s') : serial s ≤ serial s' := by
  obtain ⟨h1, h2, h3⟩ := h
  have e : serial s' = integer (fromBE s'.bytes) := by
    unfold serial
    split
    · rename_i h0
      obtain ⟨size, buf⟩ := s'
      cases buf with
      | none => exact absurd rfl h1
      | some p => simp only at h0; subst h0; simp [Slice.bytes, fromBE]
    · rfl
  rw [e]
  unfold serial
  split
  · exact integer_mono (Nat.zero_le _)
  · rename_i h0
    rw [if_neg (h2 h0)]; exact integer_mono h3

theorem extension_mono {c c' : Extension → Nat} {e e' : Extension} (h : ExtensionLe c c' e e') : extension c e ≤ extension c' e' := by
  obtain ⟨h1, h2, h3⟩ := h
  have := element_mono h3
  unfold extension
  rw [oid_congr h1]
  apply element_mono
  cases hc : e.critical
  · simp; omega
  · rw [h2 hc]; omega

theorem extensions_mono {c c' : Extension → Nat} {e e' : Extensions} (h : ExtensionsLe c c' e e') : extensions c e ≤ extensions c' e' := by
  obtain ⟨h1, h2⟩ := h
  unfold extensions
  split
  · omega
  · rename_i hn
    rw [if_neg (by intro h0; rw [h0] at h1; simp at h1; exact hn h1)]
    exact element_mono (element_mono (sum_mono _ _ _ _ h1 fun i x y hx hy => extension_mono (h2 i x y hx hy)))

theorem tbs_mono {c c' : Extension → Nat} {t t' : Tbs} (h : TbsLe c c' t t') : tbs c t ≤ tbs c' t' := by
  have h1 := serial_mono h.serial
  have h2 := name_mono h.issuer
  have h3 := name_mono h.subject
  have h4 := bits_mono h.key
  have h5 := extensions_mono h.extensions
  have h6 := element_mono h.notBefore
  have h7 := element_mono h.notAfter
  have h8 : validity t.validity ≤ validity t'.validity := element_mono (by omega)
  have h9 : publicKeyInfo t.subjectPublicKeyInfo ≤ publicKeyInfo t'.subjectPublicKeyInfo := by
    unfold publicKeyInfo; rw [h.keyAlgorithm]; exact element_mono (by omega)
  unfold tbs
  rw [h.algorithm]
  exact element_mono (by omega)

theorem certificate_mono {c c' : Extension → Nat} {x x' : X509} (h : CertLe c c' x x') : certificate c x ≤ certificate c' x' := by
  obtain ⟨t, t', e, e', ht⟩ := h.tbs
  have h1 := tbs_mono ht
  have h2 := bits_mono h.signature
  unfold certificate
  rw [e, e', h.algorithm]
  exact element_mono (by simp only; omega)

end Nat20.Size
