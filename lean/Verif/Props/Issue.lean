import Verif.Lemmas.Issue
import Verif.Lemmas.Dice
/-!
# Issuing certificates: C59, C60
-/

namespace Nat20

open Der Fips Pki

/-! ## C59 -/

theorem ecdsaDer_valid (c : Curve) (r s : Nat) (hr : r < c.order) (hs : s < c.order) : IsEcdsaSignature (ecdsaDer r s) r s ∧ (ecdsaDer r s).length ≤ 104 := by
  have ho := order_lt c
  obtain ⟨hl, _⟩ := sigUnwrap_ok c.octets r s (by cases c <;> decide) (by cases c <;> decide) (by omega) (by omega) [] (List.replicate (2 * c.octets) 0) (by simp)
  refine ⟨⟨intContent r, intContent s, ?_, (intContent_spec _).1, (intContent_spec _).1, (intContent_spec _).2, (intContent_spec _).2⟩, hl⟩
  unfold ecdsaDer
  rw [strictly_parsed]
  · rfl
  · exact classOk_sequence ⟨by simp [integer, Der.ClassOk], by simp [integer, Der.ClassOk], trivial⟩
  · exact Nat.lt_of_le_of_lt hl (by decide)

/-- **C59.** The two halves of what `sign` returns for an EC key, rendered as INTEGERs in a SEQUENCE, are the DER signature of `(r, s)`: whatever else is in
memory in front of and behind the signature, and without reading any of it. -/
theorem C59_ecdsa_der (b rest : Bytes) (c : Curve) (r s : Nat) (hr : 1 ≤ r ∧ r < c.order) (hs : 1 ≤ s ∧ s < c.order) :
    ∃ bs, Prepends (x509Rs ⟨b, toBE c.octets r ++ toBE c.octets s ++ rest⟩ (UInt64.ofNat (2 * c.octets))) bs ∧ IsEcdsaSignature bs r s ∧ bs.length ≤ 104 := by
  have ho := order_lt c
  exact ⟨_, prepends_rs b rest c.octets r s (UInt64.ofNat (2 * c.octets)) (by cases c <;> rfl) hr.1 (by omega) hs.1 (by omega),
    ecdsaDer_valid c r s hr.2 hs.2⟩

/-! ## The certificate and its parts -/

theorem oid_eq (arcs : List Nat) (h : StandardArcs arcs) : oid arcs = oidDer (some arcs) := by
  obtain ⟨a, b, rest, h1, _, _, h4⟩ := h
  unfold oid oidDer
  rw [oidCodeContent_eq arcs a b rest h1 h4]
  rfl

theorem signatureAlgorithm_eq (type : UInt32) : (algorithmValue (signatureAlgorithmFor type)).der = signatureAlgorithm type := by
  unfold signatureAlgorithm signatureAlgorithmFor
  split
  · rw [oid_eq [1, 3, 101, 112] ⟨1, 3, _, rfl, by decide⟩]; rfl
  · split
    · rw [oid_eq [1, 2, 840, 10045, 4, 3, 2] ⟨1, 2, _, rfl, by decide⟩]; rfl
    · rw [oid_eq [1, 2, 840, 10045, 4, 3, 3] ⟨1, 2, _, rfl, by decide⟩]; rfl

theorem keyAlgorithm_eq (type : UInt32) : (algorithmValue (keyAlgorithmFor type)).der = keyAlgorithm type := by
  unfold keyAlgorithm keyAlgorithmFor
  split
  · rw [oid_eq [1, 3, 101, 112] ⟨1, 3, _, rfl, by decide⟩]; rfl
  · rw [oid_eq [1, 2, 840, 10045, 2, 1] ⟨1, 2, _, rfl, by decide⟩]
    split
    · rw [oid_eq [1, 2, 840, 10045, 3, 1, 7] ⟨1, 2, _, rfl, by decide⟩]; rfl
    · rw [oid_eq [1, 3, 132, 0, 34] ⟨1, 3, _, rfl, by decide⟩]; rfl

theorem splitElement_encode (d : Der) (h : d.ClassOk) (hl : d.encode.length < 2 ^ 64) (rest : Bytes) : splitElement (d.encode ++ rest) = some (d.encode, rest) := by
  have main : ∀ (c : Nat) (k : Bool) (t : Nat) (content : Bytes), c < 4 → d.encode = tlv c k t content → splitElement (d.encode ++ rest) = some (d.encode, rest) := by
    intro c k t content hc he
    have hcl : content.length < 256 ^ 127 := by
      refine Nat.lt_of_lt_of_le ?_ pow_bound
      refine Nat.lt_of_le_of_lt ?_ hl
      rw [he]
      exact Nat.le_trans (Nat.le_add_right _ 2) (tlv_length c k t content)
    unfold splitElement
    rw [he, parseTlv_tlv c k t content rest hc hcl]
    simp
  cases d with
  | prim c t content => exact main c false t content (by simpa [Der.ClassOk] using h) rfl
  | cons c t items => exact main c true t (encodeAll items) (by unfold Der.ClassOk at h; exact h.1) rfl

/-- The field values of the certificate. -/
def issuedTbs (content : Extension → Bytes) (t : Tbs) (issuerType subjectType : UInt32) (key : Bytes) : TbsValue :=
  { tbsValue content t with signature := algorithmValue (signatureAlgorithmFor issuerType), spki := ⟨algorithmValue (keyAlgorithmFor subjectType), bitsOf key⟩ }

def issuedValue (content : Extension → Bytes) (t : Tbs) (issuerType subjectType : UInt32) (key signature : Bytes) : CertValue :=
  ⟨some (issuedTbs content t issuerType subjectType key), algorithmValue (signatureAlgorithmFor issuerType), bitsOf signature⟩

theorem bitString_octets (l : Bytes) : bitString (bitsOf l) = .prim 0 3 (0 :: l) := by
  unfold bitString
  rw [bitStringContent_bitsOf]

theorem issuedTbs_der (content : Extension → Bytes) (t : Tbs) (issuerType subjectType : UInt32) (key : Bytes) :
    (issuedTbs content t issuerType subjectType key).der = .cons 0 16 ([
      .cons 2 0 [integer 2],
      serialDer (serialValue t.serialNumber),
      signatureAlgorithm issuerType,
      nameDer (nameValue (some t.issuerName)),
      (periodValue t.validity).der,
      nameDer (nameValue (some t.subjectName)),
      .cons 0 16 [keyAlgorithm subjectType, .prim 0 3 (0 :: key)]] ++ extensionsDers (extensionsValue content t.extensions)) := by
  rw [← signatureAlgorithm_eq, ← keyAlgorithm_eq, ← bitString_octets]
  rfl

theorem issuedValue_der (content : Extension → Bytes) (t : Tbs) (issuerType subjectType : UInt32) (key signature : Bytes) :
    (issuedValue content t issuerType subjectType key signature).der = issuedDer content t issuerType subjectType key signature := by
  unfold issuedDer
  rw [← issuedTbs_der, ← signatureAlgorithm_eq, ← bitString_octets]
  rfl

theorem issued_parts (content : Extension → Bytes) (t : Tbs) (issuerType subjectType : UInt32) (key signature : Bytes)
    (hl : (issuedDer content t issuerType subjectType key signature).encode.length < 2 ^ 64) :
    HasParts (issuedDer content t issuerType subjectType key signature).encode (issuedTbs content t issuerType subjectType key).der.encode
      (signatureAlgorithm issuerType) signature ∧
    HasKey (issuedTbs content t issuerType subjectType key).der.encode (signatureAlgorithm issuerType) (keyAlgorithm subjectType) key := by
  have e : (issuedDer content t issuerType subjectType key signature).encode = tlv 0 true 16 ((issuedTbs content t issuerType subjectType key).der.encode ++
      ((signatureAlgorithm issuerType).encode ++ ((Der.prim 0 3 (0 :: signature)).encode ++ []))) := by
    rw [issuedTbs_der]
    rfl
  have hlen := tlv_length 0 true 16 ((issuedTbs content t issuerType subjectType key).der.encode ++
      ((signatureAlgorithm issuerType).encode ++ ((Der.prim 0 3 (0 :: signature)).encode ++ [])))
  rw [← e] at hlen
  have hb := Nat.lt_of_le_of_lt (Nat.le_trans (Nat.le_add_right _ 2) hlen) hl
  have hb' := hb
  simp only [List.length_append, List.length_nil] at hb'
  have ha : (signatureAlgorithm issuerType).ClassOk := by rw [← signatureAlgorithm_eq]; exact classOk_algorithm _
  have ht : (issuedTbs content t issuerType subjectType key).der.ClassOk := classOk_tbs _
  have hs : (Der.prim 0 3 (0 :: signature)).ClassOk := by simp [Der.ClassOk]
  constructor
  · refine ⟨_, _, _, _, ?_, splitElement_encode _ ht (by omega) _, splitElement_encode _ ha (by omega) ((Der.prim 0 3 (0 :: signature)).encode ++ []), strictly_parsed _ ha (by omega), ?_⟩
    · have := parseTlv_tlv 0 true 16 ((issuedTbs content t issuerType subjectType key).der.encode ++
        ((signatureAlgorithm issuerType).encode ++ ((Der.prim 0 3 (0 :: signature)).encode ++ []))) [] (by decide)
        (Nat.lt_of_lt_of_le hb pow_bound)
      rw [List.append_nil] at this
      rw [e, this]
    · rw [List.append_nil]
      exact strictly_parsed _ hs (by omega)
  · refine ⟨.cons 2 0 [integer 2], serialDer (serialValue t.serialNumber), nameDer (nameValue (some t.issuerName)), (periodValue t.validity).der,
      nameDer (nameValue (some t.subjectName)), extensionsDers (extensionsValue content t.extensions), ?_⟩
    rw [strictly_parsed _ ht (by omega), issuedTbs_der]
    rfl

theorem issued_length (content : Extension → Bytes) (t : Tbs) (issuerType subjectType : UInt32) (key signature : Bytes) :
    (issuedTbs content t issuerType subjectType key).der.encode.length ≤ (issuedDer content t issuerType subjectType key signature).encode.length ∧
    signature.length ≤ (issuedDer content t issuerType subjectType key signature).encode.length := by
  have e : (issuedDer content t issuerType subjectType key signature).encode = tlv 0 true 16 ((issuedTbs content t issuerType subjectType key).der.encode ++
      ((signatureAlgorithm issuerType).encode ++ (tlv 0 false 3 (0 :: signature) ++ []))) := by
    rw [issuedTbs_der]
    rfl
  have hlen := tlv_length 0 true 16 ((issuedTbs content t issuerType subjectType key).der.encode ++
      ((signatureAlgorithm issuerType).encode ++ (tlv 0 false 3 (0 :: signature) ++ [])))
  have hlen2 := tlv_length 0 false 3 (0 :: signature)
  rw [← e] at hlen
  simp only [List.length_append, List.length_nil, List.length_cons] at hlen hlen2
  omega

/-! ## Steps of the program -/

theorem bitsOf_take (a b : Bytes) : (bitsOf (a ++ b)).take (8 * a.length) = bitsOf a := by
  have : bitsOf (a ++ b) = bitsOf a ++ bitsOf b := by simp [bitsOf]
  rw [this, List.take_append_of_le_length (by rw [bitsOf_length]; omega), List.take_of_length_le (by rw [bitsOf_length]; omega)]

/-- Type and contents of a key object that can sign. -/
theorem key_cases {k : BsslKey} {sk : PKey} (hk : KeyOk k) (hb : k.body = .inr sk) :
    (∃ seed, sk = .ed25519 seed ∧ seed.length = 32 ∧ k.type = 3) ∨
    (∃ c d, sk = .ec c d ∧ curveOf k.type = some c ∧ 1 ≤ d ∧ d < c.order ∧ ((k.type = 1 ∧ c = .p256) ∨ (k.type = 2 ∧ c = .p384))) := by
  obtain ⟨t, b⟩ := k
  simp only at hb
  subst hb
  cases sk with
  | ed25519 seed =>
    simp only [KeyOk] at hk
    exact .inl ⟨seed, rfl, hk.2, hk.1⟩
  | ec c d =>
    simp only [KeyOk] at hk
    refine .inr ⟨c, d, rfl, hk.1, hk.2.1, hk.2.2, ?_⟩
    have hc := hk.1
    simp only
    unfold curveOf at hc
    split at hc
    · rename_i h
      simp only [Option.some.injEq] at hc
      exact .inl ⟨h, hc.symm⟩
    · split at hc
      · rename_i h
        simp only [Option.some.injEq] at hc
        exact .inr ⟨h, hc.symm⟩
      · simp at hc

/-- The public key goes into the certificate as it should. -/
theorem keyInfo_ok (lib : Lib) (k : BsslKey) (sk : PKey) (hk : KeyOk k) (hb : k.body = .inr sk) (n : UInt64) (hn : documentedPublicKeySize k.type = some n)
    (hlen : (publicKeyOf lib sk).length = n.toNat) (first : UInt8) (rest : Bytes) :
    SpkiArg (keyInfo k.type first (publicKeyOf lib sk ++ rest) n) ∧
    spkiValue (keyInfo k.type first (publicKeyOf lib sk ++ rest) n) = ⟨algorithmValue (keyAlgorithmFor k.type), bitsOf (certifiedKey lib sk)⟩ := by
  rcases key_cases hk hb with ⟨seed, hsk, _, ht⟩ | ⟨c, d, hsk, _, _, _, ht⟩
  · have hn' : n = 32 := by rw [ht] at hn; simpa [documentedPublicKeySize] using hn.symm
    subst hn'
    have hl32 : (publicKeyOf lib sk).length = 32 := hlen
    have e : keyInfo k.type first (publicKeyOf lib sk ++ rest) 32 = ⟨keyAlgorithmFor k.type, 32 * 8, some ⟨[first], publicKeyOf lib sk ++ rest⟩⟩ := by
      unfold keyInfo
      rw [if_neg (by rw [ht]; decide)]
    have hb8 : ((32 : UInt64) * 8).toNat = 8 * (publicKeyOf lib sk).length := by rw [hl32]; decide
    rw [e]
    constructor
    · intro q hq
      simp only [Option.some.injEq] at hq
      subst hq
      simp only [hb8, List.length_append]
      omega
    · have hc : certifiedKey lib sk = publicKeyOf lib sk := by rw [hsk]; rfl
      unfold spkiValue bitsValue
      simp only [hb8, bitsOf_take, hc]
  · have hne : k.type ≠ 3 := by rcases ht with ht | ht <;> rw [ht.1] <;> decide
    have e : keyInfo k.type first (publicKeyOf lib sk ++ rest) n = ⟨keyAlgorithmFor k.type, (n + 1) * 8, some ⟨[], (0x04 :: publicKeyOf lib sk) ++ rest⟩⟩ := by
      unfold keyInfo
      rw [if_pos hne]
      rfl
    have hn' : n = 64 ∨ n = 96 := by
      rcases ht with ht | ht <;> rw [ht.1] at hn
      · left; simpa [documentedPublicKeySize] using hn.symm
      · right; simpa [documentedPublicKeySize] using hn.symm
    have hb8 : ((n + 1) * 8).toNat = 8 * ((0x04 : UInt8) :: publicKeyOf lib sk).length := by
      rw [List.length_cons, hlen]
      rcases hn' with h | h <;> subst h <;> decide
    have hsmall : ((n + 1) * 8).toNat ≤ 776 := by rcases hn' with h | h <;> subst h <;> decide
    rw [e]
    constructor
    · intro q hq
      simp only [Option.some.injEq] at hq
      subst hq
      simp only [List.length_append]
      omega
    · have hc : certifiedKey lib sk = 0x04 :: publicKeyOf lib sk := by rw [hsk]; rfl
      unfold spkiValue bitsValue
      simp only [hb8, bitsOf_take, hc]

theorem tbsFor_arg {fr : Frame} {content : Extension → Bytes} {t : Tbs} (h : TbsArg fr content t) (type : UInt32) {info : PublicKeyInfo} (hi : SpkiArg info) :
    TbsArg fr content (tbsFor t type info) where
  serial := h.serial
  issuer := h.issuer
  validity := h.validity
  subject := h.subject
  spki := hi
  extensions := h.extensions

theorem tbsFor_value (content : Extension → Bytes) (t : Tbs) (issuerType subjectType : UInt32) (info : PublicKeyInfo) (key : Bytes)
    (h : spkiValue info = ⟨algorithmValue (keyAlgorithmFor subjectType), bitsOf key⟩) :
    tbsValue content (tbsFor t issuerType info) = issuedTbs content t issuerType subjectType key := by
  unfold tbsValue tbsFor issuedTbs
  simp only [h]
  rfl

/-- The last step. -/
theorem issueCert_ok (fr : Frame) (content : Extension → Bytes) (t : Tbs) (issuerType subjectType : UInt32) (info : PublicKeyInfo) (key : Bytes)
    (h : TbsArg fr content t) (hi : SpkiArg info) (hv : spkiValue info = ⟨algorithmValue (keyAlgorithmFor subjectType), bitsOf key⟩)
    (signature rest : Bytes) (size : UInt64) (hs : size.toNat = signature.length) (hsmall : signature.length ≤ 104) (buffer : Bytes) (hb : buffer.length < 2 ^ 64) :
    (issueCert fr (tbsFor t issuerType info) (signature ++ rest) size buffer = .ok .tooSmall ∧
      buffer.length < (issuedDer content t issuerType subjectType key signature).encode.length) ∨
    (issueCert fr (tbsFor t issuerType info) (signature ++ rest) size buffer = .ok (.certificate (issuedDer content t issuerType subjectType key signature).encode) ∧
      (issuedDer content t issuerType subjectType key signature).encode.length ≤ buffer.length) := by
  have hb8 : (size * 8).toNat = 8 * signature.length := by
    rw [UInt64.toNat_mul]
    have : (8 : UInt64).toNat = 8 := rfl
    rw [this, hs]
    omega
  have hx : CertArg fr content ⟨some (tbsFor t issuerType info), (tbsFor t issuerType info).signatureAlgorithm, size * 8, some ⟨[], signature ++ rest⟩⟩ := by
    constructor
    · intro t' ht'
      simp only [Option.some.injEq] at ht'
      subst ht'
      exact tbsFor_arg h issuerType hi
    · intro q hq
      simp only [Option.some.injEq] at hq
      subst hq
      simp only [List.length_append]
      omega
  have hp := prepends_cert fr content _ hx
  have e : certValue content ⟨some (tbsFor t issuerType info), (tbsFor t issuerType info).signatureAlgorithm, size * 8, some ⟨[], signature ++ rest⟩⟩ =
      issuedValue content t issuerType subjectType key signature := by
    unfold certValue issuedValue
    simp only [Option.map_some, tbsFor_value content t issuerType subjectType info key hv, bitsValue, hb8, bitsOf_take]
    rfl
  rw [e, issuedValue_der] at hp
  rcases renderInto_ok hp buffer hb with ⟨h1, h2⟩ | ⟨mem, off, n, h1, _, h3, h4, h5⟩
  · left
    refine ⟨?_, h2⟩
    unfold issueCert
    rw [h1]
    rfl
  · right
    refine ⟨?_, h3⟩
    unfold issueCert
    rw [h1]
    show Except.ok (Issued.certificate _) = _
    rw [h5, h4, List.take_of_length_le (Nat.le_refl _)]

/-- The signature of the TBS certificate, as it is in the certificate. -/
def Signs (lib : Lib) (v : Verifier) (k : BsslKey) (sk : PKey) (text signature : Bytes) : Prop :=
  signature.length ≤ 104 ∧ SignatureValid v k.type (certifiedKey lib sk) text signature

theorem decodePoint_ok (lib : Lib) (v : Verifier) (hv : v.Accepts lib) (c : Curve) (d : Nat) : decodePoint c (certifiedKey lib (.ec c d)) = some (lib.ecPublic c d) := by
  obtain ⟨h1, h2⟩ := hv.point c d
  have hl1 := toBE_length c.octets (lib.ecPublic c d).1
  have hl2 := toBE_length c.octets (lib.ecPublic c d).2
  show (if (toBE c.octets (lib.ecPublic c d).1 ++ toBE c.octets (lib.ecPublic c d).2).length = 2 * c.octets then
    some (fromBE ((toBE c.octets (lib.ecPublic c d).1 ++ toBE c.octets (lib.ecPublic c d).2).take c.octets),
      fromBE ((toBE c.octets (lib.ecPublic c d).1 ++ toBE c.octets (lib.ecPublic c d).2).drop c.octets)) else none) = _
  rw [if_pos (by rw [List.length_append]; omega)]
  rw [List.take_append_of_le_length (by omega), List.take_of_length_le (by omega), List.drop_append_of_le_length (by omega), List.drop_of_length_le (by omega),
    List.nil_append, fromBE_toBE _ _ h1, fromBE_toBE _ _ h2]

theorem issueFinish_ok (lib : Lib) (hlib : lib.Standard) (v : Verifier) (hv : v.Accepts lib) (fr : Frame) (content : Extension → Bytes) (t : Tbs) (k : BsslKey) (sk : PKey)
    (hk : KeyOk k) (hb : k.body = .inr sk) (subjectType : UInt32) (info : PublicKeyInfo) (key : Bytes) (h : TbsArg fr content t) (hi : SpkiArg info)
    (hinfo : spkiValue info = ⟨algorithmValue (keyAlgorithmFor subjectType), bitsOf key⟩) (text sig rest : Bytes) (size : UInt64) (hsize : documentedSignatureSize k.type = some size)
    (hsig : IsSignature lib sk text sig) (hl : sig.length = size.toNat) (hrest : 104 ≤ (sig ++ rest).length) (buffer : Bytes) (hbuf : buffer.length < 2 ^ 64) :
    (∃ signature, Signs lib v k sk text signature ∧ issueFinish fr (tbsFor t k.type info) k.type (sig ++ rest) size buffer = .ok .tooSmall ∧
      buffer.length < (issuedDer content t k.type subjectType key signature).encode.length) ∨
    (∃ signature, Signs lib v k sk text signature ∧
      issueFinish fr (tbsFor t k.type info) k.type (sig ++ rest) size buffer = .ok (.certificate (issuedDer content t k.type subjectType key signature).encode) ∧
      (issuedDer content t k.type subjectType key signature).encode.length ≤ buffer.length) := by
  rcases key_cases hk hb with ⟨seed, hsk, hseed, ht⟩ | ⟨c, d, hsk, hc, hd1, hd2, ht⟩
  · have hn : size = 64 := by rw [ht] at hsize; simpa [documentedSignatureSize] using hsize.symm
    have e : issueFinish fr (tbsFor t k.type info) k.type (sig ++ rest) size buffer = issueCert fr (tbsFor t k.type info) (sig ++ rest) size buffer := by
      unfold issueFinish
      rw [if_neg (by rw [ht]; decide)]
    have hl64 : sig.length = 64 := by rw [hl, hn]; rfl
    have hs : Signs lib v k sk text sig := by
      refine ⟨by omega, ?_⟩
      unfold SignatureValid
      rw [if_pos ht]
      subst hsk
      simp only [IsSignature] at hsig
      rw [hsig]
      exact hv.ed seed text hseed
    rw [e]
    rcases issueCert_ok fr content t k.type subjectType info key h hi hinfo sig rest size hl.symm (by omega) buffer hbuf with h1 | h1
    · exact .inl ⟨sig, hs, h1⟩
    · exact .inr ⟨sig, hs, h1⟩
  · have hne : k.type ≠ 3 := by rcases ht with ht | ht <;> rw [ht.1] <;> decide
    have h12 : k.type = 1 ∨ k.type = 2 := ht.elim (fun h => .inl h.1) (fun h => .inr h.1)
    have hn : size = UInt64.ofNat (2 * c.octets) := by
      rcases ht with ht | ht <;> rw [ht.1] at hsize <;> rw [ht.2]
      · exact (Option.some.inj (hsize : some (64 : UInt64) = some size)).symm
      · exact (Option.some.inj (hsize : some (96 : UInt64) = some size)).symm
    subst hsk
    obtain ⟨n, hsig⟩ := hsig
    obtain ⟨hr1, hr2, hs1, hs2⟩ := hlib.ecSign c d (sha2 c.digest text) n
    have hver := hv.ec c d (sha2 c.digest text) n hd1 hd2
    generalize hrs : lib.ecSign c d (sha2 c.digest text) n = rs at *
    obtain ⟨r, s⟩ := rs
    simp only at hr1 hr2 hs1 hs2 hsig
    obtain ⟨hvalid, hl104⟩ := ecdsaDer_valid c r s hr2 hs2
    have hs : Signs lib v k (.ec c d) text (ecdsaDer r s) := by
      refine ⟨hl104, ?_⟩
      unfold SignatureValid
      rw [if_neg hne]
      exact ⟨c, lib.ecPublic c d, r, s, hc, decodePoint_ok lib v hv c d, hvalid, hver⟩
    have hp : Prepends (x509Rs ⟨[], sig ++ rest⟩ size) (ecdsaDer r s) := by
      have ho := order_lt c
      rw [hsig, hn]
      exact prepends_rs [] rest c.octets r s (UInt64.ofNat (2 * c.octets)) (by cases c <;> rfl) hr1 (by omega) hs1 (by omega)
    have e : issueFinish fr (tbsFor t k.type info) k.type (sig ++ rest) size buffer =
        (renderInto (x509Rs ⟨[], sig ++ rest⟩ size) buffer >>= fun r => match r with
          | none => Except.ok Issued.tooSmall
          | some (mem, off, n) => memcpy (some (sig ++ rest)) 0 (some ⟨mem.take off.toNat, mem.drop off.toNat⟩) n >>= fun signature =>
            issueCert fr (tbsFor t k.type info) signature n mem) := by
      unfold issueFinish
      rw [if_pos h12]
      rfl
    rw [e]
    rcases renderInto_ok hp buffer hbuf with ⟨h1, h2⟩ | ⟨mem, off, n, h1, h2, h3, h4, h5⟩
    · left
      refine ⟨ecdsaDer r s, hs, ?_, ?_⟩
      · rw [h1]; rfl
      · refine Nat.lt_of_lt_of_le h2 ?_
        exact (issued_length content t k.type subjectType key (ecdsaDer r s)).2
    · have hcopy : memcpy (some (sig ++ rest)) 0 (some ⟨mem.take off.toNat, mem.drop off.toNat⟩) n = .ok (ecdsaDer r s ++ (sig ++ rest).drop (ecdsaDer r s).length) := by
        unfold memcpy
        simp only [h5, h4]
        have e0 : (0 : UInt64).toNat = 0 := rfl
        rw [if_neg (by omega), e0, if_neg (by omega), List.take_zero, List.nil_append, List.take_of_length_le (Nat.le_refl _), Nat.zero_add]
      have e2 : (renderInto (x509Rs ⟨[], sig ++ rest⟩ size) buffer >>= fun r => match r with
          | none => Except.ok Issued.tooSmall
          | some (mem, off, n) => memcpy (some (sig ++ rest)) 0 (some ⟨mem.take off.toNat, mem.drop off.toNat⟩) n >>= fun signature =>
            issueCert fr (tbsFor t k.type info) signature n mem) =
          issueCert fr (tbsFor t k.type info) (ecdsaDer r s ++ (sig ++ rest).drop (ecdsaDer r s).length) n mem := by
        rw [h1]
        show (memcpy _ _ _ _ >>= fun signature => _) = _
        rw [hcopy]
        rfl
      rw [e2, ← h2]
      rcases issueCert_ok fr content t k.type subjectType info key h hi hinfo (ecdsaDer r s) ((sig ++ rest).drop (ecdsaDer r s).length) n h4 hl104 mem (by omega) with h1 | h1
      · exact .inl ⟨_, hs, h1⟩
      · exact .inr ⟨_, hs, h1⟩

/-! ## C60 -/

/-- What is promised about an attempt to issue a certificate. -/
def IssueResult (lib : Lib) (v : Verifier) (content : Extension → Bytes) (t : Tbs) (ks ki : BsslKey) (sks ski : PKey) (space : Nat) (w w' : World) : Issued → Prop
  | .failed e => LibFailure lib w w' e
  | .tooSmall => ∃ signature, signature.length ≤ 104 ∧ space < (issuedDer content t ki.type ks.type (certifiedKey lib sks) signature).encode.length
  | .certificate c =>
    Verifies v ki.type (certifiedKey lib ski) c ∧
    Certifies ks.type (certifiedKey lib sks) c ∧
    ∃ signature, Der.parse c = some (issuedDer content t ki.type ks.type (certifiedKey lib sks) signature)

theorem sizes {k : BsslKey} (ht : k.type = 1 ∨ k.type = 2 ∨ k.type = 3) :
    ∃ n m, documentedPublicKeySize k.type = some n ∧ n.toNat ≤ 96 ∧ documentedSignatureSize k.type = some m ∧ m.toNat ≤ 96 := by
  rcases ht with h | h | h <;> rw [h]
  · exact ⟨64, 64, rfl, by decide, rfl, by decide⟩
  · exact ⟨96, 96, rfl, by decide, rfl, by decide⟩
  · exact ⟨32, 64, rfl, by decide, rfl, by decide⟩

theorem LibFailure.later {lib : Lib} {w w1 w' : World} {e : N20Error} (h : LibFailure lib w1 w' e) (hc : w.calls ≤ w1.calls) : LibFailure lib w w' e := by
  obtain ⟨h1, i, h2, h3, h4⟩ := h
  exact ⟨h1, i, Nat.le_trans hc h2, h3, h4⟩

theorem LibFailure.earlier {lib : Lib} {w w1 w' : World} {e : N20Error} (h : LibFailure lib w w1 e) (hc : w1.calls ≤ w'.calls) : LibFailure lib w w' e := by
  obtain ⟨h1, i, h2, h3, h4⟩ := h
  exact ⟨h1, i, h2, Nat.lt_of_lt_of_le h3 hc, h4⟩

/-- **C60.** The key `ks` is certified by the key `ki`, both of any type that can sign, both anywhere in any state of the key objects, the fields being what `t` says.
If the program ends with a certificate, it has these fields, it certifies the public key of `ks`, and its signature, made over exactly the octets of the TBS certificate in
it, is valid under the public key of `ki`.  If it does not, a library call failed or the buffer is too small for the certificate.  Nothing undefined happens. -/
theorem C60_issue (lib : Lib) (hlib : lib.Standard) (v : Verifier) (hv : v.Accepts lib) (w : World) (hw : w.Ok)
    (subject issuer : Nat) (ks ki : BsslKey) (hls : Live w subject ks) (hli : Live w issuer ki)
    (hts : ks.type = 1 ∨ ks.type = 2 ∨ ks.type = 3) (hti : ki.type = 1 ∨ ki.type = 2 ∨ ki.type = 3)
    (fr : Frame) (content : Extension → Bytes) (t : Tbs) (h : TbsArg fr content t) (first : UInt8) (keyBuffer signature buffer : Bytes)
    (hkb : 96 ≤ keyBuffer.length ∧ keyBuffer.length < 2 ^ 64) (hsb : 104 ≤ signature.length ∧ signature.length < 2 ^ 64) (hbuf : buffer.length < 2 ^ 64) :
    ∃ sks ski res w', ks.body = .inr sks ∧ ki.body = .inr ski ∧
      issue lib fr t subject ks.type issuer ki.type first keyBuffer signature buffer w = .ok (res, w') ∧ w'.heap = w.heap ∧ w.calls ≤ w'.calls ∧
      IssueResult lib v content t ks ki sks ski buffer.length w w' res := by
  obtain ⟨sks, hbs⟩ := evp_body (hw _ _ hls) hts
  obtain ⟨ski, hbi⟩ := evp_body (hw _ _ hli) hti
  refine ⟨sks, ski, ?_⟩
  obtain ⟨n, _, hn, hn96, _, _⟩ := sizes hts
  obtain ⟨_, m, _, _, hm, hm96⟩ := sizes hti
  obtain ⟨rep, w1, e1, hh1, hc1, hr1⟩ := public_done lib hlib subject ks sks w hw hls hbs n hn keyBuffer hkb.2 (by omega)
  have hrun : issue lib fr t subject ks.type issuer ki.type first keyBuffer signature buffer w = (match rep.err, rep.out, rep.size with
      | .ok, some key, some size =>
        issueSigned lib fr (tbsFor t ki.type (keyInfo ks.type first key size)) issuer ki.type signature buffer
      | e, _, _ => (pure (.failed e) : B Issued)) w1 := bindB e1
  rw [hrun]
  clear hrun
  rcases hr1 with ⟨hrep, hlen⟩ | hfail
  · rw [hrep]
    simp only
    obtain ⟨hspki, hval⟩ := keyInfo_ok lib ks sks (hw _ _ hls) hbs n hn hlen first (keyBuffer.drop n.toNat)
    generalize hinfo : keyInfo ks.type first (publicKeyOf lib sks ++ keyBuffer.drop n.toNat) n = info at hspki hval
    have hp := prepends_tbs fr content _ (tbsFor_arg h ki.type hspki)
    rw [tbsFor_value content t ki.type ks.type info _ hval] at hp
    rcases renderInto_ok hp buffer hbuf with ⟨h1, h2⟩ | ⟨mem, off, nn, h1, h2, h3, h4, h5⟩
    · refine ⟨.tooSmall, w1, hbs, hbi, ?_, hh1, hc1, [], by simp, ?_⟩
      · unfold issueSigned
        rw [bindLift h1]
        rfl
      · exact Nat.lt_of_lt_of_le h2 (issued_length content t ki.type ks.type (certifiedKey lib sks) []).1
    · have hw1 : w1.Ok := by intro p k hk; rw [hh1] at hk; exact hw p k hk
      have hli1 : Live w1 issuer ki := by unfold Live; rw [hh1]; exact hli
      obtain ⟨rep2, w2, e2, hh2, hc2, hr2⟩ := sign_done lib hlib issuer ki ski w1 hw1 hli1 hbi m hm ⟨nn, some ⟨mem.take off.toNat, mem.drop off.toNat⟩⟩
        (by intro p hp; simp only [Option.some.injEq] at hp; subst hp; simp only [h5, h4]; exact Nat.le_refl _) (by simp) signature hsb.2 (by omega)
      have htext : Slice.bytes ⟨nn, some ⟨mem.take off.toNat, mem.drop off.toNat⟩⟩ = (issuedTbs content t ki.type ks.type (certifiedKey lib sks)).der.encode := by
        simp only [Slice.bytes, h5, h4]
        exact List.take_of_length_le (Nat.le_refl _)
      rw [htext] at hr2
      have hrun : issueSigned lib fr (tbsFor t ki.type info) issuer ki.type signature buffer w1 = (match rep2.err, rep2.out, rep2.size with
          | .ok, some sig, some size => liftB (issueFinish fr (tbsFor t ki.type info) ki.type sig size mem)
          | e, _, _ => (pure (.failed e) : B Issued)) w2 := by
        unfold issueSigned
        rw [bindLift h1]
        exact bindB e2
      rw [hrun]
      clear hrun
      rcases hr2 with ⟨sig, hrep2, hl2, hsig⟩ | hfail
      · rw [hrep2]
        simp only
        rcases issueFinish_ok lib hlib v hv fr content t ki ski (hw _ _ hli) hbi ks.type info (certifiedKey lib sks) h hspki hval _ sig (signature.drop m.toNat) m hm hsig hl2
          (by rw [List.length_append, List.length_drop]; omega) mem (by omega) with ⟨s, hs, h6, h7⟩ | ⟨s, hs, h6, h7⟩
        · refine ⟨.tooSmall, w2, hbs, hbi, ?_, hh2.trans hh1, Nat.le_trans hc1 hc2, s, hs.1, by omega⟩
          unfold liftB
          rw [h6]
          rfl
        · refine ⟨.certificate (issuedDer content t ki.type ks.type (certifiedKey lib sks) s).encode, w2, hbs, hbi, ?_, hh2.trans hh1, Nat.le_trans hc1 hc2, ?_⟩
          · unfold liftB
            rw [h6]
            rfl
          · have hlt : (issuedDer content t ki.type ks.type (certifiedKey lib sks) s).encode.length < 2 ^ 64 := by omega
            obtain ⟨p1, p2⟩ := issued_parts content t ki.type ks.type (certifiedKey lib sks) s hlt
            refine ⟨⟨_, s, p1, hs.2, _, _, p2⟩, ⟨_, _, s, p1, p2⟩, s, ?_⟩
            refine strictly_parsed _ ?_ hlt
            rw [← issuedValue_der]
            exact classOk_cert _
      · refine ⟨.failed rep2.err, w2, hbs, hbi, ?_, hh2.trans hh1, Nat.le_trans hc1 hc2, hfail.later hc1⟩
        have := hfail.not_ok
        obtain ⟨re, ro, rs⟩ := rep2
        cases re
        · exact absurd rfl this
        all_goals rfl
  · refine ⟨.failed rep.err, w1, hbs, hbi, ?_, hh1, hc1, hfail⟩
    have := hfail.not_ok
    obtain ⟨re, ro, rs⟩ := rep
    cases re
    · exact absurd rfl this
    all_goals rfl

/-- **C60.** The program succeeds if no library call fails and the buffer is large enough for the certificate with any signature. -/
theorem C60_succeeds (lib : Lib) (hlib : lib.Standard) (v : Verifier) (hv : v.Accepts lib) (hnofail : ∀ i, lib.fails i = false) (w : World) (hw : w.Ok)
    (subject issuer : Nat) (ks ki : BsslKey) (hls : Live w subject ks) (hli : Live w issuer ki)
    (hts : ks.type = 1 ∨ ks.type = 2 ∨ ks.type = 3) (hti : ki.type = 1 ∨ ki.type = 2 ∨ ki.type = 3)
    (fr : Frame) (content : Extension → Bytes) (t : Tbs) (h : TbsArg fr content t) (first : UInt8) (keyBuffer signature buffer : Bytes)
    (hkb : 96 ≤ keyBuffer.length ∧ keyBuffer.length < 2 ^ 64) (hsb : 104 ≤ signature.length ∧ signature.length < 2 ^ 64) (hbuf : buffer.length < 2 ^ 64)
    (hlarge : ∀ key s : Bytes, key.length ≤ 97 → s.length ≤ 104 → (issuedDer content t ki.type ks.type key s).encode.length ≤ buffer.length) :
    ∃ c w', issue lib fr t subject ks.type issuer ki.type first keyBuffer signature buffer w = .ok (.certificate c, w') := by
  obtain ⟨sks, ski, res, w', hbs, _, e, _, _, hres⟩ := C60_issue lib hlib v hv w hw subject issuer ks ki hls hli hts hti fr content t h first keyBuffer signature buffer hkb hsb hbuf
  cases res with
  | failed er =>
    obtain ⟨_, i, _, _, hi⟩ := hres
    rw [hnofail i] at hi
    simp at hi
  | tooSmall =>
    obtain ⟨s, hs, hlt⟩ := hres
    have hk : (certifiedKey lib sks).length ≤ 97 := by
      rcases key_cases (hw _ _ hls) hbs with ⟨seed, hsk, _, _⟩ | ⟨c, d, hsk, _⟩ <;> subst hsk
      · show (lib.edPublic seed).length ≤ 97
        rw [hlib.edPublic]
        decide
      · show (_ :: (toBE c.octets _ ++ toBE c.octets _)).length ≤ 97
        rw [List.length_cons, List.length_append, toBE_length, toBE_length]
        cases c <;> decide
    have := hlarge _ s hk hs
    omega
  | certificate c => exact ⟨c, w', e⟩

theorem hasParts_unique {cert tbs tbs' : Bytes} {a a' : Der} {s s' : Bytes} (h : HasParts cert tbs a s) (h' : HasParts cert tbs' a' s') : tbs = tbs' ∧ a = a' ∧ s = s' := by
  obtain ⟨body, r1, alg, r2, h1, h2, h3, h4, h5⟩ := h
  obtain ⟨body', r1', alg', r2', h1', h2', h3', h4', h5'⟩ := h'
  rw [h1] at h1'
  cases h1'
  rw [h2] at h2'
  cases h2'
  rw [h3] at h3'
  cases h3'
  rw [h4] at h4'
  cases h4'
  rw [h5] at h5'
  cases h5'
  exact ⟨rfl, rfl, rfl⟩

/-- A certificate certifies one key only. -/
theorem certifies_unique {type type' : UInt32} {key key' cert : Bytes} (h : Certifies type key cert) (h' : Certifies type' key' cert) : key = key' := by
  obtain ⟨tbs, a, s, h1, x1, x2, x3, x4, x5, x6, h2⟩ := h
  obtain ⟨tbs', a', s', h1', y1, y2, y3, y4, y5, y6, h2'⟩ := h'
  obtain ⟨e1, e2, e3⟩ := hasParts_unique h1 h1'
  subst e1 e2 e3
  rw [h2] at h2'
  simp only [Option.some.injEq, Der.cons.injEq, List.cons.injEq, Der.prim.injEq, true_and, and_true] at h2'
  exact h2'.2.2.2.2.2.1.2

/-- **C60** (chains).  A certificate made with the key that another certificate certifies can be verified with what is in that certificate: the public key found in the parent
accepts the child.  In particular (same key, same certificate) self-signed certificates verify under the key in them. -/
theorem C60_chain (lib : Lib) (v : Verifier) (content content' : Extension → Bytes) (t t' : Tbs) (kg kp kc : BsslKey) (skg skp skc : PKey) (space space' : Nat)
    (w1 w2 w3 w4 : World) (parent child : Bytes) (hp : IssueResult lib v content t kp kg skp skg space w1 w2 (.certificate parent))
    (hc : IssueResult lib v content' t' kc kp skc skp space' w3 w4 (.certificate child)) :
    (∃ key, Certifies kp.type key parent) ∧ ∀ key, Certifies kp.type key parent → Verifies v kp.type key child := by
  refine ⟨⟨_, hp.2.1⟩, fun key hk => ?_⟩
  rw [certifies_unique hk hp.2.1]
  exact hc.1

/-! ## Examples -/

/-- The verification algorithm that accepts exactly what the library signs. -/
def exactVerifier (lib : Lib) : Verifier where
  ec c p h rs := ∃ d n, p = lib.ecPublic c d ∧ rs = lib.ecSign c d h n
  ed key m s := ∃ seed, key = lib.edPublic seed ∧ s = lib.edSign seed m

theorem calmLib_accepts : (exactVerifier calmLib).Accepts calmLib where
  ec := fun _ d _ n _ _ => ⟨d, n, rfl, rfl⟩
  ed := fun seed _ _ => ⟨seed, rfl, rfl⟩
  point := fun c _ => by
    show 1 < 256 ^ c.octets ∧ 2 < 256 ^ c.octets
    cases c <;> decide

/-- Length of the certificate, or 0. -/
def certificateLength (r : Except UB (Issued × World)) : Option Nat :=
  match r with
  | .ok (.certificate c, _) => some c.length
  | .ok (.tooSmall, _) => some 0
  | _ => none

/-- Non-vacuity of C59: a signature with a leading zero in one half and a set sign bit in the other. -/
example : (1 ≤ 5 ∧ 5 < Curve.p256.order) ∧ (1 ≤ 2 ^ 255 ∧ 2 ^ 255 < Curve.p256.order) ∧
    (renderInto (x509Rs ⟨[], toBE 32 5 ++ toBE 32 (2 ^ 255)⟩ 64) (List.replicate 40 0)) =
      .ok (some ([0x30, 38, 2, 1, 5, 2, 33, 0, 0x80] ++ List.replicate 31 0, 0, 40)) := by
  refine ⟨by decide, by decide, by decide +kernel⟩

/-- Non-vacuity of C60: the hypotheses are met for a P-256 and an Ed25519 key, certifying each other. -/
example : calmLib.Standard ∧ (exactVerifier calmLib).Accepts calmLib ∧ someKeys.Ok ∧
    Live someKeys 1 ⟨1, .inr (.ec .p256 5)⟩ ∧ Live someKeys 2 ⟨3, .inr (.ed25519 (List.replicate 32 8))⟩ ∧ (∀ fr, TbsArg fr exampleContent exampleTbs) :=
  ⟨calmLib_standard, calmLib_accepts, someKeys_ok, rfl, rfl, exampleTbs_arg⟩

example : certificateLength (issue calmLib ⟨[], [], false⟩ exampleTbs 2 3 1 1 0 (List.replicate 127 0) (List.replicate 128 0) (List.replicate 210 0) someKeys) = some 210 := by
  decide +kernel

end Nat20
