import Verif.Lemmas.X509
import Verif.Lemmas.Cbor
import Verif.Model.Dice
/-!
# Rendering does not depend on the stream

For writers with arbitrary arguments, for which it is not known which bytes they write.
-/

namespace Nat20

/-- What every writer guarantees about the stream, whatever its arguments are: the stream stays well-formed, the buffer stays
where it is, flags are not cleared, and what was written earlier (and what is behind the buffer) keeps its value. -/
structure Kept (s t : Stream) : Prop where
  wf : t.WF
  size_eq : t.size = s.size
  same_buffer : t.begin_.map List.length = s.begin_.map List.length
  bo : s.bufferOverflow = true → t.bufferOverflow = true
  wpo : s.writePositionOverflow = true → t.writePositionOverflow = true
  grows : t.writePositionOverflow = false → s.writePosition.toNat ≤ t.writePosition.toNat
  keeps : s.bufferOverflow = false → ∀ mem, s.begin_ = some mem → ∃ mem', t.begin_ = some mem' ∧
    mem'.drop (s.size.toNat - s.writePosition.toNat) = mem.drop (s.size.toNat - s.writePosition.toNat)
  dead : s.bufferOverflow = true → t.begin_ = s.begin_

theorem Prepended.kept {s t : Stream} {bs : Bytes} (h : Prepended s t bs) (ht : t.WF) : Kept s t where
  wf := ht
  size_eq := h.size_eq
  same_buffer := h.same_buffer
  bo hb := h.bo_iff.2 (Or.inl hb)
  wpo hb := h.wpo_iff.2 (Or.inl hb)
  grows hb := by rw [h.count hb]; omega
  keeps := h.keeps
  dead := h.dead

theorem not_bo_not_wpo {s : Stream} (h : s.WF) (hb : s.bufferOverflow = false) : s.writePositionOverflow = false := by
  cases hx : s.writePositionOverflow with
  | false => rfl
  | true => rw [h.wpo_bo hx] at hb; cases hb

theorem Kept.trans {s t u : Stream} (h : Kept s t) (h' : Kept t u) : Kept s u where
  wf := h'.wf
  size_eq := h'.size_eq.trans h.size_eq
  same_buffer := h'.same_buffer.trans h.same_buffer
  bo hb := h'.bo (h.bo hb)
  wpo hb := h'.wpo (h.wpo hb)
  grows hb := by
    have : t.writePositionOverflow = false := by
      cases hx : t.writePositionOverflow with
      | false => rfl
      | true => rw [h'.wpo hx] at hb; cases hb
    exact Nat.le_trans (h.grows this) (h'.grows hb)
  keeps hb mem hm := by
    obtain ⟨mem1, e1, d1⟩ := h.keeps hb mem hm
    cases hx : t.bufferOverflow with
    | true => exact ⟨mem1, by rw [h'.dead hx, e1], d1⟩
    | false =>
      obtain ⟨mem2, e2, d2⟩ := h'.keeps hx mem1 e1
      refine ⟨mem2, e2, ?_⟩
      have hg := h.grows (not_bo_not_wpo h.wf hx)
      rw [h.size_eq] at d2
      have : s.size.toNat - s.writePosition.toNat =
          (s.size.toNat - t.writePosition.toNat) + ((s.size.toNat - s.writePosition.toNat) - (s.size.toNat - t.writePosition.toNat)) := by
        omega
      rw [← d1, this, ← List.drop_drop, d2, List.drop_drop]
  dead hb := by rw [h'.dead (h.bo hb), h.dead hb]

/-- The writer keeps the stream in order. -/
def Mono (w : W Unit) : Prop := ∀ s r, s.WF → w (some s) = .ok ((), r) → ∃ t, r = some t ∧ Kept s t

/-- If the writer once succeeds without overflow, it prepends certain bytes, always. -/
structure Det (w : W Unit) : Prop where
  mono : Mono w
  det : ∀ s t, s.WF → w (some s) = .ok ((), some t) → t.bufferOverflow = false → ∃ bs, Prepends w bs

theorem Prepends.mono {w : W Unit} {bs : Bytes} (h : Prepends w bs) : Mono w := by
  intro s r hs e
  obtain ⟨t, e', ht, hp⟩ := h.run s hs
  rw [e] at e'
  cases e'
  exact ⟨t, rfl, hp.kept ht⟩

theorem Prepends.isDet {w : W Unit} {bs : Bytes} (h : Prepends w bs) : Det w := ⟨h.mono, fun _ _ _ _ _ => ⟨bs, h⟩⟩

theorem Mono.bind {w v : W Unit} (h : Mono w) (h' : Mono v) : Mono (w >>= fun _ => v) := by
  intro s r hs e
  simp only [Bind.bind, StateT.bind, Except.bind] at e
  cases x : w (some s) with
  | error y => rw [x] at e; cases e
  | ok p =>
    obtain ⟨⟨⟩, r1⟩ := p
    rw [x] at e
    obtain ⟨t1, e1, k1⟩ := h s r1 hs x
    subst e1
    obtain ⟨t, e2, k2⟩ := h' t1 r k1.wf e
    exact ⟨t, e2, k1.trans k2⟩

theorem Mono.byteCount {f : UInt64 → W Unit} (h : ∀ m, Mono (f m)) : Mono (Nat20.byteCount >>= f) :=
  fun s r hs e => h s.writePosition s r hs e

theorem Mono.pure : Mono (Pure.pure ()) := Prepends.pure.mono

theorem Det.bind {w v : W Unit} (h : Det w) (h' : Det v) : Det (w >>= fun _ => v) := by
  refine ⟨h.mono.bind h'.mono, ?_⟩
  intro s t hs e hb
  simp only [Bind.bind, StateT.bind, Except.bind] at e
  cases x : w (some s) with
  | error y => rw [x] at e; cases e
  | ok p =>
    obtain ⟨⟨⟩, r1⟩ := p
    rw [x] at e
    obtain ⟨t1, e1, k1⟩ := h.mono s r1 hs x
    subst e1
    obtain ⟨t', e2, k2⟩ := h'.mono t1 _ k1.wf e
    cases e2
    have hb1 : t1.bufferOverflow = false := by
      cases hx : t1.bufferOverflow with
      | false => rfl
      | true => rw [k2.bo hx] at hb; cases hb
    obtain ⟨b1, p1⟩ := h.det s t1 hs x hb1
    obtain ⟨b2, p2⟩ := h'.det t1 t k1.wf e hb
    exact ⟨_, p1.bind p2⟩

theorem Det.pure : Det (Pure.pure ()) := Prepends.pure.isDet

theorem Det.lift {α : Type} {v : Except UB α} {f : α → W Unit} (h : ∀ a, v = .ok a → Det (f a)) : Det (liftM v >>= f) := by
  cases v with
  | error e => exact ⟨(fun s r _ h => by cases h), (fun s t _ h => by cases h)⟩
  | ok a => exact h a rfl

theorem Det.error {e : UB} : Det (liftM (Except.error e : Except UB Unit)) :=
  ⟨(fun s r _ h => by cases h), (fun s t _ h => by cases h)⟩

theorem Det.frame {w : W Unit} {k : UInt64 → W Unit} (hw : Det w) (hk : ∀ m, Mono (k m))
    (hp : ∀ bs, Prepends w bs → ∃ bs', Prepends (byteCount >>= fun mark => w >>= fun _ => k mark) bs') :
    Det (byteCount >>= fun mark => w >>= fun _ => k mark) := by
  refine ⟨Mono.byteCount fun m => hw.mono.bind (hk m), ?_⟩
  intro s t hs e hb
  have e : (w >>= fun _ => k s.writePosition) (some s) = .ok ((), some t) := e
  simp only [Bind.bind, StateT.bind, Except.bind] at e
  cases x : w (some s) with
  | error y => rw [x] at e; cases e
  | ok p =>
    obtain ⟨⟨⟩, r1⟩ := p
    rw [x] at e
    obtain ⟨t1, e1, k1⟩ := hw.mono s r1 hs x
    subst e1
    obtain ⟨t', e2, k2⟩ := hk s.writePosition t1 _ k1.wf e
    cases e2
    have hb1 : t1.bufferOverflow = false := by
      cases hx : t1.bufferOverflow with
      | false => rfl
      | true => rw [k2.bo hx] at hb; cases hb
    obtain ⟨b1, p1⟩ := hw.det s t1 hs x hb1
    exact hp b1 p1

theorem det_streamPrepend (src : Option Ptr) (n : UInt64) : Det (streamPrepend src n) := by
  have key : ∀ s r, s.WF → streamPrepend src n (some s) = .ok ((), r) →
      ∃ t, r = some t ∧ Kept s t ∧
        (t.bufferOverflow = false → ∃ bs, Prepends (streamPrepend src n) bs) := by
    intro s r hs h
    unfold streamPrepend at h
    simp only at h
    split at h
    · rename_i hb
      cases h
      refine ⟨_, rfl, ?_, fun hn => by simp only at hn; rw [hb] at hn; cases hn⟩
      refine ⟨⟨fun _ => hb, fun hn => by simp only at hn; rw [hb] at hn; cases hn⟩, rfl, rfl, fun _ => hb, ?_, ?_,
        fun _ mem hm => ⟨mem, hm, rfl⟩, fun _ => rfl⟩
      · intro hw
        simp [hw]
      · intro hw
        simp only [Bool.or_eq_false_iff, decide_eq_false_iff_not] at hw
        have := hw.2
        rw [UInt64.lt_iff_toNat_lt] at this
        simp only
        omega
    · rename_i hb
      split at h
      · rename_i mem hm
        cases src with
        | none => cases hx : s.begin_ <;> rw [hx] at hm <;> cases hm
        | some p =>
          have hl : n.toNat ≤ p.data.length := by
            cases hx : s.begin_ with
            | none => rw [hx] at hm; cases hm
            | some d =>
              rw [hx] at hm
              unfold memcpy at hm
              simp only at hm
              split at hm
              · cases hm
              · omega
          obtain ⟨t, e, ht, hp⟩ := (prepends_streamPrepend (p := p) hl).run s hs
          have e' : streamPrepend (some p) n (some s) = .ok ((), r) := by
            unfold streamPrepend
            simp only
            rw [if_neg hb, hm]
            exact h
          rw [e] at e'
          cases e'
          exact ⟨t, rfl, hp.kept ht, fun _ => ⟨_, prepends_streamPrepend hl⟩⟩
      · cases h
  constructor
  · intro s r hs e
    obtain ⟨t, a, b, _⟩ := key s r hs e
    exact ⟨t, a, b⟩
  · intro s t hs e hb
    obtain ⟨t', a, _, d⟩ := key s _ hs e
    cases a
    exact d hb

theorem det_byte (b : UInt8) : Det (prependLocal [b]) := (prepends_byte b).isDet

theorem shl6 (c : UInt8) : c <<< 6 = (c &&& 3) <<< 6 := by
  have : ∀ n : Fin 256, (UInt8.ofNat n.val) <<< 6 = (UInt8.ofNat n.val &&& 3) <<< 6 := by decide +kernel
  have h := this ⟨c.toNat, c.toNat_lt⟩
  simpa using h

theorem and3_lt (c : UInt8) : (c &&& 3).toNat < 4 := by
  rw [UInt8.toNat_and]
  have : c.toNat &&& (3 : UInt8).toNat ≤ (3 : UInt8).toNat := Nat.and_le_right
  have e : (3 : UInt8).toNat = 3 := rfl
  omega

theorem header_class (c : UInt8) (k : Bool) (t : UInt32) (l : UInt64) : asn1Header c k t l = asn1Header (c &&& 3) k t l := by
  have h : (c &&& 3) &&& 3 = c &&& 3 := by rw [UInt8.and_assoc]; rfl
  unfold asn1Header
  rw [shl6 c, shl6 (c &&& 3), h]

theorem prepends_anyHeader (c : UInt8) (k : Bool) (t : UInt32) (l : UInt64) : ∃ bs, Prepends (asn1Header c k t l) bs := by
  rw [header_class]
  exact ⟨_, prepends_header _ k t l (and3_lt c)⟩

theorem mono_header (c : UInt8) (k : Bool) (t : UInt32) (l : UInt64) : Mono (asn1Header c k t l) := by
  obtain ⟨_, h⟩ := prepends_anyHeader c k t l
  exact h.mono

theorem mono_explicit (ti : TagInfo) (m : UInt64) : Mono (explicitHeader ti m) := by
  unfold explicitHeader
  split
  · exact Mono.byteCount fun _ => mono_header _ _ _ _
  · exact Mono.pure

theorem hwc_class (c : UInt8) (k : Bool) (t : UInt32) (cb : Option (W Unit)) (ti : TagInfo) :
    asn1HeaderWithContent c k t cb ti = asn1HeaderWithContent (c &&& 3) k t cb ti := by
  unfold asn1HeaderWithContent
  split
  · rfl
  · simp only [header_class c]

/-- The callback is NULL or behaves. -/
def DetCallback (cb : Option (W Unit)) : Prop := ∀ w, cb = some w → Det w

theorem det_hwc (c : UInt8) (k : Bool) (t : UInt32) {cb : Option (W Unit)} (h : DetCallback cb) (ti : TagInfo) :
    Det (asn1HeaderWithContent c k t cb ti) := by
  have hcb : Det (callContent cb) := by
    cases cb with
    | none => exact Det.pure
    | some w => exact h w rfl
  unfold asn1HeaderWithContent
  refine Det.frame hcb (fun m => Mono.byteCount fun n => (mono_header _ _ _ _).bind (mono_explicit ti m)) fun bs hbs => ?_
  have := prepends_hwc (c &&& 3) k t (and3_lt c) hbs ti
  rw [← hwc_class] at this
  cases cb with
  | none => exact ⟨_, this⟩
  | some w => exact ⟨_, this⟩

theorem detCallback_some {w : W Unit} (h : Det w) : DetCallback (some w) := by
  intro w' e; cases e; exact h

theorem det_sequence {w : W Unit} (h : Det w) (ti : TagInfo) : Det (asn1Sequence (some w) ti) :=
  det_hwc _ _ _ (detCallback_some h) ti

theorem det_whenW (c : Bool) {w : W Unit} (h : Det w) : Det (whenW c w) := by
  unfold whenW
  split
  · exact h
  · exact Det.pure

theorem det_null (ti : TagInfo) : Det (asn1Null ti) := (prepends_null ti).isDet

theorem det_oid (oid : Option Oid) (ti : TagInfo) : Det (asn1ObjectIdentifier oid ti) := by
  cases oid with
  | none => exact (prepends_oid_null none ti (by intro o h; cases h)).isDet
  | some o =>
    by_cases hc : 10 < o.elemCount.toNat
    · exact (prepends_oid_null (some o) ti (by intro o h; cases h; exact hc)).isDet
    · exact (prepends_oid o ti (by omega)).isDet

theorem det_writeLoop (p : Ptr) (inc : Int) : ∀ (n : Nat) (e : Int), Det (writeLoop p inc e n)
  | 0, _ => Det.pure
  | n + 1, _ => Det.lift fun b _ => (det_byte b).bind (det_writeLoop p inc n _)

theorem det_integer (n : Slice) (le tc : Bool) (ti : TagInfo) : Det (asn1Integer n le tc ti) := by
  unfold asn1Integer
  split
  · exact det_null _
  · refine det_hwc _ _ _ (detCallback_some ?_) ti
    unfold asn1IntegerContent
    refine Det.lift fun neg _ => Det.lift fun rem _ => Det.lift fun _ _ => (det_writeLoop _ _ _ _).bind ?_
    split
    · exact det_byte _
    · exact Det.pure

theorem det_bitstringLoop (p : Ptr) : ∀ n, Det (bitstringLoop p n)
  | 0 => Det.pure
  | n + 1 => Det.lift fun b _ => (det_byte b).bind (det_bitstringLoop p n)

theorem det_bitstringBytes (b : Option Ptr) (bytes : UInt64) (unused : UInt8) : Det (bitstringBytes b bytes unused) := by
  unfold bitstringBytes
  split
  · exact Det.pure
  · cases b with
    | none => exact Det.error
    | some p => exact Det.lift fun c _ => (det_byte _).bind (det_bitstringLoop _ _)

theorem det_bitstring (b : Option Ptr) (bits : UInt64) (ti : TagInfo) : Det (asn1Bitstring b bits ti) :=
  det_hwc _ _ _ (detCallback_some ((det_bitstringBytes _ _ _).bind (det_byte _))) ti

theorem det_stringish (tag : UInt32) (s : Option Slice) (ti : TagInfo) : Det (asn1Stringish tag s ti) := by
  refine det_hwc _ _ _ (detCallback_some ?_) ti
  unfold asn1StringishContent
  split
  · exact Det.pure
  · split
    · exact Det.pure
    · exact det_streamPrepend _ _

theorem det_generalizedTime (s : Option Slice) (ti : TagInfo) : Det (asn1GeneralizedTime s ti) := by
  unfold asn1GeneralizedTime
  split
  · exact det_null _
  · exact det_stringish _ _ _

theorem det_boolean (v : Bool) (ti : TagInfo) : Det (asn1Boolean v ti) := (prepends_boolean v ti).isDet

/-! ## CBOR -/

theorem det_cborHeader (type : UInt32) (n : UInt64) : Det (cborWriteHeader type n) := by
  by_cases h : type.toNat < 8
  · exact (prepends_cborHeader type n h).isDet
  · exact (prepends_cborHeader_undefined type n (by omega)).isDet

theorem det_cborInt (n : Int64) : Det (cborWriteInt n) := by
  unfold cborWriteInt
  split
  · exact det_cborHeader _ _
  · exact Det.lift fun m _ => det_cborHeader _ _

theorem det_cborBytes (s : Slice) : Det (cborWriteByteString s) := by
  unfold cborWriteByteString
  split
  · exact det_cborHeader _ _
  · exact (det_streamPrepend _ _).bind (det_cborHeader _ _)

theorem det_cborText (s : Slice) : Det (cborWriteTextString s) := by
  unfold cborWriteTextString
  split
  · exact det_cborHeader _ _
  · exact (det_streamPrepend _ _).bind (det_cborHeader _ _)

/-! ## X.509 -/

theorem det_serialHexLoop (p : Ptr) : ∀ n, Det (serialHexLoop p n)
  | 0 => Det.pure
  | n + 1 => Det.lift fun _ _ => Det.lift fun a _ => Det.lift fun b _ =>
      ((prepends_local [a, b] (by simp)).isDet).bind (det_serialHexLoop p n)

theorem det_serialHex (s : Option Slice) (ti : TagInfo) : Det (serialHexString s ti) := by
  refine det_hwc _ _ _ (detCallback_some ?_) ti
  unfold serialHexContent
  split
  · exact Det.pure
  · split
    · exact Det.pure
    · exact det_serialHexLoop _ _

theorem det_rdn (r : Rdn) : Det (x509Rdn r) := by
  refine Det.frame (det_sequence ?_ _) (fun m => Mono.byteCount fun _ => mono_header _ _ _ _) fun bs hbs =>
    ⟨_, prepends_markHeader classUniversal (by decide) true 0x11 hbs⟩
  refine Det.lift fun b _ => Det.bind ?_ (det_oid _ _)
  unfold rdnValue
  split
  · exact det_serialHex _ _
  · exact det_stringish _ _ _

theorem det_nameLoop (l : List Rdn) : ∀ n, Det (nameLoop l n)
  | 0 => Det.pure
  | n + 1 => Det.lift fun _ _ => (det_rdn _).bind (det_nameLoop l n)

theorem det_name (n : Option Name) : Det (x509Name n) := by
  refine det_sequence ?_ _
  unfold nameContent
  split
  · exact det_null _
  · split
    · exact det_null _
    · exact det_nameLoop _ _

theorem det_extensionItem (e : Extension) (h : DetCallback e.contentCb) : Det (extensionItem e) := by
  have hcb : Det (callContent e.contentCb) := by
    cases hc : e.contentCb with
    | none => exact Det.pure
    | some w => exact h w hc
  unfold extensionItem
  refine Det.frame hcb (fun m => Mono.byteCount fun _ => (mono_header _ _ _ _).bind ((det_whenW _ (det_boolean _ _)).mono.bind
    ((det_oid _ _).mono.bind (Mono.byteCount fun _ => mono_header _ _ _ _)))) fun bs hbs => ?_
  cases hc : e.contentCb with
  | none =>
    have := prepends_extensionItem e [] (by rw [Pki.Renders, hc])
    unfold extensionItem at this
    rw [hc] at this
    exact ⟨_, this⟩
  | some w =>
    rw [hc] at hbs
    have := prepends_extensionItem e bs (by rw [Pki.Renders, hc]; exact hbs)
    unfold extensionItem at this
    rw [hc] at this
    exact ⟨_, this⟩

theorem det_extensionLoop (l : List Extension) (h : ∀ x ∈ l, DetCallback x.contentCb) : ∀ n, Det (extensionLoop l n)
  | 0 => Det.pure
  | n + 1 => Det.lift fun e he => (det_extensionItem e (h e (by
      unfold readElement at he
      split at he
      · rename_i hx; cases he; exact List.mem_of_getElem? hx
      · cases he))).bind (det_extensionLoop l h n)

/-- The callbacks of all extensions behave. -/
def Extensions.DetCallbacks (e : Extensions) : Prop := ∀ l, e.extensions = some l → ∀ x ∈ l, DetCallback x.contentCb

theorem det_extension (e : Option Extensions) (h : ∀ x, e = some x → x.DetCallbacks) : Det (x509Extension e) := by
  unfold x509Extension
  split
  · exact Det.pure
  · rename_i x
    split
    · exact Det.pure
    · refine det_sequence ?_ _
      unfold extensionContent
      split
      · split
        · exact Det.pure
        · exact Det.error
      · rename_i l hl
        exact det_extensionLoop l (h x rfl l hl) _

theorem det_basicConstraints (fr : Frame) (c : Option BasicConstraints) : Det (basicConstraintsContent fr c) := by
  unfold basicConstraintsContent
  split
  · exact Det.pure
  · refine Det.frame ?_ (fun m => Mono.byteCount fun _ => mono_header _ _ _ _) fun bs hbs =>
      ⟨_, prepends_markHeader classUniversal (by decide) true 0x10 hbs⟩
    unfold basicConstraintsBody
    split
    · exact (det_whenW _ (det_integer _ _ _ _)).bind (det_boolean _ _)
    · exact Det.pure

theorem det_keyUsage (c : Option KeyUsage) : Det (keyUsageContent c) := by
  unfold keyUsageContent
  split
  · exact Det.pure
  · exact det_bitstring _ _ _

theorem det_algorithmIdentifier (a : Option AlgorithmIdentifier) : Det (x509AlgorithmIdentifier a) := by
  refine det_sequence ?_ _
  unfold algorithmIdentifierContent
  split
  · exact Det.pure
  · refine Det.bind ?_ (det_oid _ _)
    unfold algorithmParams
    split
    · exact det_null _
    · split
      · exact det_oid _ _
      · exact Det.pure

theorem det_publicKeyInfo (i : Option PublicKeyInfo) : Det (x509PublicKeyInfo i) := by
  refine det_sequence ?_ _
  unfold publicKeyInfoContent
  split
  · exact Det.error
  · exact (det_bitstring _ _ _).bind (det_algorithmIdentifier _)

theorem det_validity (v : Option Validity) : Det (x509Validity v) := by
  refine det_sequence ?_ _
  unfold validityContent
  split
  · exact Det.error
  · exact (det_generalizedTime _ _).bind (det_generalizedTime _ _)

theorem det_tbs (fr : Frame) (t : Option Tbs) (h : ∀ x, t = some x → x.extensions.DetCallbacks) : Det (x509CertTbs fr t) := by
  refine det_sequence ?_ _
  unfold certTbsContent
  split
  · exact Det.pure
  · rename_i t
    refine (det_extension _ (by intro x e; cases e; exact h t rfl)).bind ((det_publicKeyInfo _).bind ((det_name _).bind
      ((det_validity _).bind ((det_name _).bind ((det_algorithmIdentifier _).bind (Det.bind ?_ prepends_version.isDet))))))
    unfold tbsSerial
    split
    · exact det_integer _ _ _ _
    · exact det_integer _ _ _ _

theorem det_cert (fr : Frame) (c : Option X509) (h : ∀ x t, c = some x → x.tbs = some t → t.extensions.DetCallbacks) :
    Det (x509Cert fr c) := by
  refine det_sequence ?_ _
  unfold certContent
  split
  · exact Det.pure
  · rename_i x
    exact (det_bitstring _ _ _).bind ((det_algorithmIdentifier _).bind (det_tbs fr _ fun t e => h x t rfl e))

/-! ## DICE extensions -/

theorem det_openDiceInput (fr : Frame) (c : Option OpenDiceInput) : Det (openDiceInputContent fr c) := by
  unfold openDiceInputContent
  split
  · exact Det.pure
  · have o : ∀ (b : Bool) (s : Option Slice) (t : TagInfo), Det (whenW b (asn1OctetString s t)) :=
      fun b s t => det_whenW b (det_stringish _ _ _)
    exact det_sequence ((det_whenW _ (det_stringish _ _ _)).bind ((det_integer _ _ _ _).bind
      ((o _ _ _).bind ((o _ _ _).bind ((o _ _ _).bind ((o _ _ _).bind ((o _ _ _).bind (o _ _ _)))))))) _

theorem det_fwidLoop (l : List Fwid) : ∀ n, Det (fwidLoop l n)
  | 0 => Det.pure
  | n + 1 => Det.lift fun _ _ => (det_sequence ((det_stringish _ _ _).bind (det_oid _ _)) _).bind (det_fwidLoop l n)

theorem det_tcbInfo (fr : Frame) (c : Option TcbInfo) : Det (tcbInfoContent fr c) := by
  unfold tcbInfoContent
  split
  · exact Det.pure
  · rename_i t
    have o : ∀ (b : Bool) (s : Option Slice) (t : TagInfo), Det (whenW b (asn1OctetString s t)) :=
      fun b s t => det_whenW b (det_stringish _ _ _)
    have u : ∀ (b : Bool) (s : Option Slice) (t : TagInfo), Det (whenW b (asn1Utf8String s t)) :=
      fun b s t => det_whenW b (det_stringish _ _ _)
    have f : Det (fwidsField t) := by
      unfold fwidsField
      split
      · exact Det.pure
      · exact det_sequence (det_fwidLoop _ _) _
    exact det_sequence ((det_bitstring _ _ _).bind ((o _ _ _).bind ((o _ _ _).bind ((det_bitstring _ _ _).bind (f.bind
      ((det_integer _ _ _ _).bind ((det_integer _ _ _ _).bind ((det_integer _ _ _ _).bind ((u _ _ _).bind ((u _ _ _).bind (u _ _ _))))))))))) _

theorem det_multiTcbInfoLoop (fr : Frame) (l : List TcbInfo) : ∀ n, Det (multiTcbInfoLoop fr l n)
  | 0 => Det.pure
  | n + 1 => Det.lift fun _ _ => (det_tcbInfo _ _).bind (det_multiTcbInfoLoop fr l n)

theorem det_multiTcbInfo (fr : Frame) (c : Option MultiTcbInfo) : Det (multiTcbInfoContent fr c) := by
  unfold multiTcbInfoContent
  split
  · exact Det.pure
  · refine det_sequence ?_ _
    unfold multiTcbInfoSequence
    split
    · exact Det.pure
    · exact det_multiTcbInfoLoop _ _ _

theorem det_ueid (c : Option Slice) : Det (ueidContent c) := by
  unfold ueidContent
  split
  · exact Det.pure
  · exact det_sequence (det_stringish _ _ _) _

theorem det_freshness (c : Option Slice) : Det (freshnessContent c) := by
  unfold freshnessContent
  split
  · exact Det.pure
  · exact det_sequence (det_stringish _ _ _) _

end Nat20
