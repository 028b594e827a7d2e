import Verif.Model.Cbor
import Verif.Model.Dice
/-!
# Rendering functions on a NULL stream
-/

namespace Nat20

/-- If `f` accepts its arguments on some stream, `g` (usually the same function, or the same function after a different
reading of the byte count) does nothing on a NULL stream. -/
def NullLike (f g : W Unit) : Prop :=
  ∀ (s : Stream) (r : Option Stream), f (some s) = .ok ((), r) → r.isSome = true ∧ g none = .ok ((), none)

theorem NullLike.pure : NullLike (Pure.pure ()) (Pure.pure ()) := by
  intro s r h
  cases h
  exact ⟨rfl, rfl⟩

theorem NullLike.bind {f1 f2 g1 g2 : W Unit} (h1 : NullLike f1 g1) (h2 : NullLike f2 g2) :
    NullLike (f1 >>= fun _ => f2) (g1 >>= fun _ => g2) := by
  intro s r h
  simp only [Bind.bind, StateT.bind, Except.bind] at h ⊢
  cases e : f1 (some s) with
  | error x => rw [e] at h; cases h
  | ok v =>
    obtain ⟨⟨⟩, r1⟩ := v
    rw [e] at h
    obtain ⟨a, b⟩ := h1 _ _ e
    cases r1 with
    | none => cases a
    | some s1 =>
      obtain ⟨c, d⟩ := h2 _ _ h
      rw [b]
      exact ⟨c, d⟩

theorem NullLike.byteCount {f g : UInt64 → W Unit} (h : ∀ m m', NullLike (f m) (g m')) :
    NullLike (Nat20.byteCount >>= f) (Nat20.byteCount >>= g) := by
  intro s r e
  exact h _ _ s r e

theorem NullLike.lift {α : Type} {v : Except UB α} {f g : α → W Unit} (h : ∀ a, v = .ok a → NullLike (f a) (g a)) :
    NullLike (liftM v >>= f) (liftM v >>= g) := by
  cases v with
  | error e => intro s r h'; cases h'
  | ok a => intro s r e; exact h a rfl s r e

theorem NullLike.error {e : UB} {g : W Unit} : NullLike (liftM (Except.error e : Except UB Unit)) g := by
  intro s r h; cases h

theorem nullLike_streamPrepend (p q : Option Ptr) (n m : UInt64) : NullLike (streamPrepend p n) (streamPrepend q m) := by
  intro s r h
  refine ⟨?_, rfl⟩
  unfold streamPrepend at h
  simp only at h
  split at h
  · cases h; rfl
  · split at h
    · cases h; rfl
    · cases h

theorem nullLike_local (a b : Bytes) : NullLike (prependLocal a) (prependLocal b) := nullLike_streamPrepend _ _ _ _

/-- A function which does nothing on a NULL stream and never turns a stream into a NULL one. -/
structure NullTotal {α : Type} (w : W α) (a : α) : Prop where
  none : w Option.none = .ok (a, Option.none)
  some : ∀ s b r, w (Option.some s) = .ok (b, r) → r.isSome = true ∧ b = a

theorem NullTotal.like {w w' : W Unit} (h : NullTotal w ()) (h' : NullTotal w' ()) : NullLike w w' := by
  intro s r e
  exact ⟨(h.some s _ r e).1, h'.none⟩

theorem NullTotal.bind {α β : Type} {w : W α} {a : α} {f : α → W β} {b : β} (h : NullTotal w a) (h2 : NullTotal (f a) b) :
    NullTotal (w >>= f) b := by
  constructor
  · simp only [Bind.bind, StateT.bind, Except.bind, h.none]
    exact h2.none
  · intro s c r e
    simp only [Bind.bind, StateT.bind, Except.bind] at e
    cases x : w (.some s) with
    | error y => rw [x] at e; cases e
    | ok v =>
      obtain ⟨a', r1⟩ := v
      rw [x] at e
      obtain ⟨i, j⟩ := h.some _ _ _ x
      cases r1 with
      | none => cases i
      | some s1 => subst j; exact h2.some _ _ _ e

theorem nullTotal_pure {α : Type} (a : α) : NullTotal (Pure.pure a : W α) a := by
  constructor
  · rfl
  · intro s b r e; cases e; exact ⟨rfl, rfl⟩

theorem nullTotal_local (bs : Bytes) : NullTotal (prependLocal bs) () :=
  ⟨rfl, fun s _ r e => ⟨(nullLike_local bs bs s r e).1, rfl⟩⟩

theorem nullTotal_lengthLoop (len : UInt64) (l : UInt8) (bytes : UInt64) : ∃ n, NullTotal (lengthLoop len l bytes) n := by
  unfold lengthLoop
  by_cases h : len >>> 8 ≠ 0
  · obtain ⟨n, hn⟩ := nullTotal_lengthLoop (len >>> 8) ((len >>> 8) &&& 0xff).toUInt8 (bytes + 1)
    refine ⟨n, (nullTotal_local _).bind ?_⟩
    simp only [h, ↓reduceIte, ne_eq, not_false_eq_true]
    exact hn
  · refine ⟨bytes + 1, (nullTotal_local _).bind ?_⟩
    rw [if_neg h]
    exact nullTotal_pure _
termination_by len.toNat
decreasing_by
  have h2 : (len >>> 8).toNat = len.toNat / 256 := by
    rw [UInt64.toNat_shiftRight]; simp [Nat.shiftRight_eq_div_pow]
  have h3 : (len >>> 8).toNat ≠ 0 := by
    intro h0; apply h; apply UInt64.toNat_inj.1; exact h0
  show (len >>> 8).toNat < len.toNat
  omega

theorem nullTotal_base128Loop (n : UInt64) (t : UInt8) : NullTotal (base128Loop n t) () := by
  unfold base128Loop
  by_cases h : n >>> 7 ≠ 0
  · refine (nullTotal_local _).bind ?_
    simp only [h, ↓reduceIte, ne_eq, not_false_eq_true]
    exact nullTotal_base128Loop _ _
  · refine (nullTotal_local _).bind ?_
    rw [if_neg h]
    exact nullTotal_pure _
termination_by n.toNat
decreasing_by
  have h2 : (n >>> 7).toNat = n.toNat / 128 := by
    rw [UInt64.toNat_shiftRight]; simp [Nat.shiftRight_eq_div_pow]
  have h3 : (n >>> 7).toNat ≠ 0 := by
    intro h0; apply h; apply UInt64.toNat_inj.1; exact h0
  show (n >>> 7).toNat < n.toNat
  omega

theorem nullTotal_headerLength (len : UInt64) : NullTotal (headerLength len) () := by
  unfold headerLength
  split
  · exact nullTotal_local _
  · obtain ⟨n, hn⟩ := nullTotal_lengthLoop len (len &&& 0xff).toUInt8 0
    exact hn.bind (nullTotal_local _)

theorem nullTotal_headerTag (tag : UInt32) : ∃ h, NullTotal (headerTag tag) h := by
  unfold headerTag
  split
  · exact ⟨_, (nullTotal_base128Loop _ _).bind (nullTotal_pure _)⟩
  · exact ⟨_, nullTotal_pure _⟩

theorem nullTotal_header (c : UInt8) (k : Bool) (t : UInt32) (l : UInt64) : NullTotal (asn1Header c k t l) () := by
  obtain ⟨h, hh⟩ := nullTotal_headerTag t
  exact (nullTotal_headerLength l).bind (hh.bind (nullTotal_local _))

theorem nullLike_header (c : UInt8) (k : Bool) (t : UInt32) (l l' : UInt64) :
    NullLike (asn1Header c k t l) (asn1Header c k t l') := (nullTotal_header c k t l).like (nullTotal_header c k t l')

theorem nullLike_explicit (ti : TagInfo) (m m' : UInt64) : NullLike (explicitHeader ti m) (explicitHeader ti m') := by
  unfold explicitHeader
  split
  · exact NullLike.byteCount fun a b => nullLike_header _ _ _ _ _
  · exact NullLike.pure

theorem nullLike_null (ti : TagInfo) : NullLike (asn1Null ti) (asn1Null ti) := by
  unfold asn1Null
  exact NullLike.byteCount fun m m' => (nullLike_header _ _ _ _ _).bind (nullLike_explicit _ _ _)

/-- The callback is NULL or does nothing on a NULL stream. -/
def NullCallback (cb : Option (W Unit)) : Prop := ∀ w, cb = some w → NullLike w w

theorem nullLike_callContent {cb : Option (W Unit)} (h : NullCallback cb) : NullLike (callContent cb) (callContent cb) := by
  cases cb with
  | none => exact NullLike.pure
  | some w => exact h w rfl

theorem nullLike_hwc (c : UInt8) (k : Bool) (t : UInt32) {cb : Option (W Unit)} (h : NullCallback cb) (ti : TagInfo) :
    NullLike (asn1HeaderWithContent c k t cb ti) (asn1HeaderWithContent c k t cb ti) := by
  unfold asn1HeaderWithContent
  exact NullLike.byteCount fun m m' => (nullLike_callContent h).bind
    (NullLike.byteCount fun n n' => (nullLike_header _ _ _ _ _).bind (nullLike_explicit _ _ _))

theorem nullCallback_some {w : W Unit} (h : NullLike w w) : NullCallback (some w) := by
  intro w' e; cases e; exact h

theorem nullLike_sequence {w : W Unit} (h : NullLike w w) (ti : TagInfo) :
    NullLike (asn1Sequence (some w) ti) (asn1Sequence (some w) ti) := nullLike_hwc _ _ _ (nullCallback_some h) ti

theorem nullLike_whenW (c : Bool) {w : W Unit} (h : NullLike w w) : NullLike (whenW c w) (whenW c w) := by
  unfold whenW
  split
  · exact h
  · exact NullLike.pure

theorem nullLike_base128 (n : UInt64) : NullLike (asn1Base128Int n) (asn1Base128Int n) :=
  (nullTotal_base128Loop _ _).like (nullTotal_base128Loop _ _)

/-- The loop over the arcs is like a sequence of writes: if it succeeds anywhere it succeeds on NULL with the same result. -/
theorem oidLoop_null (oid : Oid) : ∀ (n : Nat) (s : Stream) (e : Nat) (r : Option Stream),
    oidLoop oid n (some s) = .ok (e, r) → r.isSome = true ∧ oidLoop oid n none = .ok (e, none) := by
  intro n
  induction n with
  | zero => intro s e r h; cases h; exact ⟨rfl, rfl⟩
  | succ n ih =>
    intro s e r h
    unfold oidLoop at h ⊢
    split at h
    · rename_i hn
      rw [if_pos hn]
      cases hx : oid.element n with
      | error y => rw [hx] at h; cases h
      | ok x =>
        rw [hx] at h
        have h : (asn1Base128Int x.toUInt64 >>= fun _ => oidLoop oid n) (some s) = .ok (e, r) := h
        show (asn1Base128Int x.toUInt64 >>= fun _ => oidLoop oid n) none = .ok (e, none) |> (r.isSome = true ∧ ·)
        simp only [bind, StateT.bind, Except.bind] at h ⊢
        cases hb : asn1Base128Int x.toUInt64 (some s) with
        | error y => rw [hb] at h; cases h
        | ok v =>
          obtain ⟨⟨⟩, r1⟩ := v
          rw [hb] at h
          obtain ⟨i, j⟩ := nullLike_base128 _ _ _ hb
          cases r1 with
          | none => cases i
          | some s1 => rw [j]; exact ih _ _ _ h
    · rename_i hn
      rw [if_neg hn]
      cases h
      exact ⟨rfl, rfl⟩

theorem nullLike_oidContent (oid : Oid) : NullLike (asn1ObjectIdentifierContent oid) (asn1ObjectIdentifierContent oid) := by
  intro s r h
  unfold asn1ObjectIdentifierContent at h ⊢
  simp only [bind, StateT.bind, Except.bind] at h ⊢
  cases hl : oidLoop oid oid.elemCount.toNat (some s) with
  | error y => rw [hl] at h; cases h
  | ok v =>
    obtain ⟨e, r1⟩ := v
    rw [hl] at h
    obtain ⟨i, j⟩ := oidLoop_null _ _ _ _ _ hl
    rw [j]
    cases r1 with
    | none => cases i
    | some s1 =>
      have key : NullLike (liftM (oidFirstByte oid e) >>= fun h => prependLocal [h])
          (liftM (oidFirstByte oid e) >>= fun h => prependLocal [h]) :=
        NullLike.lift fun b _ => nullLike_local [b] [b]
      exact key s1 r h

theorem nullLike_oid (oid : Option Oid) (ti : TagInfo) : NullLike (asn1ObjectIdentifier oid ti) (asn1ObjectIdentifier oid ti) := by
  unfold asn1ObjectIdentifier
  cases oid with
  | none => exact nullLike_null _
  | some o =>
    simp only
    split
    · exact nullLike_null _
    · exact nullLike_hwc _ _ _ (nullCallback_some (nullLike_oidContent o)) ti

theorem nullLike_writeLoop (p : Ptr) (inc : Int) : ∀ (n : Nat) (e : Int), NullLike (writeLoop p inc e n) (writeLoop p inc e n)
  | 0, _ => NullLike.pure
  | n + 1, _ => NullLike.lift fun b _ => (nullLike_local [b] [b]).bind (nullLike_writeLoop p inc n _)

theorem nullLike_integerContent (p : Ptr) (size : UInt64) (le tc : Bool) :
    NullLike (asn1IntegerContent p size le tc) (asn1IntegerContent p size le tc) := by
  unfold asn1IntegerContent
  refine NullLike.lift fun neg _ => NullLike.lift fun rem _ => NullLike.lift fun _ _ => (nullLike_writeLoop _ _ _ _).bind ?_
  split
  · exact nullLike_local _ _
  · exact NullLike.pure

theorem nullLike_integer (n : Slice) (le tc : Bool) (ti : TagInfo) : NullLike (asn1Integer n le tc ti) (asn1Integer n le tc ti) := by
  unfold asn1Integer
  split
  · exact nullLike_null _
  · exact nullLike_hwc _ _ _ (nullCallback_some (nullLike_integerContent _ _ _ _)) ti

theorem nullLike_bitstringLoop (p : Ptr) : ∀ n, NullLike (bitstringLoop p n) (bitstringLoop p n)
  | 0 => NullLike.pure
  | n + 1 => NullLike.lift fun b _ => (nullLike_local [b] [b]).bind (nullLike_bitstringLoop p n)

theorem nullLike_bitstringBytes (b : Option Ptr) (bytes : UInt64) (unused : UInt8) :
    NullLike (bitstringBytes b bytes unused) (bitstringBytes b bytes unused) := by
  unfold bitstringBytes
  split
  · exact NullLike.pure
  · cases b with
    | none => exact NullLike.error
    | some p => exact NullLike.lift fun c _ => (nullLike_local _ _).bind (nullLike_bitstringLoop _ _)

theorem nullLike_bitstring (b : Option Ptr) (bits : UInt64) (ti : TagInfo) :
    NullLike (asn1Bitstring b bits ti) (asn1Bitstring b bits ti) := by
  refine nullLike_hwc _ _ _ (nullCallback_some ?_) ti
  unfold asn1BitstringContent
  exact (nullLike_bitstringBytes _ _ _).bind (nullLike_local _ _)

theorem nullLike_stringish (tag : UInt32) (s : Option Slice) (ti : TagInfo) :
    NullLike (asn1Stringish tag s ti) (asn1Stringish tag s ti) := by
  refine nullLike_hwc _ _ _ (nullCallback_some ?_) ti
  unfold asn1StringishContent
  split
  · exact NullLike.pure
  · split
    · exact NullLike.pure
    · exact nullLike_streamPrepend _ _ _ _

theorem nullLike_generalizedTime (s : Option Slice) (ti : TagInfo) :
    NullLike (asn1GeneralizedTime s ti) (asn1GeneralizedTime s ti) := by
  unfold asn1GeneralizedTime
  split
  · exact nullLike_null _
  · exact nullLike_stringish _ _ _

theorem nullLike_boolean (v : Bool) (ti : TagInfo) : NullLike (asn1Boolean v ti) (asn1Boolean v ti) :=
  nullLike_hwc _ _ _ (nullCallback_some (nullLike_local _ _)) ti

/-! ## CBOR -/

theorem nullLike_cborValueLoop (n : UInt64) : ∀ k i, NullLike (cborValueLoop n i k) (cborValueLoop n i k)
  | 0, _ => NullLike.pure
  | k + 1, _ => (nullLike_local _ _).bind (nullLike_cborValueLoop n k _)

theorem nullLike_cborHeader (type : UInt32) (n : UInt64) : NullLike (cborWriteHeader type n) (cborWriteHeader type n) :=
  (nullLike_cborValueLoop _ _ _).bind (nullLike_local _ _)

theorem nullLike_cborInt (n : Int64) : NullLike (cborWriteInt n) (cborWriteInt n) := by
  unfold cborWriteInt
  split
  · exact nullLike_cborHeader _ _
  · exact NullLike.lift fun m _ => nullLike_cborHeader _ _

theorem nullLike_cborBytes (s : Slice) : NullLike (cborWriteByteString s) (cborWriteByteString s) := by
  unfold cborWriteByteString
  split
  · exact nullLike_cborHeader _ _
  · exact (nullLike_streamPrepend _ _ _ _).bind (nullLike_cborHeader _ _)

theorem nullLike_cborText (s : Slice) : NullLike (cborWriteTextString s) (cborWriteTextString s) := by
  unfold cborWriteTextString
  split
  · exact nullLike_cborHeader _ _
  · exact (nullLike_streamPrepend _ _ _ _).bind (nullLike_cborHeader _ _)

/-! ## X.509 -/

theorem nullLike_serialHexLoop (p : Ptr) : ∀ n, NullLike (serialHexLoop p n) (serialHexLoop p n)
  | 0 => NullLike.pure
  | n + 1 => NullLike.lift fun _ _ => NullLike.lift fun _ _ => NullLike.lift fun _ _ =>
      (nullLike_local _ _).bind (nullLike_serialHexLoop p n)

theorem nullLike_serialHex (s : Option Slice) (ti : TagInfo) : NullLike (serialHexString s ti) (serialHexString s ti) := by
  refine nullLike_hwc _ _ _ (nullCallback_some ?_) ti
  unfold serialHexContent
  split
  · exact NullLike.pure
  · split
    · exact NullLike.pure
    · exact nullLike_serialHexLoop _ _

theorem nullLike_rdn (r : Rdn) : NullLike (x509Rdn r) (x509Rdn r) := by
  refine NullLike.byteCount fun m m' => (nullLike_sequence ?_ _).bind (NullLike.byteCount fun _ _ => nullLike_header _ _ _ _ _)
  refine NullLike.lift fun b _ => NullLike.bind ?_ (nullLike_oid _ _)
  unfold rdnValue
  split
  · exact nullLike_serialHex _ _
  · exact nullLike_stringish _ _ _

theorem nullLike_nameLoop (l : List Rdn) : ∀ n, NullLike (nameLoop l n) (nameLoop l n)
  | 0 => NullLike.pure
  | n + 1 => NullLike.lift fun _ _ => (nullLike_rdn _).bind (nullLike_nameLoop l n)

theorem nullLike_name (n : Option Name) : NullLike (x509Name n) (x509Name n) := by
  refine nullLike_sequence ?_ _
  unfold nameContent
  split
  · exact nullLike_null _
  · split
    · exact nullLike_null _
    · exact nullLike_nameLoop _ _

theorem nullLike_extensionItem (e : Extension) (h : NullCallback e.contentCb) : NullLike (extensionItem e) (extensionItem e) :=
  NullLike.byteCount fun _ _ => (nullLike_callContent h).bind (NullLike.byteCount fun _ _ => (nullLike_header _ _ _ _ _).bind
    ((nullLike_whenW _ (nullLike_boolean _ _)).bind ((nullLike_oid _ _).bind (NullLike.byteCount fun _ _ => nullLike_header _ _ _ _ _))))

/-- The callbacks of all extensions do nothing on a NULL stream. -/
def Extensions.NullCallbacks (e : Extensions) : Prop := ∀ l, e.extensions = some l → ∀ x ∈ l, NullCallback x.contentCb

theorem nullLike_extensionLoop (l : List Extension) (h : ∀ x ∈ l, NullCallback x.contentCb) :
    ∀ n, NullLike (extensionLoop l n) (extensionLoop l n)
  | 0 => NullLike.pure
  | n + 1 => NullLike.lift fun e he => (nullLike_extensionItem e (h e (by
      unfold readElement at he
      split at he
      · rename_i hx; cases he; exact List.mem_of_getElem? hx
      · cases he))).bind (nullLike_extensionLoop l h n)

theorem nullLike_extension (e : Option Extensions) (h : ∀ x, e = some x → x.NullCallbacks) :
    NullLike (x509Extension e) (x509Extension e) := by
  unfold x509Extension
  split
  · exact NullLike.pure
  · rename_i x
    split
    · exact NullLike.pure
    · refine nullLike_sequence ?_ _
      unfold extensionContent
      split
      · split
        · exact NullLike.pure
        · exact NullLike.error
      · rename_i l hl
        exact nullLike_extensionLoop l (h x rfl l hl) _

theorem nullLike_basicConstraints (fr : Frame) (c : Option BasicConstraints) :
    NullLike (basicConstraintsContent fr c) (basicConstraintsContent fr c) := by
  unfold basicConstraintsContent
  split
  · exact NullLike.pure
  · refine NullLike.byteCount fun _ _ => NullLike.bind ?_ (NullLike.byteCount fun _ _ => nullLike_header _ _ _ _ _)
    unfold basicConstraintsBody
    split
    · exact (nullLike_whenW _ (nullLike_integer _ _ _ _)).bind (nullLike_boolean _ _)
    · exact NullLike.pure

theorem nullLike_keyUsage (c : Option KeyUsage) : NullLike (keyUsageContent c) (keyUsageContent c) := by
  unfold keyUsageContent
  split
  · exact NullLike.pure
  · exact nullLike_bitstring _ _ _

theorem nullLike_algorithmIdentifier (a : Option AlgorithmIdentifier) :
    NullLike (x509AlgorithmIdentifier a) (x509AlgorithmIdentifier a) := by
  refine nullLike_sequence ?_ _
  unfold algorithmIdentifierContent
  split
  · exact NullLike.pure
  · refine NullLike.bind ?_ (nullLike_oid _ _)
    unfold algorithmParams
    split
    · exact nullLike_null _
    · split
      · exact nullLike_oid _ _
      · exact NullLike.pure

theorem nullLike_publicKeyInfo (i : Option PublicKeyInfo) : NullLike (x509PublicKeyInfo i) (x509PublicKeyInfo i) := by
  refine nullLike_sequence ?_ _
  unfold publicKeyInfoContent
  split
  · exact NullLike.error
  · exact (nullLike_bitstring _ _ _).bind (nullLike_algorithmIdentifier _)

theorem nullLike_validity (v : Option Validity) : NullLike (x509Validity v) (x509Validity v) := by
  refine nullLike_sequence ?_ _
  unfold validityContent
  split
  · exact NullLike.error
  · exact (nullLike_generalizedTime _ _).bind (nullLike_generalizedTime _ _)

theorem nullLike_tbs (fr : Frame) (t : Option Tbs) (h : ∀ x, t = some x → x.extensions.NullCallbacks) :
    NullLike (x509CertTbs fr t) (x509CertTbs fr t) := by
  refine nullLike_sequence ?_ _
  unfold certTbsContent
  split
  · exact NullLike.pure
  · rename_i t
    refine (nullLike_extension _ (by intro x e; cases e; exact h t rfl)).bind ((nullLike_publicKeyInfo _).bind ((nullLike_name _).bind
      ((nullLike_validity _).bind ((nullLike_name _).bind ((nullLike_algorithmIdentifier _).bind (NullLike.bind ?_ (nullLike_local _ _)))))))
    unfold tbsSerial
    split
    · exact nullLike_integer _ _ _ _
    · exact nullLike_integer _ _ _ _

theorem nullLike_cert (fr : Frame) (c : Option X509) (h : ∀ x t, c = some x → x.tbs = some t → t.extensions.NullCallbacks) :
    NullLike (x509Cert fr c) (x509Cert fr c) := by
  refine nullLike_sequence ?_ _
  unfold certContent
  split
  · exact NullLike.pure
  · rename_i x
    exact (nullLike_bitstring _ _ _).bind ((nullLike_algorithmIdentifier _).bind (nullLike_tbs fr _ fun t e => h x t rfl e))

/-! ## DICE extensions -/

theorem nullLike_openDiceInput (fr : Frame) (c : Option OpenDiceInput) :
    NullLike (openDiceInputContent fr c) (openDiceInputContent fr c) := by
  unfold openDiceInputContent
  split
  · exact NullLike.pure
  · have o : ∀ (b : Bool) (s : Option Slice) (t : TagInfo), NullLike (whenW b (asn1OctetString s t)) (whenW b (asn1OctetString s t)) :=
      fun b s t => nullLike_whenW b (nullLike_stringish _ _ _)
    exact nullLike_sequence ((nullLike_whenW _ (nullLike_stringish _ _ _)).bind ((nullLike_integer _ _ _ _).bind
      ((o _ _ _).bind ((o _ _ _).bind ((o _ _ _).bind ((o _ _ _).bind ((o _ _ _).bind (o _ _ _)))))))) _

theorem nullLike_fwidLoop (l : List Fwid) : ∀ n, NullLike (fwidLoop l n) (fwidLoop l n)
  | 0 => NullLike.pure
  | n + 1 => NullLike.lift fun _ _ => (nullLike_sequence ((nullLike_stringish _ _ _).bind (nullLike_oid _ _)) _).bind (nullLike_fwidLoop l n)

theorem nullLike_tcbInfo (fr : Frame) (c : Option TcbInfo) : NullLike (tcbInfoContent fr c) (tcbInfoContent fr c) := by
  unfold tcbInfoContent
  split
  · exact NullLike.pure
  · rename_i t
    have o : ∀ (b : Bool) (s : Option Slice) (t : TagInfo), NullLike (whenW b (asn1OctetString s t)) (whenW b (asn1OctetString s t)) :=
      fun b s t => nullLike_whenW b (nullLike_stringish _ _ _)
    have u : ∀ (b : Bool) (s : Option Slice) (t : TagInfo), NullLike (whenW b (asn1Utf8String s t)) (whenW b (asn1Utf8String s t)) :=
      fun b s t => nullLike_whenW b (nullLike_stringish _ _ _)
    have f : NullLike (fwidsField t) (fwidsField t) := by
      unfold fwidsField
      split
      · exact NullLike.pure
      · exact nullLike_sequence (nullLike_fwidLoop _ _) _
    exact nullLike_sequence ((nullLike_bitstring _ _ _).bind ((o _ _ _).bind ((o _ _ _).bind ((nullLike_bitstring _ _ _).bind (f.bind
      ((nullLike_integer _ _ _ _).bind ((nullLike_integer _ _ _ _).bind ((nullLike_integer _ _ _ _).bind ((u _ _ _).bind ((u _ _ _).bind (u _ _ _))))))))))) _

theorem nullLike_multiTcbInfoLoop (fr : Frame) (l : List TcbInfo) : ∀ n, NullLike (multiTcbInfoLoop fr l n) (multiTcbInfoLoop fr l n)
  | 0 => NullLike.pure
  | n + 1 => NullLike.lift fun _ _ => (nullLike_tcbInfo _ _).bind (nullLike_multiTcbInfoLoop fr l n)

theorem nullLike_multiTcbInfo (fr : Frame) (c : Option MultiTcbInfo) : NullLike (multiTcbInfoContent fr c) (multiTcbInfoContent fr c) := by
  unfold multiTcbInfoContent
  split
  · exact NullLike.pure
  · refine nullLike_sequence ?_ _
    unfold multiTcbInfoSequence
    split
    · exact NullLike.pure
    · exact nullLike_multiTcbInfoLoop _ _ _

theorem nullLike_ueid (c : Option Slice) : NullLike (ueidContent c) (ueidContent c) := by
  unfold ueidContent
  split
  · exact NullLike.pure
  · exact nullLike_sequence (nullLike_stringish _ _ _) _

theorem nullLike_freshness (c : Option Slice) : NullLike (freshnessContent c) (freshnessContent c) := by
  unfold freshnessContent
  split
  · exact NullLike.pure
  · exact nullLike_sequence (nullLike_stringish _ _ _) _

end Nat20
