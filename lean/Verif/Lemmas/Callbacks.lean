import Verif.Lemmas.X509Inj
import Verif.Spec.Callbacks
/-!
# Lemmas about callbacks with a memory
-/

namespace Nat20.Callbacks

open Der Pki

variable {σ : Type}

theorem Gives.toV {α : Type} {w : W α} {bs : Bytes} {v : α} (h : Gives w bs v) : PrependsV w bs v := ⟨h.null, h.run⟩
theorem Gives.ofV {α : Type} {w : W α} {bs : Bytes} {v : α} (h : PrependsV w bs v) : Gives w bs v := ⟨h.null, h.run⟩

/-- The writer without its result. -/
def void {α : Type} (w : W α) : W Unit := do
  let _ ← w
  Pure.pure ()

/-- The memory does not matter for what is rendered around. -/
theorem marked {w : W σ} {bs out : Bytes} {v : σ} (h : PrependsV w bs v) {K : UInt64 → W Unit}
    (hp : Prepends (void w) bs → Prepends (do let mark ← byteCount; void w; K mark) out) :
    PrependsV (do let mark ← byteCount; let m ← w; K mark; Pure.pure m) out v := by
  have hv : Prepends (void w) bs := by
    refine ⟨?_, fun s hs => ?_⟩
    · show (w none >>= fun p => _) = _
      rw [h.null]; rfl
    · obtain ⟨s', e, h1, h2⟩ := h.run s hs
      refine ⟨s', ?_, h1, h2⟩
      show (w (some s) >>= fun p => _) = _
      rw [e]; rfl
  have hq := hp hv
  refine ⟨?_, fun s hs => ?_⟩
  · have := hq.null
    replace this : (void w none >>= fun p => K (streamByteCount none) p.2) = _ := this
    rw [hv.null] at this
    replace this : K (streamByteCount none) none = _ := this
    show (w none >>= fun p => (K (streamByteCount none) p.2 >>= fun q => Pure.pure (p.1, q.2))) = _
    rw [h.null]
    show (K (streamByteCount none) none >>= fun q => Pure.pure (v, q.2)) = _
    rw [this]; rfl
  · obtain ⟨s1, e1, _, _⟩ := h.run s hs
    obtain ⟨s2, e2, h3, h4⟩ := hq.run s hs
    have e3 : void w (some s) = .ok ((), some s1) := by
      show (w (some s) >>= fun p => _) = _
      rw [e1]; rfl
    replace e2 : (void w (some s) >>= fun p => K (streamByteCount (some s)) p.2) = _ := e2
    rw [e3] at e2
    replace e2 : K (streamByteCount (some s)) (some s1) = _ := e2
    refine ⟨s2, ?_, h3, h4⟩
    show (w (some s) >>= fun p => (K (streamByteCount (some s)) p.2 >>= fun q => Pure.pure (p.1, q.2))) = _
    rw [e1]
    show (K (streamByteCount (some s)) (some s1) >>= fun q => Pure.pure (v, q.2)) = _
    rw [e2]; rfl

theorem prepends_hwc (cls : UInt8) (constructed : Bool) (tag : UInt32) (hc : cls.toNat < 4) {cb : Callback σ} {m m' : σ} {content : Bytes}
    (h : PrependsV (cb m) content m') (ti : TagInfo) :
    PrependsV (asn1HeaderWithContent cls constructed tag (some cb) ti m) (ti.tagging.element cls.toNat constructed tag.toNat content) m' := by
  have := marked (K := fun mark => do
      let count ← byteCount
      asn1Header (if ti.type = .implicit then classContextSpecific else cls) constructed (if ti.type = .implicit then ti.tag else tag) (count - mark)
      explicitHeader ti mark) h (fun hv => Nat20.prepends_hwc cls constructed tag hc hv ti)
  simp only [bind_assoc] at this
  exact this

theorem prepends_sequence {cb : Callback σ} {m m' : σ} {ds : List Der} (h : PrependsV (cb m) (encodeAll ds) m') :
    PrependsV (asn1Sequence (some cb) tagInfoNoOverride m) (sequence ds).encode m' :=
  prepends_hwc classUniversal true 0x10 (by decide) h tagInfoNoOverride

theorem prepends_call {cb : Option (Callback σ)} {f : Behaviour σ} (h : Acts cb f) (m : σ) : PrependsV (callContent cb m) (f m).1 (f m).2 := by
  cases cb with
  | none =>
    have h := h m
    rw [h]
    exact PrependsV.pure m
  | some cb => exact (h m).toV

theorem prepends_item (e : Extension σ) {f : Behaviour σ} (h : Acts e.contentCb f) (m : σ) :
    PrependsV (extensionItem e m) (Ext.der ⟨oidValue e.oid, e.critical, (f m).1⟩).encode (f m).2 := by
  have := marked (K := fun mark => do
      let count ← byteCount
      asn1Header classUniversal false 0x4 (count - mark)
      whenW e.critical (asn1Boolean true tagInfoNoOverride)
      asn1ObjectIdentifier e.oid tagInfoNoOverride
      let count ← byteCount
      asn1Header classUniversal true 0x10 (count - mark)) (prepends_call h m)
    (fun hv => prepends_extensionItem ⟨e.oid, e.critical, some (void (callContent e.contentCb m))⟩ _ hv)
  simp only [bind_assoc] at this
  exact this

theorem lastFirst_append (fs : List (Behaviour σ)) (g : Behaviour σ) (m : σ) :
    lastFirst (fs ++ [g]) m = ((lastFirst fs (g m).2).1 ++ [(g m).1], (lastFirst fs (g m).2).2) := by
  induction fs with
  | nil => rfl
  | cons f fs ih => simp only [List.cons_append, lastFirst, ih]

theorem lastFirst_length (fs : List (Behaviour σ)) (m : σ) : (lastFirst fs m).1.length = fs.length := by
  induction fs with
  | nil => rfl
  | cons f fs ih => simp only [lastFirst, List.length_cons, ih]

theorem extValues_append (l : List (Extension σ)) (e : Extension σ) (f : Extension σ → Behaviour σ) (m : σ) :
    extValues (l ++ [e]) f m = extValues l f (f e m).2 ++ [⟨oidValue e.oid, e.critical, (f e m).1⟩] := by
  unfold extValues
  rw [List.map_append, List.map_singleton, lastFirst_append, List.zip_append (by rw [lastFirst_length, List.length_map])]
  simp

theorem prepends_loop (f : Extension σ → Behaviour σ) (l : List (Extension σ)) (k : Nat) (hk : k ≤ l.length)
    (h : ∀ x ∈ l.take k, Acts x.contentCb (f x)) (m : σ) :
    PrependsV (extensionLoop l k m) (encodeAll ((extValues (l.take k) f m).map Ext.der)) (lastFirst ((l.take k).map f) m).2 := by
  induction k generalizing m with
  | zero => exact PrependsV.pure m
  | succ k ih =>
    have ht := List.take_succ_eq_append_getElem (l := l) (i := k) (by omega)
    rw [ht] at h ⊢
    rw [extensionLoop, extValues_append, List.map_append, List.map_append, List.map_singleton, List.map_singleton, lastFirst_append]
    have h1 := prepends_item l[k] (h l[k] (List.mem_append_right _ (List.mem_singleton_self _))) m
    have h2 := ih (by omega) (fun x hx => h x (List.mem_append_left _ hx)) (f l[k] m).2
    have h3 := (PrependsV.lift (readElement_ok l k (by omega))).bind (f := fun e => do let m ← extensionItem e m; extensionLoop l k m) (h1.bind h2)
    refine h3.congr ?_
    rw [encodeAll_append]
    simp [encodeAll]

theorem prepends_extensions (f : Extension σ → Behaviour σ) (e : Extensions σ) (h : ExtensionsArg f e) (m : σ) :
    PrependsV (x509Extension (some e) m) (encodeAll (extensionsDers (extValues e.announced f m))) (lastFirst (e.announced.map f) m).2 := by
  obtain ⟨count, exts⟩ := e
  unfold x509Extension
  cases exts with
  | none =>
    have e : (Extensions.mk count (none : Option (List (Extension σ)))).announced = [] := by simp [Extensions.announced]
    rw [e]
    exact PrependsV.pure m
  | some l =>
    by_cases hc : count = 0
    · subst hc
      simp only [Option.isNone_some, Bool.false_eq_true, false_or, if_true]
      exact PrependsV.pure m
    · have hc' : count.toNat ≠ 0 := by
        intro h0; exact hc (UInt64.toNat_inj.1 h0)
      simp only [Option.isNone_some, Bool.false_eq_true, false_or, if_neg hc]
      have hl := h.1 l rfl
      simp only at hl
      have hloop := prepends_loop f l count.toNat hl h.2 m
      have hne : extValues (l.take count.toNat) f m ≠ [] := by
        intro h0
        have := congrArg List.length h0
        simp only [extValues, List.length_map, List.length_zip, lastFirst_length, List.length_take, List.length_nil] at this
        omega
      have ha : (Extensions.mk count (some l)).announced = l.take count.toNat := rfl
      rw [ha]
      generalize extValues (l.take count.toNat) f m = vs at hloop hne ⊢
      have e : extensionsDers vs = [.cons 2 3 [sequence (vs.map Ext.der)]] := by
        cases vs with
        | nil => exact absurd rfl hne
        | cons v vs => rfl
      rw [e]
      have := prepends_hwc (cb := extensionContent ⟨count, some l⟩) (m := m) classUniversal true 0x10 (by decide) hloop (tagInfoExplicit 3)
      refine PrependsV.congr this ?_
      simp [encodeAll, Der.encode, sequence, tagInfoExplicit, TagInfo.tagging, Tagging.element, classUniversal]
      rfl

theorem prepends_tbs (fr : Frame) (f : Extension σ → Behaviour σ) (t : Tbs σ) (h : TbsArg fr (fun _ => []) t.bare) (he : ExtensionsArg f t.extensions) (m : σ) :
    PrependsV (x509CertTbs fr (some t) m) ({ tbsValue (fun _ => []) t.bare with extensions := extValues t.extensions.announced f m } : TbsValue).der.encode
      (lastFirst (t.extensions.announced.map f) m).2 := by
  refine prepends_sequence ?_
  have h1 := prepends_extensions f t.extensions he m
  have h2 := (prepends_spki t.subjectPublicKeyInfo h.spki).singleDer
  have h3 := h2.consDer (prepends_name (some t.subjectName) (by intro x hx; cases hx; exact h.subject))
  have h4 := h3.consDer (prepends_validity t.validity h.validity)
  have h5 := h4.consDer (prepends_name (some t.issuerName) (by intro x hx; cases hx; exact h.issuer))
  have h6 := h5.consDer (prepends_algorithm t.signatureAlgorithm)
  have h7 := h6.consDer (prepends_serial fr t.serialNumber h.serial)
  have h8 := h7.consDer prepends_version
  have h9 := h1.bind (f := fun m => do
      x509PublicKeyInfo (some t.subjectPublicKeyInfo)
      x509Name (some t.subjectName)
      x509Validity (some t.validity)
      x509Name (some t.issuerName)
      x509AlgorithmIdentifier (some t.signatureAlgorithm)
      tbsSerial fr t.serialNumber
      x509Version3
      Pure.pure m) (by
    have := (h8.toV.bind (f := fun _ => Pure.pure (lastFirst (t.extensions.announced.map f) m).2) (PrependsV.pure (lastFirst (t.extensions.announced.map f) m).2))
    simp only [bind_assoc] at this
    exact this)
  refine PrependsV.congr h9 ?_
  rw [List.nil_append, ← encodeAll_append]
  rfl

theorem prepends_tbsDer (fr : Frame) (f : Extension σ → Behaviour σ) (t : Option (Tbs σ)) (h : ∀ x, t = some x → TbsArg fr (fun _ => []) x.bare ∧ ExtensionsArg f x.extensions) (m : σ) :
    PrependsV (x509CertTbs fr t m)
      (tbsDer (t.map fun t => { tbsValue (fun _ => []) t.bare with extensions := extValues t.extensions.announced f m })).encode
      (match t with | none => m | some t => (lastFirst (t.extensions.announced.map f) m).2) := by
  cases t with
  | none => exact prepends_sequence (ds := []) (PrependsV.pure m)
  | some t => exact prepends_tbs fr f t (h t rfl).1 (h t rfl).2 m

theorem prepends_cert (fr : Frame) (f : Extension σ → Behaviour σ) (x : X509 σ) (t : Tbs σ) (ht : x.tbs = some t) (h : CertArg fr (fun _ => []) x.bare)
    (he : ExtensionsArg f t.extensions) (m : σ) :
    PrependsV (x509Cert fr (some x) m) (x.value (extValues t.extensions.announced f m)).der.encode (lastFirst (t.extensions.announced.map f) m).2 := by
  refine prepends_sequence ?_
  have h1 := (prepends_bits x.signature x.signatureBits h.signature).singleDer
  have h2 := h1.consDer (prepends_algorithm x.signatureAlgorithm)
  have h3 := prepends_tbs fr f t (h.tbs t.bare (by simp [X509.bare, ht])) he m
  have h4 := h2.toV.bind (f := fun _ => x509CertTbs fr (some t) m) h3
  simp only [bind_assoc] at h4
  unfold certContent
  simp only [ht]
  refine PrependsV.congr h4 ?_
  simp [X509.value, certValue, X509.bare, ht, tbsDer, encodeAll]

theorem lastFirst_const (l : List (Behaviour σ)) (h : ∀ f ∈ l, ∀ m m', (f m).1 = (f m').1) (m m' : σ) : (lastFirst l m).1 = (lastFirst l m').1 := by
  induction l with
  | nil => rfl
  | cons f fs ih =>
    simp only [lastFirst]
    rw [ih fun g hg => h g (List.mem_cons_of_mem _ hg), h f (by simp) _ (lastFirst fs m').2]

theorem classOk_value (x : X509 σ) (l : List Ext) : (x.value l).der.ClassOk := classOk_cert _

/-! ## Callbacks without memory -/

theorem callContent_plain (cb : Option (W Unit)) (m : σ) :
    callContent (cb.map fun w => (fun m => do w; Pure.pure m : Callback σ)) m = (do Nat20.callContent cb; Pure.pure m) := by
  cases cb with
  | none => simp [callContent, Nat20.callContent]
  | some w => simp [callContent, Nat20.callContent]

theorem hwc_plain (cls : UInt8) (constructed : Bool) (tag : UInt32) (cb : Callback σ) (w : W Unit) (m : σ) (h : cb m = (do w; Pure.pure m)) (ti : TagInfo) :
    asn1HeaderWithContent cls constructed tag (some cb) ti m = (do Nat20.asn1HeaderWithContent cls constructed tag (some w) ti; Pure.pure m) := by
  unfold asn1HeaderWithContent Nat20.asn1HeaderWithContent
  simp only [callContent, Nat20.callContent, h, bind_assoc, pure_bind]

theorem item_plain (e : Nat20.Extension) (m : σ) : extensionItem (Extension.plain e) m = (do Nat20.extensionItem e; Pure.pure m) := by
  unfold extensionItem Nat20.extensionItem Extension.plain
  simp only [callContent_plain, bind_assoc, pure_bind]

theorem readElement_map {α β : Type} (g : α → β) (l : List α) (k : Nat) :
    (liftM (readElement (l.map g) k) : W β) = (do let x ← (liftM (readElement l k) : W α); Pure.pure (g x)) := by
  unfold readElement
  rw [List.getElem?_map]
  cases l[k]? <;> rfl

theorem loop_plain (l : List Nat20.Extension) (k : Nat) (m : σ) :
    extensionLoop (l.map Extension.plain) k m = (do Nat20.extensionLoop l k; Pure.pure m) := by
  induction k with
  | zero => simp [extensionLoop, Nat20.extensionLoop]
  | succ k ih =>
    simp only [extensionLoop, Nat20.extensionLoop, readElement_map, bind_assoc, pure_bind, item_plain, ih]

theorem extensions_plain (e : Nat20.Extensions) (m : σ) :
    x509Extension (some (Extensions.plain e)) m = (do Nat20.x509Extension (some e); Pure.pure m) := by
  obtain ⟨n, l⟩ := e
  unfold x509Extension Nat20.x509Extension Extensions.plain
  cases l with
  | none => simp
  | some l =>
    by_cases hn : n = 0
    · simp [hn]
    · simp only [Option.map_some, Option.isNone_some, Bool.false_eq_true, hn, or_self, if_false]
      exact hwc_plain _ _ _ _ _ m (loop_plain l n.toNat m) _

theorem tbs_plain (fr : Frame) (t : Option Nat20.Tbs) (m : σ) : x509CertTbs fr (t.map Tbs.plain) m = (do Nat20.x509CertTbs fr t; Pure.pure m) := by
  refine hwc_plain _ _ _ _ _ m ?_ _
  cases t with
  | none => simp [certTbsContent, Nat20.certTbsContent]
  | some t =>
    simp only [Option.map_some, certTbsContent, Nat20.certTbsContent]
    rw [show (Tbs.plain (σ := σ) t).extensions = Extensions.plain t.extensions from rfl, extensions_plain]
    simp only [bind_assoc, pure_bind]
    rfl

theorem cert_plain (fr : Frame) (x : Nat20.X509) (m : σ) : x509Cert fr (some (X509.plain x)) m = (do Nat20.x509Cert fr (some x); Pure.pure m) := by
  refine hwc_plain _ _ _ _ _ m ?_ _
  simp only [certContent, Nat20.certContent, X509.plain, tbs_plain, bind_assoc]

end Nat20.Callbacks
