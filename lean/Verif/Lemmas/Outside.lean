import Verif.Lemmas.Dice
/-!
# Lemmas about arguments for which the code reads memory outside of the number it is to render
-/

namespace Nat20

open Der Pki

theorem Faults.of_all {w : W Unit} {e : UB} (h : ∀ s, w s = .error e) : Faults w e := ⟨h none, fun s _ => h (some s)⟩

theorem Faults.bind {w : W Unit} {e : UB} (h : Faults w e) (f : Unit → W Unit) : Faults (w >>= f) e := by
  constructor
  · show (w none >>= _) = _
    rw [h.null]
    rfl
  · intro s hs
    show (w (some s) >>= _) = _
    rw [h.run s hs]
    rfl

theorem Prepends.faults {w w' : W Unit} {bs : Bytes} {e : UB} (h : Prepends w bs) (h' : Faults w' e) : Faults (do w; w') e := by
  constructor
  · show (w none >>= fun x => w' x.2) = _
    rw [h.null]
    exact h'.null
  · intro s hs
    obtain ⟨s', e1, hw, _⟩ := h.run s hs
    show (w (some s) >>= fun x => w' x.2) = _
    rw [e1]
    exact h'.run s' hw

theorem Faults.lift_bind {α : Type} {x : Except UB α} {v : α} {f : α → W Unit} {e : UB} (hx : x = .ok v) (h : Faults (f v) e) : Faults ((liftM x : W α) >>= f) e := by
  subst hx
  exact ⟨h.null, h.run⟩

theorem Faults.header {w : W Unit} {e : UB} (h : Faults w e) (cls : UInt8) (constructed : Bool) (tag : UInt32) (ti : TagInfo) :
    Faults (asn1HeaderWithContent cls constructed tag (some w) ti) e := by
  constructor
  · show (w none >>= _) = _
    rw [h.null]
    rfl
  · intro s hs
    show (w (some s) >>= _) = _
    rw [h.run s hs]
    rfl

theorem Faults.sequence {w : W Unit} {e : UB} (h : Faults w e) : Faults (asn1Sequence (some w) tagInfoNoOverride) e := h.header _ _ _ _

theorem faults_basicConstraints (fr : Frame) (hfr : fr.adjacent = []) : Faults (basicConstraintsContent fr (some ⟨true, true, 0⟩)) .oobRead := by
  have h : ∀ s, basicConstraintsBody fr ⟨true, true, 0⟩ s = .error .oobRead := by
    intro s
    show (asn1UInt64 fr 0 tagInfoNoOverride s >>= _) = _
    rw [uint64_ub fr hfr]
    rfl
  refine Faults.of_all fun s => ?_
  show (basicConstraintsBody fr ⟨true, true, 0⟩ s >>= _) = _
  rw [h]
  rfl

/-- The serial number is 0 and the byte the code reads in addition is not accessible. -/
theorem faults_serial (fr : Frame) (s : Slice) (hv : s.Valid)
    (h : (s.size = 0 ∧ fr.adjacent = []) ∨ (s.size ≠ 0 ∧ s.buffer ≠ none ∧ fromBE s.bytes = 0 ∧ ¬ s.NeighbourReadable false)) : Faults (tbsSerial fr s) .oobRead := by
  refine Faults.of_all fun st => ?_
  unfold tbsSerial
  rcases h with ⟨h, hfr⟩ | ⟨h, hb, h0, hn⟩
  · rw [if_pos h]
    exact uint64_ub fr hfr _ _
  · rw [if_neg h]
    refine integer_ub s false false _ hv hb (by simp) hn (Or.inl ?_) st
    have : s.value false false = (fromBE s.bytes : Int) := rfl
    rw [this, h0]
    rfl

theorem faults_tbs (fr fr' : Frame) (content : Extension → Bytes) (t : Tbs) (serial : Slice) (h : TbsArg fr' content { t with serialNumber := serial })
    (hs : Faults (tbsSerial fr t.serialNumber) .oobRead) : Faults (x509CertTbs fr (some t)) .oobRead := by
  refine Faults.sequence ?_
  refine (prepends_extension content t.extensions h.extensions).faults ?_
  refine (prepends_spki t.subjectPublicKeyInfo h.spki).faults ?_
  refine (prepends_name (some t.subjectName) (by intro x hx; cases hx; exact h.subject)).faults ?_
  refine (prepends_validity t.validity h.validity).faults ?_
  refine (prepends_name (some t.issuerName) (by intro x hx; cases hx; exact h.issuer)).faults ?_
  refine (prepends_algorithm t.signatureAlgorithm).faults ?_
  exact hs.bind _

theorem faults_cert (fr : Frame) (x : X509) (t : Tbs) (ht : x.tbs = some t) (hb : BitsArg x.signature x.signatureBits) (h : Faults (x509CertTbs fr (some t)) .oobRead) :
    Faults (x509Cert fr (some x)) .oobRead := by
  refine Faults.sequence ?_
  refine (prepends_bits x.signature x.signatureBits hb).faults ?_
  refine (prepends_algorithm x.signatureAlgorithm).faults ?_
  rw [ht]
  exact h

theorem faults_openDice (fr fr' : Frame) (hfr : fr.adjacent = []) (i : OpenDiceInput) (h : OpenDiceArg fr' i) (h0 : i.mode = 0) : Faults (openDiceInputContent fr (some i)) .oobRead := by
  refine Faults.sequence ?_
  refine (prepends_optional i.profileName (f := fun c => explicitly 7 (utf8String c))
    (prepends_utf8Explicit 7 (tagInfoExplicit 7) rfl i.profileName h.profileName)).faults ?_
  refine Faults.bind (Faults.of_all fun s => ?_) _
  rw [h0]
  exact uint64_ub fr hfr _ _

theorem faults_tcbInfo (fr fr' : Frame) (hfr : fr.adjacent = []) (t : TcbInfo) (h : TcbInfoArg fr' t) (h0 : ∃ n ∈ [t.svn, t.layer, t.index], n = 0 ∨ n = -1) :
    Faults (tcbInfoContent fr (some t)) .oobRead := by
  refine Faults.sequence ?_
  refine (prepends_flags t.flagsMask 10 (tagInfoImplicit 10) rfl).faults ?_
  refine (prepends_optional t.type (f := fun c => implicitly 9 (octetString c)) (prepends_octetsImplicit 9 (tagInfoImplicit 9) rfl _ h.type)).faults ?_
  refine (prepends_optional t.vendorInfo (f := fun c => implicitly 8 (octetString c)) (prepends_octetsImplicit 8 (tagInfoImplicit 8) rfl _ h.vendorInfo)).faults ?_
  refine (prepends_flags t.flags 7 (tagInfoImplicit 7) rfl).faults ?_
  refine (prepends_fwids fr' t h).faults ?_
  have num : ∀ n ti, (n = 0 ∨ n = -1) → Faults (asn1Int64 fr n ti) .oobRead := fun n ti hn => Faults.of_all fun s => int64_ub fr hfr n hn ti s
  have ok : ∀ (n : Int64) ti, ¬ (n = 0 ∨ n = -1) → Prepends (asn1Int64 fr n ti) _ := fun n ti hn => prepends_int64 fr n ti (Or.inr (not_or.1 hn))
  by_cases h5 : t.index = 0 ∨ t.index = -1
  · exact (num _ _ h5).bind _
  · refine (ok _ _ h5).faults ?_
    by_cases h4 : t.layer = 0 ∨ t.layer = -1
    · exact (num _ _ h4).bind _
    · refine (ok _ _ h4).faults ?_
      obtain ⟨n, hn, h0⟩ := h0
      simp only [List.mem_cons, List.not_mem_nil, or_false] at hn
      rcases hn with rfl | rfl | rfl
      · exact (num _ _ h0).bind _
      · exact absurd h0 h4
      · exact absurd h0 h5

theorem faults_multiLoop (fr fr' : Frame) (hfr : fr.adjacent = []) (l : List TcbInfo) (k : Nat) (hk : k ≤ l.length) (h : ∀ t ∈ l.take k, TcbInfoArg fr' t)
    (h0 : ∃ t ∈ l.take k, ∃ n ∈ [t.svn, t.layer, t.index], n = 0 ∨ n = -1) : Faults (multiTcbInfoLoop fr l k) .oobRead := by
  induction k with
  | zero => simp at h0
  | succ k ih =>
    have ht := List.take_succ_eq_append_getElem (l := l) (i := k) (by omega)
    rw [multiTcbInfoLoop]
    refine Faults.lift_bind (readElement_ok l k (by omega)) ?_
    rw [ht] at h h0
    have hl := h _ (List.mem_append_right _ (List.mem_singleton_self _))
    by_cases hb : ∃ n ∈ [l[k].svn, l[k].layer, l[k].index], n = 0 ∨ n = -1
    · exact (faults_tcbInfo fr fr' hfr _ hl hb).bind _
    · refine (prepends_tcbInfo fr _ { hl with numbers := Or.inr fun n hn => not_or.1 fun hc => hb ⟨n, hn, hc⟩ }).faults ?_
      refine ih (by omega) (fun t ht => h t (List.mem_append_left _ ht)) ?_
      obtain ⟨t, ht, n, hn, hc⟩ := h0
      rcases List.mem_append.1 ht with ht | ht
      · exact ⟨t, ht, n, hn, hc⟩
      · rw [List.mem_singleton] at ht
        subst ht
        exact absurd ⟨n, hn, hc⟩ hb

end Nat20
