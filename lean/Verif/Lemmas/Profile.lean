import Verif.Spec.Profile
import Verif.Lemmas.X509Inj
import Verif.Lemmas.Size
/-!
# Lemmas about the certificate profile
-/

namespace Nat20.Profile

open Der Pki

theorem oidOf_oidDer {o : Option (List Nat)} (h : ArcsOk o) : oidOf (oidDer o) = o := by
  cases o with
  | none => rfl
  | some arcs => exact parseOid_code (h arcs rfl)

theorem serialOk_iff (s : Slice) : SerialOk (serialDer (serialValue s)) ↔ 0 < fromBE s.bytes ∧ fromBE s.bytes < 2 ^ 159 := by
  have hb : ∀ n : Nat, (intContent n).length ≤ 20 ↔ n < 2 ^ 159 := by
    intro n
    rw [show intContent (n : Int) = natContent n from rfl, Size.len_natContent, ← Size.bitLength_le_iff]
    omega
  have h0 : fromBE s.bytes = 0 ∨ (s.size ≠ 0 ∧ s.buffer ≠ none) := by
    by_cases h1 : s.size = 0
    · left; unfold Slice.bytes; cases s.buffer <;> simp [h1, fromBE]
    · by_cases h2 : s.buffer = none
      · left; simp [Slice.bytes, h2, fromBE]
      · exact Or.inr ⟨h1, h2⟩
  constructor
  · rintro ⟨n, h1, h2, h3⟩
    rcases h0 with h0 | ⟨h4, h5⟩
    · exfalso
      unfold serialValue at h3
      split at h3
      · have := integer_inj h3; omega
      · split at h3
        · simp [serialDer, null, integer] at h3
        · have := integer_inj h3; omega
    · simp only [serialValue, h4, h5, if_false, serialDer] at h3
      have := integer_inj h3
      have e : n = fromBE s.bytes := by omega
      subst e
      exact ⟨h1, (hb _).1 h2⟩
  · rintro ⟨h1, h2⟩
    rcases h0 with h0 | ⟨h4, h5⟩
    · omega
    · refine ⟨fromBE s.bytes, h1, (hb _).2 h2, ?_⟩
      simp [serialValue, h4, h5, serialDer]

theorem algorithmOk_iff (a : AlgorithmIdentifier) (h : (algorithmValue a).Ok) : AlgorithmOk (algorithmValue a).der ↔ AlgorithmDocumented a := by
  have hp : ∀ arcs, (paramsValue a).ders = [oidDer (some arcs)] → (oidOf (oidDer (some arcs))).isSome := by
    intro arcs he
    have h2 := h.2
    simp only [algorithmValue] at h2
    cases hv : paramsValue a with
    | absent => rw [hv] at he; simp [Params.ders] at he
    | null => rw [hv] at he; simp [Params.ders, oidDer, Der.null] at he
    | curve b =>
      rw [hv] at he h2
      rw [← show oidDer (some b) = oidDer (some arcs) by simpa [Params.ders] using he,
        oidOf_oidDer (o := some b) (by intro c hc; cases hc; exact h2)]
      rfl
  have hcases : (paramsValue a).ders = [] ∧ a.variant ≠ 1 ∧ a.variant ≠ 2 ∨
      (paramsValue a).ders = [null] ∧ (a.variant = 1 ∨ (a.variant = 2 ∧ oidValue a.ecCurve = none)) ∨
      (∃ c, (paramsValue a).ders = [oidDer (some c)] ∧ a.variant = 2 ∧ oidValue a.ecCurve ≠ none) := by
    unfold paramsValue
    by_cases h1 : a.variant = 1
    · simp [h1, Params.ders]
    · by_cases h2 : a.variant = 2
      · cases hc : oidValue a.ecCurve with
        | none => simp [h2, Params.ders]
        | some c => exact Or.inr (Or.inr ⟨c, by simp [h2, Params.ders]⟩)
      · simp [h1, h2, Params.ders]
  have hnull : ∀ o, (oidOf o).isSome → o ≠ null := by
    rintro o ho rfl; cases ho
  constructor
  · rintro ⟨o, ps, arcs, h1, h2, h3, h4, h5, h6⟩
    simp only [Algorithm.der, algorithmValue, sequence, Der.cons.injEq, true_and, List.cons.injEq] at h1
    obtain ⟨e1, e2⟩ := h1
    subst e1 e2
    rw [oidOf_oidDer (o := oidValue a.oid) h.1] at h2
    refine ⟨arcs, h2, fun e => ?_, fun e => ?_, fun e => ?_⟩
    · obtain ⟨p, hp1, hp2⟩ := h4 e
      rcases hcases with ⟨h7, h8⟩ | ⟨h7, h8⟩ | ⟨c, h7, h8⟩
      · rw [h7] at hp1; cases hp1
      · rw [h7] at hp1; cases hp1; cases hp2
      · exact h8
    · rcases hcases with ⟨h7, h8⟩ | ⟨h7, h8⟩ | ⟨c, h7, h8⟩
      · exact h8
      · have := h5 e; rw [h7] at this; cases this
      · have := h5 e; rw [h7] at this; cases this
    · rcases hcases with ⟨h7, h8⟩ | ⟨h7, h8⟩ | ⟨c, h7, h8⟩
      · have := h6 e; rw [h7] at this; cases this
      · exact h8
      · have := h6 e; rw [h7] at this
        exact absurd (List.cons.inj this).1 (hnull _ (hp c h7))
  · rintro ⟨arcs, h2, h4, h5, h6⟩
    refine ⟨oidDer (oidValue a.oid), (paramsValue a).ders, arcs, rfl, ?_, ?_, fun e => ?_, fun e => ?_, fun e => ?_⟩
    · rw [oidOf_oidDer (o := oidValue a.oid) h.1]; exact h2
    · cases paramsValue a <;> simp [Params.ders]
    · have h8 := h4 e
      rcases hcases with ⟨h7, _, h9⟩ | ⟨h7, h9⟩ | ⟨c, h7, _⟩
      · exact absurd h8.1 h9
      · rcases h9 with h9 | h9
        · rw [h8.1] at h9; exact absurd h9 (by decide)
        · exact absurd h9.2 h8.2
      · exact ⟨_, h7, hp c h7⟩
    · have h8 := h5 e
      rcases hcases with ⟨h7, _⟩ | ⟨h7, h9⟩ | ⟨c, h7, h9⟩
      · exact h7
      · rcases h9 with h9 | h9
        · exact absurd h9 h8.1
        · exact absurd h9.1 h8.2
      · exact absurd h9.1 h8.2
    · have h8 := h6 e
      rcases hcases with ⟨h7, h9, h10⟩ | ⟨h7, _⟩ | ⟨c, h7, h9⟩
      · rcases h8 with h8 | h8
        · exact absurd h8 h9
        · exact absurd h8.1 h10
      · exact h7
      · rcases h8 with h8 | h8
        · rw [h9.1] at h8; exact absurd h8 (by decide)
        · exact absurd h8.2 h9.2

theorem printable_hex : ∀ l : Bytes, ∀ b ∈ hexString l, Printable b = true
  | [], b, h => by cases h
  | a :: l, b, h => by
    have hd : ∀ n : Fin 16, Printable (hexDigit n.val) = true := by decide +kernel
    simp only [hexString, List.flatMap_cons, List.cons_append, List.nil_append, List.mem_cons] at h
    rcases h with rfl | rfl | h
    · exact hd ⟨a.toNat / 16, by have := a.toNat_lt; omega⟩
    · exact hd ⟨a.toNat % 16, by omega⟩
    · exact printable_hex l b h

theorem rdnOk_iff (r : Rdn) (h : ArcsOk (oidValue r.type)) : RdnOk (attributeValue r).der ↔ RdnDocumented r := by
  have key : RdnOk (attributeValue r).der ↔ ∃ arcs, oidValue r.type = some arcs ∧ TextOk arcs (attributeValue r).value := by
    constructor
    · rintro ⟨l, _, h2, h3⟩
      simp only [Attribute.der, Der.set, Der.cons.injEq, true_and] at h2
      subst h2
      obtain ⟨t, v, arcs, h4, h5, h6⟩ := h3 _ (List.mem_singleton_self _)
      simp only [sequence, Der.cons.injEq, true_and, List.cons.injEq, and_true] at h4
      obtain ⟨rfl, rfl⟩ := h4
      rw [oidOf_oidDer (o := (attributeValue r).type) h] at h5
      exact ⟨arcs, h5, h6 _ rfl⟩
    · rintro ⟨arcs, h1, h2⟩
      refine ⟨_, by simp, rfl, ?_⟩
      intro a ha
      rw [List.mem_singleton] at ha
      subst ha
      refine ⟨_, _, arcs, rfl, ?_, ?_⟩
      · rw [oidOf_oidDer (o := (attributeValue r).type) h]; exact h1
      · intro text ht
        simp only [printableString, Der.prim.injEq, true_and] at ht
        subst ht
        exact h2
  rw [key]
  unfold RdnDocumented
  refine exists_congr fun arcs => and_congr_right fun ha => ?_
  by_cases hs : arcs = [2, 5, 4, 5]
  · subst hs
    have e : (attributeValue r).value = hexString r.value.bytes := by simp [attributeValue, ha, serialNumberArcs]
    rw [if_pos rfl, e]
    constructor
    · rintro ⟨_, h2⟩
      have := h2 1 64 (by decide)
      rw [Size.len_hexString] at this
      omega
    · rintro h2
      refine ⟨printable_hex _, fun lo hi hb => ?_⟩
      have : (1, 64) = (lo, hi) := Option.some.inj ((by decide : some (1, 64) = sizeBounds [2, 5, 4, 5]).trans hb)
      cases this
      rw [Size.len_hexString]
      omega
  · have e : (attributeValue r).value = r.value.bytes := by
      simp [attributeValue, ha, serialNumberArcs, hs]
    rw [if_neg hs, e]

theorem nameOk_iff (n : Name) (h : NameOk (nameValue (some n))) :
    (∃ l, nameDer (nameValue (some n)) = sequence l ∧ ∀ r ∈ l, RdnOk r) ↔ NameDocumented n := by
  unfold NameDocumented
  by_cases hc : 8 < n.elementCount.toNat
  · constructor
    · rintro ⟨l, h1, h2⟩
      exfalso
      simp only [nameValue, hc, if_true, nameDer, sequence, Der.cons.injEq, true_and] at h1
      subst h1
      obtain ⟨l, _, h4, _⟩ := h2 _ (List.mem_singleton_self _)
      cases h4
    · rintro ⟨h1, _⟩
      omega
  · have e : nameValue (some n) = some ((n.elements.toList.take n.elementCount.toNat).map attributeValue) := by simp [nameValue, hc]
    have ho : ∀ r ∈ n.elements.toList.take n.elementCount.toNat, ArcsOk (oidValue r.type) := fun r hr =>
      h _ e (attributeValue r) (List.mem_map_of_mem hr)
    rw [e]
    constructor
    · rintro ⟨l, h1, h2⟩
      refine ⟨by omega, fun r hr => ?_⟩
      simp only [nameDer, sequence, Der.cons.injEq, true_and] at h1
      subst h1
      exact (rdnOk_iff r (ho r hr)).1 (h2 _ (List.mem_map_of_mem (List.mem_map_of_mem hr)))
    · rintro ⟨_, h2⟩
      refine ⟨_, rfl, fun d hd => ?_⟩
      obtain ⟨a, ha, rfl⟩ := List.mem_map.1 hd
      obtain ⟨r, hr, rfl⟩ := List.mem_map.1 ha
      exact (rdnOk_iff r (ho r hr)).2 (h2 r hr)

theorem name_empty (n : Name) (h : n.elementCount.toNat ≤ 8) (l : List Der) (hl : nameDer (nameValue (some n)) = sequence l) :
    l = [] ↔ n.elementCount = 0 := by
  have e : nameValue (some n) = some ((n.elements.toList.take n.elementCount.toNat).map attributeValue) := by
    simp [nameValue]; omega
  rw [e] at hl
  simp only [nameDer, sequence, Der.cons.injEq, true_and] at hl
  subst hl
  rw [List.map_eq_nil_iff, List.map_eq_nil_iff, List.take_eq_nil_iff]
  constructor
  · rintro (h1 | h1)
    · exact UInt64.toNat_inj.1 h1
    · have := congrArg List.length h1
      simp at this
  · rintro h1
    left; rw [h1]; rfl

theorem nodup_map {α β : Type} {f : α → β} {P : α → Prop} (hf : ∀ a b, P a → P b → f a = f b → a = b) :
    ∀ l : List α, (∀ a ∈ l, P a) → ((l.map f).Nodup ↔ l.Nodup)
  | [], _ => by simp
  | a :: l, h => by
    rw [List.map_cons, List.nodup_cons, List.nodup_cons, nodup_map hf l fun b hb => h b (List.mem_cons_of_mem _ hb)]
    refine and_congr_left fun _ => not_congr ⟨fun hm => ?_, fun hm => List.mem_map_of_mem hm⟩
    obtain ⟨b, hb, e⟩ := List.mem_map.1 hm
    rw [← hf b a (h b (List.mem_cons_of_mem _ hb)) (h a (by simp)) e]
    exact hb

theorem extensionOk_iff (e : Ext) (h : ArcsOk e.oid) (arcs : List Nat) (critical : Bool) :
    ExtensionOk e.der arcs critical ↔ e.oid = some arcs ∧ e.critical = critical := by
  constructor
  · rintro ⟨o, value, h1, h2⟩
    simp only [Ext.der, sequence, Der.cons.injEq, true_and, List.cons.injEq] at h2
    obtain ⟨rfl, h3⟩ := h2
    rw [oidOf_oidDer h] at h1
    refine ⟨h1, ?_⟩
    cases hc : e.critical <;> cases critical <;> simp [hc, boolean, octetString] at h3 ⊢
  · rintro ⟨h1, rfl⟩
    exact ⟨oidDer e.oid, e.value, by rw [oidOf_oidDer h, h1], rfl⟩

/-- The OIDs and criticalities of the extensions of a certificate are determined by the tree. -/
theorem extensionsOk_iff (l : List Ext) (h : ∀ e ∈ l, ArcsOk e.oid) (exts : List (List Nat × Bool)) :
    ExtensionsOk (extensionsDers l) exts ↔ (exts.map (·.1)).Nodup ∧ l.map (fun e => (e.oid, e.critical)) = exts.map fun p => (some p.1, p.2) := by
  unfold ExtensionsOk
  refine and_congr_right fun _ => ?_
  have zip : ∀ (l : List Ext), (∀ e ∈ l, ArcsOk e.oid) → ∀ exts : List (List Nat × Bool),
      ((l.map Ext.der).length = exts.length ∧ ∀ p ∈ (l.map Ext.der).zip exts, ExtensionOk p.1 p.2.1 p.2.2) ↔
        l.map (fun e => (e.oid, e.critical)) = exts.map fun p => (some p.1, p.2) := by
    intro l
    induction l with
    | nil => intro _ exts; cases exts <;> simp
    | cons e l ih =>
      intro h exts
      cases exts with
      | nil => simp
      | cons p exts =>
        have := ih (fun a ha => h a (List.mem_cons_of_mem _ ha)) exts
        simp only [List.map_cons, List.length_cons, List.zip_cons_cons, List.mem_cons, forall_eq_or_imp, List.cons.injEq, Prod.mk.injEq,
          extensionOk_iff e (h e (by simp))]
        rw [← this]
        constructor
        · rintro ⟨h1, h2, h3⟩; exact ⟨h2, by omega, h3⟩
        · rintro ⟨h2, h1, h3⟩; exact ⟨by omega, h2, h3⟩
  cases l with
  | nil =>
    cases exts with
    | nil => simp [extensionsDers]
    | cons p exts => simp [extensionsDers]
  | cons e l =>
    cases exts with
    | nil => simp [extensionsDers]
    | cons p exts =>
      rw [← zip _ h]
      constructor
      · rintro (⟨h1, _⟩ | ⟨_, ds, h2, h3⟩)
        · cases h1
        · simp only [extensionsDers, sequence, List.cons.injEq, Der.cons.injEq, true_and, and_true] at h2
          subst h2
          exact h3
      · intro h3
        exact Or.inr ⟨by simp, _, rfl, h3⟩

theorem announced_value (content : Extension → Bytes) (e : Extensions) : extensionsValue content e = (announced e).map (extValue content) := by
  unfold extensionsValue announced
  cases e.extensions <;> simp

theorem nodup_some (l : List (List Nat)) : (l.map some).Nodup ↔ l.Nodup :=
  nodup_map (P := fun _ => True) (fun _ _ _ _ h => Option.some.inj h) l (fun _ _ => trivial)

/-- The conditions on the extensions and the subject name, in terms of the arguments. -/
theorem extensions_iff (content : Extension → Bytes) (e : Extensions) (h : ∀ x ∈ extensionsValue content e, ArcsOk x.oid) (p : Prop) :
    (∃ exts, ExtensionsOk (extensionsDers (extensionsValue content e)) exts ∧ (p → (subjectAltName, true) ∈ exts)) ↔
      ((∀ x ∈ announced e, oidValue x.oid ≠ none) ∧ ((announced e).map fun x => oidValue x.oid).Nodup) ∧
        (p → ∃ x ∈ announced e, oidValue x.oid = some subjectAltName ∧ x.critical = true) := by
  have hv : (extensionsValue content e).map (fun x => (x.oid, x.critical)) = (announced e).map fun x => (oidValue x.oid, x.critical) := by
    rw [announced_value, List.map_map]; rfl
  constructor
  · rintro ⟨exts, h1, h2⟩
    rw [extensionsOk_iff _ h, hv] at h1
    obtain ⟨h3, h4⟩ := h1
    refine ⟨⟨fun x hx hn => ?_, ?_⟩, fun hp => ?_⟩
    · have : (oidValue x.oid, x.critical) ∈ exts.map fun p => (some p.1, p.2) := by
        rw [← h4]; exact List.mem_map_of_mem (f := fun x : Extension => (oidValue x.oid, x.critical)) hx
      obtain ⟨q, _, e⟩ := List.mem_map.1 this
      rw [hn] at e
      cases e
    · have := congrArg (List.map Prod.fst) h4
      simp only [List.map_map] at this
      have e : (announced e).map (fun x => oidValue x.oid) = (exts.map (·.1)).map some := by
        rw [List.map_map]; exact this
      rw [e, nodup_some]
      exact h3
    · have : ((some subjectAltName, true) : Option (List Nat) × Bool) ∈ (announced e).map fun x => (oidValue x.oid, x.critical) := by
        rw [h4]; exact List.mem_map_of_mem (f := fun p : List Nat × Bool => (some p.1, p.2)) (h2 hp)
      obtain ⟨x, hx, e⟩ := List.mem_map.1 this
      exact ⟨x, hx, (Prod.mk.inj e).1, (Prod.mk.inj e).2⟩
  · rintro ⟨⟨h1, h2⟩, h3⟩
    have h4 : (announced e).map (fun x => (oidValue x.oid, x.critical)) =
        ((announced e).map fun x => ((oidValue x.oid).getD [], x.critical)).map fun p => (some p.1, p.2) := by
      rw [List.map_map]
      refine List.map_congr_left fun x hx => ?_
      cases ho : oidValue x.oid with
      | none => exact absurd ho (h1 x hx)
      | some a => simp [ho]
    refine ⟨(announced e).map fun x => ((oidValue x.oid).getD [], x.critical), ?_, fun hp => ?_⟩
    · rw [extensionsOk_iff _ h, hv]
      refine ⟨?_, h4⟩
      rw [← nodup_some]
      have := congrArg (List.map Prod.fst) h4
      simp only [List.map_map] at this
      rw [List.map_map, List.map_map]
      exact (show _ = _ from this) ▸ h2
    · obtain ⟨x, hx, h5, h6⟩ := h3 hp
      exact List.mem_map.2 ⟨x, hx, by rw [h5, h6]; rfl⟩

/-- The profile, in terms of the arguments. -/
theorem certificateOk_iff (time : Der → Prop) (content : Extension → Bytes) (x : X509) (t : Tbs) (ht : x.tbs = some t) (ho : (certValue content x).Ok) :
    CertificateOk time (certValue content x).der ↔
      Documented x t ∧ time (generalizedTime (periodValue t.validity).notBefore) ∧ time (generalizedTime (periodValue t.validity).notAfter) := by
  have hot := ho.tbs (tbsValue content t) (by simp [certValue, ht])
  constructor
  · rintro ⟨serial, algorithm, issuer, nb, na, subject, ka, key, field, exts, signature, hd, h1, h2, h3, h4, h5, h6, h7, h8, h9, h10⟩
    simp only [CertValue.der, certValue, ht, Option.map_some, tbsDer, TbsValue.der, tbsValue, sequence, Der.cons.injEq, true_and, List.cons.injEq, and_true,
      List.cons_append, List.nil_append, Period.der, Spki.der, spkiValue] at hd
    obtain ⟨⟨rfl, rfl, hi, ⟨rfl, rfl⟩, hs, ⟨rfl, _⟩, rfl⟩, hsame, _⟩ := hd
    have hi' : nameDer (nameValue (some t.issuerName)) = sequence issuer := hi
    have hs' : nameDer (nameValue (some t.subjectName)) = sequence subject := hs
    have di := (nameOk_iff t.issuerName hot.issuer).1 ⟨issuer, hi', h4⟩
    have ds := (nameOk_iff t.subjectName hot.subject).1 ⟨subject, hs', h7⟩
    have de := (extensions_iff content t.extensions hot.extensions (subject = [])).1 ⟨exts, h10, h8⟩
    refine ⟨?_, h5, h6⟩
    exact {
      serial := (serialOk_iff _).1 h1
      algorithm := (algorithmOk_iff _ hot.signature).1 h2
      same := (algorithm_inj ho.algorithm hot.signature hsame).symm
      issuer := ⟨di, fun e => h3 ((name_empty _ di.1 _ hi').2 e)⟩
      subject := ⟨ds, fun e => de.2 ((name_empty _ ds.1 _ hs').2 e)⟩
      key := (algorithmOk_iff _ hot.spki).1 h9
      extensions := de.1 }
  · rintro ⟨h, h5, h6⟩
    obtain ⟨issuer, hi, h4⟩ := (nameOk_iff t.issuerName hot.issuer).2 h.issuer.1
    obtain ⟨subject, hs, h7⟩ := (nameOk_iff t.subjectName hot.subject).2 h.subject.1
    obtain ⟨exts, h10, h8⟩ := (extensions_iff content t.extensions hot.extensions (subject = [])).2
      ⟨h.extensions, fun e => h.subject.2 ((name_empty _ h.subject.1.1 _ hs).1 e)⟩
    refine ⟨_, (algorithmValue t.signatureAlgorithm).der, issuer, _, _, subject, _, bitsValue t.subjectPublicKeyInfo.publicKey t.subjectPublicKeyInfo.publicKeyBits, _, exts,
      bitsValue x.signature x.signatureBits, ?_, (serialOk_iff t.serialNumber).2 h.serial,
      (algorithmOk_iff _ hot.signature).2 h.algorithm, fun e => h.issuer.2 ((name_empty _ h.issuer.1.1 _ hi).1 e), h4, h5, h6, h7, h8,
      (algorithmOk_iff _ hot.spki).2 h.key, h10⟩
    rw [← hi, ← hs]
    simp only [CertValue.der, certValue, ht, Option.map_some, tbsDer, TbsValue.der, tbsValue, Period.der, Spki.der, spkiValue, h.same]

/-- Two moments with the same text are the same. -/
theorem two_inj {m n : Nat} (hm : m < 100) (hn : n < 100) (h : two m = two n) : m = n := by
  have : ∀ m n : Fin 100, two m.val = two n.val → m = n := by decide +kernel
  exact congrArg Fin.val (this ⟨m, hm⟩ ⟨n, hn⟩ h)

theorem long_inj {s t : Moment} (hs : s.Ok) (ht : t.Ok) (h : s.long = t.long) : s = t := by
  obtain ⟨y, mo, d, ho, mi, se⟩ := s
  obtain ⟨y', mo', d', ho', mi', se'⟩ := t
  have hday : ∀ y m, daysIn y m ≤ 31 := by
    intro y m; unfold daysIn; split
    · split <;> omega
    · split <;> omega
  simp only [Moment.Ok] at hs ht
  have h31 := hday y mo
  have h31' := hday y' mo'
  simp only [Moment.long, Moment.short, two, List.cons_append, List.nil_append, List.cons.injEq, and_true] at h
  obtain ⟨a1, a2, b1, b2, c1, c2, d1, d2, e1, e2, f1, f2, g1, g2⟩ := h
  have e1' := two_inj (m := y / 100) (n := y' / 100) (by omega) (by omega) (by rw [two, two, a1, a2])
  have e2' := two_inj (m := y % 100) (n := y' % 100) (by omega) (by omega) (by rw [two, two, b1, b2])
  have e3' := two_inj (m := mo) (n := mo') (by omega) (by omega) (by rw [two, two, c1, c2])
  have e4' := two_inj (m := d) (n := d') (by omega) (by omega) (by rw [two, two, d1, d2])
  have e5' := two_inj (m := ho) (n := ho') (by omega) (by omega) (by rw [two, two, e1, e2])
  have e6' := two_inj (m := mi) (n := mi') (by omega) (by omega) (by rw [two, two, f1, f2])
  have e7' := two_inj (m := se) (n := se') (by omega) (by omega) (by rw [two, two, g1, g2])
  have : y = y' := by omega
  subst this e3' e4' e5' e6' e7'
  rfl

theorem timeOk_generalized (c : Bytes) : TimeOk (generalizedTime c) ↔ ∃ m : Moment, m.Ok ∧ 2050 ≤ m.year ∧ c = m.long := by
  unfold TimeOk generalizedTime
  refine exists_congr fun m => and_congr_right fun _ => ?_
  simp

theorem anyTimeOk_generalized (c : Bytes) : AnyTimeOk (generalizedTime c) ↔ ∃ m : Moment, m.Ok ∧ c = m.long := by
  unfold AnyTimeOk generalizedTime
  refine exists_congr fun m => and_congr_right fun _ => ?_
  simp

end Nat20.Profile
