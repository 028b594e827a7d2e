import Verif.Lemmas.X509
/-!
# Certificates: distinct field values have distinct DER trees
-/

namespace Nat20

open Der Pki

theorem parseOid_code {arcs : List Nat} (h : StandardArcs arcs) : parseOid (oidCodeContent arcs) = some arcs := by
  obtain ⟨a, b, rest, he, h1, h2, h3⟩ := h
  exact parseOid_content arcs ⟨a, b, rest, he, h1, h2⟩ _ (oidCodeContent_eq arcs a b rest he h3)

theorem oidDer_inj {a b : Option (List Nat)} (ha : ArcsOk a) (hb : ArcsOk b) (h : oidDer a = oidDer b) : a = b := by
  cases a with
  | none =>
    cases b with
    | none => rfl
    | some b => simp [oidDer, null] at h
  | some a =>
    cases b with
    | none => simp [oidDer, null] at h
    | some b =>
      simp only [oidDer, Der.prim.injEq, true_and] at h
      have h1 := parseOid_code (ha a rfl)
      rw [h, parseOid_code (hb b rfl)] at h1
      exact h1.symm

theorem attribute_inj {a b : Attribute} (ha : ArcsOk a.type) (hb : ArcsOk b.type) (h : a.der = b.der) : a = b := by
  obtain ⟨t, v⟩ := a
  obtain ⟨t', v'⟩ := b
  simp only [Attribute.der, Der.set, sequence, printableString, Der.cons.injEq, true_and, List.cons.injEq, Der.prim.injEq,
    and_true] at h
  obtain ⟨h1, h2⟩ := h
  have := oidDer_inj ha hb h1
  simp_all

theorem map_inj_on {α β : Type} {f : α → β} {P : α → Prop} (hf : ∀ a b, P a → P b → f a = f b → a = b) :
    ∀ (l m : List α), (∀ a ∈ l, P a) → (∀ a ∈ m, P a) → l.map f = m.map f → l = m
  | [], [], _, _, _ => rfl
  | [], _ :: _, _, _, h => by simp at h
  | _ :: _, [], _, _, h => by simp at h
  | a :: l, b :: m, hl, hm, h => by
    simp only [List.map_cons, List.cons.injEq] at h
    rw [hf a b (hl a (by simp)) (hm b (by simp)) h.1,
      map_inj_on hf l m (fun x hx => hl x (by simp [hx])) (fun x hx => hm x (by simp [hx])) h.2]

theorem name_inj {a b : Option (List Attribute)} (ha : NameOk a) (hb : NameOk b) (h : nameDer a = nameDer b) : a = b := by
  cases a with
  | none =>
    cases b with
    | none => rfl
    | some b =>
      exfalso
      simp only [nameDer, sequence, Der.cons.injEq, true_and] at h
      cases b with
      | nil => simp at h
      | cons x y => simp [Attribute.der, Der.set, null] at h
  | some a =>
    cases b with
    | none =>
      exfalso
      simp only [nameDer, sequence, Der.cons.injEq, true_and] at h
      cases a with
      | nil => simp at h
      | cons x y => simp [Attribute.der, Der.set, null] at h
    | some b =>
      simp only [nameDer, sequence, Der.cons.injEq, true_and] at h
      congr 1
      exact map_inj_on (P := fun x => ArcsOk x.type) (fun x y hx hy e => attribute_inj hx hy e) a b (ha a rfl) (hb b rfl) h

theorem params_inj {a b : Params} (ha : a.Ok) (hb : b.Ok) (h : a.ders = b.ders) : a = b := by
  cases a <;> cases b <;> simp only [Params.ders, null, oidDer] at h <;> try rfl
  all_goals first
    | (simp at h; done)
    | skip
  rename_i x y
  have := oidDer_inj (a := some x) (b := some y) (by intro _ e; cases e; exact ha) (by intro _ e; cases e; exact hb)
    (List.cons.inj h).1
  rw [Option.some.inj this]

theorem algorithm_inj {a b : Algorithm} (ha : a.Ok) (hb : b.Ok) (h : a.der = b.der) : a = b := by
  obtain ⟨o, p⟩ := a
  obtain ⟨o', p'⟩ := b
  simp only [Algorithm.der, sequence, Der.cons.injEq, true_and, List.cons.injEq] at h
  have h1 := oidDer_inj ha.1 hb.1 h.1
  have h2 := params_inj ha.2 hb.2 h.2
  simp_all

theorem bitString_inj {a b : List Bool} (h : bitString a = bitString b) : a = b := by
  simp only [bitString, Der.prim.injEq, true_and] at h
  exact bitStringContent_injective h

theorem spki_inj {a b : Spki} (ha : a.algorithm.Ok) (hb : b.algorithm.Ok) (h : a.der = b.der) : a = b := by
  obtain ⟨o, p⟩ := a
  obtain ⟨o', p'⟩ := b
  simp only [Spki.der, sequence, Der.cons.injEq, true_and, List.cons.injEq, and_true] at h
  have h1 := algorithm_inj ha hb h.1
  have h2 := bitString_inj h.2
  simp_all

theorem period_inj {a b : Period} (h : a.der = b.der) : a = b := by
  obtain ⟨o, p⟩ := a
  obtain ⟨o', p'⟩ := b
  simp only [Period.der, generalizedTime, sequence, Der.cons.injEq, true_and, List.cons.injEq, and_true, Der.prim.injEq] at h
  simp_all

theorem integer_inj {a b : Int} (h : integer a = integer b) : a = b := by
  simp only [integer, Der.prim.injEq, true_and] at h
  rw [← (intContent_spec a).2, h, (intContent_spec b).2]

theorem serial_inj {a b : Option Nat} (h : serialDer a = serialDer b) : a = b := by
  cases a <;> cases b
  · rfl
  · simp [serialDer, null, integer] at h
  · simp [serialDer, null, integer] at h
  · have := integer_inj h
    congr 1
    omega

theorem ext_inj {a b : Ext} (ha : ArcsOk a.oid) (hb : ArcsOk b.oid) (h : a.der = b.der) : a = b := by
  obtain ⟨o, c, v⟩ := a
  obtain ⟨o', c', v'⟩ := b
  simp only [Ext.der, sequence, Der.cons.injEq, true_and, List.cons.injEq] at h
  have h1 := oidDer_inj ha hb h.1
  have h2 := h.2
  cases c <;> cases c' <;> simp [octetString, boolean] at h2
  · simp_all
  · simp_all

theorem extensions_inj {a b : List Ext} (ha : ∀ e ∈ a, ArcsOk e.oid) (hb : ∀ e ∈ b, ArcsOk e.oid)
    (h : extensionsDers a = extensionsDers b) : a = b := by
  cases a with
  | nil =>
    cases b with
    | nil => rfl
    | cons x y => simp [extensionsDers] at h
  | cons x y =>
    cases b with
    | nil => simp [extensionsDers] at h
    | cons x' y' =>
      simp only [extensionsDers, sequence, List.cons.injEq, Der.cons.injEq, true_and, and_true] at h
      exact map_inj_on (P := fun x => ArcsOk x.oid) (fun x y hx hy e => ext_inj hx hy e) _ _ ha hb h

theorem tbsValue_inj {a b : TbsValue} (ha : a.Ok) (hb : b.Ok) (h : a.der = b.der) : a = b := by
  simp only [TbsValue.der, sequence, Der.cons.injEq, true_and, List.cons_append, List.cons.injEq, List.nil_append] at h
  obtain ⟨h1, h2, h3, h4, h5, h6, h7⟩ := h
  have e1 := serial_inj h1
  have e2 := algorithm_inj ha.signature hb.signature h2
  have e3 := name_inj ha.issuer hb.issuer h3
  have e4 := period_inj h4
  have e5 := name_inj ha.subject hb.subject h5
  have e6 := spki_inj ha.spki hb.spki h6
  have e7 := extensions_inj ha.extensions hb.extensions h7
  cases a; cases b
  simp_all

theorem certValue_inj {a b : CertValue} (ha : a.Ok) (hb : b.Ok) (h : a.der = b.der) : a = b := by
  simp only [CertValue.der, sequence, Der.cons.injEq, true_and, List.cons.injEq, and_true] at h
  obtain ⟨h1, h2, h3⟩ := h
  have e1 := algorithm_inj ha.algorithm hb.algorithm h2
  have e2 := bitString_inj h3
  have e3 : a.tbs = b.tbs := by
    have ha' := ha.tbs
    have hb' := hb.tbs
    cases hx : a.tbs with
    | none =>
      cases hy : b.tbs with
      | none => rfl
      | some t => rw [hx, hy] at h1; simp [tbsDer, sequence, TbsValue.der] at h1
    | some t =>
      cases hy : b.tbs with
      | none => rw [hx, hy] at h1; simp [tbsDer, sequence, TbsValue.der] at h1
      | some u =>
        rw [hx, hy] at h1
        rw [tbsValue_inj (ha' t hx) (hb' u hy) h1]
  cases a; cases b
  simp_all

/-! ## Classes -/

theorem classesOk_append {a b : List Der} (ha : ClassesOk a) (hb : ClassesOk b) : ClassesOk (a ++ b) := by
  induction a with
  | nil => exact hb
  | cons x xs ih => exact ⟨ha.1, ih ha.2⟩

theorem classesOk_map {α : Type} {f : α → Der} (h : ∀ a, (f a).ClassOk) (l : List α) : ClassesOk (l.map f) := by
  induction l with
  | nil => trivial
  | cons x xs ih => exact ⟨h x, ih⟩

theorem classOk_sequence {l : List Der} (h : ClassesOk l) : (sequence l).ClassOk := ⟨by decide, h⟩

theorem classOk_oid (o : Option (List Nat)) : (oidDer o).ClassOk := by
  cases o <;> simp [oidDer, null, Der.ClassOk]

theorem classOk_attribute (a : Attribute) : a.der.ClassOk := by
  have := classOk_oid a.type
  simp [Attribute.der, Der.set, sequence, Der.ClassOk, ClassesOk, printableString, this]

theorem classOk_name (n : Option (List Attribute)) : (nameDer n).ClassOk := by
  cases n with
  | none => simp [nameDer, sequence, Der.ClassOk, ClassesOk, null]
  | some l => exact classOk_sequence (classesOk_map classOk_attribute l)

theorem classOk_algorithm (a : Algorithm) : a.der.ClassOk := by
  refine classOk_sequence ⟨classOk_oid _, ?_⟩
  cases a.params with
  | absent => trivial
  | null => exact ⟨by simp [Der.null, Der.ClassOk], trivial⟩
  | curve c => exact ⟨classOk_oid _, trivial⟩

theorem classOk_bitString (b : List Bool) : (bitString b).ClassOk := by simp [bitString, Der.ClassOk]

theorem classOk_spki (k : Spki) : k.der.ClassOk :=
  classOk_sequence ⟨classOk_algorithm _, classOk_bitString _, trivial⟩

theorem classOk_ext (e : Ext) : e.der.ClassOk := by
  refine classOk_sequence ⟨classOk_oid _, classesOk_append ?_ ?_⟩
  · cases e.critical <;> simp [ClassesOk, Der.ClassOk, boolean]
  · simp [ClassesOk, Der.ClassOk, octetString]

theorem classesOk_extensions (l : List Ext) : ClassesOk (extensionsDers l) := by
  cases l with
  | nil => trivial
  | cons a b =>
    refine ⟨⟨by decide, classOk_sequence (classesOk_map classOk_ext _), trivial⟩, trivial⟩

theorem classOk_tbs (t : TbsValue) : t.der.ClassOk := by
  refine classOk_sequence (classesOk_append ?_ (classesOk_extensions _))
  refine ⟨⟨by decide, ?_, trivial⟩, ?_, classOk_algorithm _, classOk_name _, ⟨by decide, ?_, ?_, trivial⟩, classOk_name _, classOk_spki _, trivial⟩
  · simp [integer, Der.ClassOk]
  · cases t.serial <;> simp [serialDer, null, integer, Der.ClassOk]
  · simp [generalizedTime, Der.ClassOk]
  · simp [generalizedTime, Der.ClassOk]

theorem classOk_tbsDer (t : Option TbsValue) : (tbsDer t).ClassOk := by
  cases t with
  | none => exact classOk_sequence (l := []) trivial
  | some t => exact classOk_tbs t

theorem classOk_cert (c : CertValue) : c.der.ClassOk :=
  classOk_sequence ⟨classOk_tbsDer _, classOk_algorithm _, classOk_bitString _, trivial⟩

/-! ## Hex -/

theorem hexDigit_inj : ∀ a b : Fin 16, hexDigit a = hexDigit b → a = b := by decide +kernel

theorem hexString_injective : ∀ a b : Bytes, hexString a = hexString b → a = b
  | [], [], _ => rfl
  | [], _ :: _, h => by simp [hexString] at h
  | _ :: _, [], h => by simp [hexString] at h
  | x :: a, y :: b, h => by
    simp only [hexString, List.flatMap_cons, List.cons_append, List.nil_append, List.cons.injEq] at h
    obtain ⟨h1, h2, h3⟩ := h
    have hx := x.toNat_lt
    have hy := y.toNat_lt
    have e1 := hexDigit_inj ⟨x.toNat / 16, by omega⟩ ⟨y.toNat / 16, by omega⟩ h1
    have e2 := hexDigit_inj ⟨x.toNat % 16, by omega⟩ ⟨y.toNat % 16, by omega⟩ h2
    simp only [Fin.mk.injEq] at e1 e2
    rw [UInt8.toNat_inj.1 (show x.toNat = y.toNat by omega), hexString_injective a b h3]

end Nat20
