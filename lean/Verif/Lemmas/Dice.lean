import Verif.Lemmas.X509Inj
import Verif.Spec.Dice
/-!
# Lemmas about the DICE extensions
-/

namespace Nat20

open Der Pki

theorem sliceValue_none {s : Slice} (h : s.buffer = none) : sliceValue s = none := by simp [sliceValue, h]

theorem sliceValue_some {s : Slice} (h : s.buffer ≠ none) : sliceValue s = some s.bytes := by
  obtain ⟨size, buf⟩ := s
  cases buf with
  | none => exact absurd rfl h
  | some p => rfl

/-- An optional field. -/
theorem prepends_optional (s : Slice) {w : W Unit} {f : Bytes → Der} (h : Prepends w (f s.bytes).encode) :
    Prepends (whenW s.buffer.isSome w) (encodeAll (ifPresent f (sliceValue s))) := by
  by_cases hb : s.buffer = none
  · rw [sliceValue_none hb, hb]
    exact Prepends.pure
  · rw [sliceValue_some hb]
    have : s.buffer.isSome = true := by cases hc : s.buffer with
      | none => exact absurd hc hb
      | some p => rfl
    rw [this]
    exact h.singleDer

theorem prepends_octetsExplicit (t : Nat) (ti : TagInfo) (hti : ti.tagging = .explicit t) (s : Slice) (hv : s.Valid) :
    Prepends (asn1OctetString (some s) ti) (explicitly t (octetString s.bytes)).encode := by
  refine (prepends_octetString (some s) ti (by intro x hx; cases hx; exact hv)).congr ?_
  rw [hti]
  simp [Tagging.element, explicitly, Tagging.apply, Der.encode, encodeAll, octetString, optBytes]

theorem prepends_utf8Explicit (t : Nat) (ti : TagInfo) (hti : ti.tagging = .explicit t) (s : Slice) (hv : s.Valid) :
    Prepends (asn1Utf8String (some s) ti) (explicitly t (utf8String s.bytes)).encode := by
  refine (prepends_utf8String (some s) ti (by intro x hx; cases hx; exact hv)).congr ?_
  rw [hti]
  simp [Tagging.element, explicitly, Tagging.apply, Der.encode, encodeAll, utf8String, optBytes]

theorem prepends_octetsImplicit (t : Nat) (ti : TagInfo) (hti : ti.tagging = .implicit t) (s : Slice) (hv : s.Valid) :
    Prepends (asn1OctetString (some s) ti) (implicitly t (octetString s.bytes)).encode := by
  refine (prepends_octetString (some s) ti (by intro x hx; cases hx; exact hv)).congr ?_
  rw [hti]
  simp [Tagging.element, implicitly, Tagging.apply, Der.encode, octetString, optBytes]

theorem prepends_utf8Implicit (t : Nat) (ti : TagInfo) (hti : ti.tagging = .implicit t) (s : Slice) (hv : s.Valid) :
    Prepends (asn1Utf8String (some s) ti) (implicitly t (utf8String s.bytes)).encode := by
  refine (prepends_utf8String (some s) ti (by intro x hx; cases hx; exact hv)).congr ?_
  rw [hti]
  simp [Tagging.element, implicitly, Tagging.apply, Der.encode, utf8String, optBytes]

theorem prepends_openDice (fr : Frame) (i : OpenDiceInput) (h : OpenDiceArg fr i) :
    Prepends (openDiceInputContent fr (some i)) (openDiceValue i).der.encode := by
  refine prepends_sequence ?_
  have h7 := prepends_optional i.profileName (f := fun c => explicitly 7 (utf8String c))
    (prepends_utf8Explicit 7 (tagInfoExplicit 7) rfl i.profileName h.profileName)
  have e : i.mode.toUInt64.toNat = i.mode.toNat := UInt32.toNat_toUInt64 _
  have hm : Prepends (asn1UInt64 fr i.mode.toUInt64 (tagInfoExplicit 6)) (encodeAll [explicitly 6 (integer i.mode.toNat)]) := by
    refine Prepends.singleDer ((prepends_uint64 fr i.mode.toUInt64 (tagInfoExplicit 6) ?_).congr ?_)
    · rcases h.mode with h | h
      · exact Or.inl h
      · right
        intro h1
        apply h
        apply UInt32.toNat_inj.1
        rw [← e, h1]; rfl
    · rw [e]
      have : (tagInfoExplicit 6).tagging = .explicit 6 := rfl
      rw [this]
      simp [Tagging.element, explicitly, Tagging.apply, Der.encode, encodeAll, integer]
  have h6 := h7.appendDers hm
  have h5 := h6.appendDers (prepends_optional i.authorityDescriptor (f := fun c => explicitly 5 (octetString c))
    (prepends_octetsExplicit 5 (tagInfoExplicit 5) rfl _ h.authorityDescriptor))
  have h4 := h5.appendDers (prepends_optional i.authorityHash (f := fun c => explicitly 4 (octetString c))
    (prepends_octetsExplicit 4 (tagInfoExplicit 4) rfl _ h.authorityHash))
  have h3 := h4.appendDers (prepends_optional i.configurationDescriptor (f := fun c => explicitly 3 (octetString c))
    (prepends_octetsExplicit 3 (tagInfoExplicit 3) rfl _ h.configurationDescriptor))
  have h2 := h3.appendDers (prepends_optional i.configurationHash (f := fun c => explicitly 2 (octetString c))
    (prepends_octetsExplicit 2 (tagInfoExplicit 2) rfl _ h.configurationHash))
  have h1 := h2.appendDers (prepends_optional i.codeDescriptor (f := fun c => explicitly 1 (octetString c))
    (prepends_octetsExplicit 1 (tagInfoExplicit 1) rfl _ h.codeDescriptor))
  have h0 := h1.appendDers (prepends_optional i.codeHash (f := fun c => explicitly 0 (octetString c))
    (prepends_octetsExplicit 0 (tagInfoExplicit 0) rfl _ h.codeHash))
  simp only [bind_assoc] at h0
  exact h0

/-! ## TcbInfo -/

theorem prepends_fwidLoop (l : List Fwid) (k : Nat) (hk : k ≤ l.length) (h : ∀ f ∈ l.take k, f.digest.Valid) :
    Prepends (fwidLoop l k) (encodeAll (((l.take k).map fwidValue).map FwidValue.der)) := by
  induction k with
  | zero => exact Prepends.pure
  | succ k ih =>
    have ht := List.take_succ_eq_append_getElem (l := l) (i := k) (by omega)
    rw [fwidLoop]
    refine Prepends.lift_bind (readElement_ok l k (by omega)) ?_
    rw [ht] at h ⊢
    rw [List.map_append, List.map_append]
    refine Prepends.appendDers ?_ (ih (by omega) (fun r hr => h r (List.mem_append_left _ hr)))
    refine Prepends.singleDer (prepends_sequence ?_)
    have hv := h (l[k]) (List.mem_append_right _ (List.mem_singleton_self _))
    refine Prepends.consDer (ds := [octetString (l[k]).digest.bytes]) (Prepends.singleDer ?_) (prepends_oidDer _)
    exact prepends_octetString (some (l[k]).digest) tagInfoNoOverride (by intro x hx; cases hx; exact hv)

theorem prepends_fwids (fr : Frame) (t : TcbInfo) (h : TcbInfoArg fr t) :
    Prepends (fwidsField t)
      (encodeAll (ifPresent (fun l : List FwidValue => implicitly 6 (sequence (l.map FwidValue.der))) (tcbInfoValue t).fwids)) := by
  unfold fwidsField
  have := h.fwids
  cases hf : t.fwids with
  | none =>
    simp only [tcbInfoValue, hf]
    exact Prepends.pure
  | some l =>
    simp only [tcbInfoValue, hf]
    obtain ⟨h1, h2⟩ := this l hf
    refine Prepends.singleDer ((prepends_hwc classUniversal true 0x10 (by decide)
      (prepends_fwidLoop l t.fwidsCount.toNat h1 h2) (tagInfoImplicit 6)).congr ?_)
    have : (tagInfoImplicit 6).tagging = .implicit 6 := rfl
    rw [this]
    simp [Tagging.element, implicitly, Tagging.apply, Der.encode, sequence]

theorem prepends_flags (f : OperationalFlags) (t : Nat) (ti : TagInfo) (hti : ti.tagging = .implicit t) :
    Prepends (asn1Bitstring (localPtr f.mask.toList) (8 * 4) ti)
      (encodeAll [implicitly t (bitString (bitsOf f.mask.toList))]) := by
  have hl : f.mask.toList.length = 4 := by simp
  have h1 : ((8 * 4 : UInt64)).toNat = 32 := by decide
  refine Prepends.singleDer ((prepends_bitstring ⟨[], f.mask.toList⟩ (8 * 4) ti (by rw [h1]; omega)
    (by rw [h1]; simp)).congr ?_)
  have h2 := bitsOf_length f.mask.toList
  rw [hti, h1, List.take_of_length_le (by simp only; omega)]
  simp [Tagging.element, implicitly, Tagging.apply, Der.encode, bitString]

theorem prepends_number (fr : Frame) (n : Int64) (t : Nat) (ti : TagInfo) (hti : ti.tagging = .implicit t)
    (h : fr.adjacent ≠ [] ∨ (n ≠ 0 ∧ n ≠ -1)) :
    Prepends (asn1Int64 fr n ti) (encodeAll [implicitly t (integer n.toInt)]) := by
  refine Prepends.singleDer ((prepends_int64 fr n ti h).congr ?_)
  rw [hti]
  simp [Tagging.element, implicitly, Tagging.apply, Der.encode, integer]

theorem prepends_tcbInfo (fr : Frame) (t : TcbInfo) (h : TcbInfoArg fr t) :
    Prepends (tcbInfoContent fr (some t)) (tcbInfoValue t).der.encode := by
  refine prepends_sequence ?_
  have num : ∀ n ∈ [t.svn, t.layer, t.index], fr.adjacent ≠ [] ∨ (n ≠ 0 ∧ n ≠ -1) := by
    intro n hn
    rcases h.numbers with h | h
    · exact Or.inl h
    · exact Or.inr (h n hn)
  have h10 := prepends_flags t.flagsMask 10 (tagInfoImplicit 10) rfl
  have h9 := h10.appendDers (prepends_optional t.type (f := fun c => implicitly 9 (octetString c))
    (prepends_octetsImplicit 9 (tagInfoImplicit 9) rfl _ h.type))
  have h8 := h9.appendDers (prepends_optional t.vendorInfo (f := fun c => implicitly 8 (octetString c))
    (prepends_octetsImplicit 8 (tagInfoImplicit 8) rfl _ h.vendorInfo))
  have h7 := h8.appendDers (prepends_flags t.flags 7 (tagInfoImplicit 7) rfl)
  have h6 := h7.appendDers (prepends_fwids fr t h)
  have h5 := h6.appendDers (prepends_number fr t.index 5 (tagInfoImplicit 5) rfl (num _ (by simp)))
  have h4 := h5.appendDers (prepends_number fr t.layer 4 (tagInfoImplicit 4) rfl (num _ (by simp)))
  have h3 := h4.appendDers (prepends_number fr t.svn 3 (tagInfoImplicit 3) rfl (num _ (by simp)))
  have h2 := h3.appendDers (prepends_optional t.version (f := fun c => implicitly 2 (utf8String c))
    (prepends_utf8Implicit 2 (tagInfoImplicit 2) rfl _ h.version))
  have h1 := h2.appendDers (prepends_optional t.model (f := fun c => implicitly 1 (utf8String c))
    (prepends_utf8Implicit 1 (tagInfoImplicit 1) rfl _ h.model))
  have h0 := h1.appendDers (prepends_optional t.vendor (f := fun c => implicitly 0 (utf8String c))
    (prepends_utf8Implicit 0 (tagInfoImplicit 0) rfl _ h.vendor))
  simp only [bind_assoc] at h0
  exact h0

theorem prepends_multiLoop (fr : Frame) (l : List TcbInfo) (k : Nat) (hk : k ≤ l.length)
    (h : ∀ t ∈ l.take k, TcbInfoArg fr t) :
    Prepends (multiTcbInfoLoop fr l k) (encodeAll ((l.take k).map fun t => (tcbInfoValue t).der)) := by
  induction k with
  | zero => exact Prepends.pure
  | succ k ih =>
    have ht := List.take_succ_eq_append_getElem (l := l) (i := k) (by omega)
    rw [multiTcbInfoLoop]
    refine Prepends.lift_bind (readElement_ok l k (by omega)) ?_
    rw [ht] at h ⊢
    rw [List.map_append]
    refine Prepends.appendDers ?_ (ih (by omega) (fun r hr => h r (List.mem_append_left _ hr)))
    exact Prepends.singleDer (prepends_tcbInfo fr _ (h _ (List.mem_append_right _ (List.mem_singleton_self _))))

/-! ## Bit strings of whole octets -/

theorem bitStringContent_bitsOf (l : Bytes) : bitStringContent (bitsOf l) = 0 :: l := by
  rw [bitStringContent, packBits_bitsOf, bitsOf_length]
  have : (8 - 8 * l.length % 8) % 8 = 0 := by omega
  rw [this]; rfl

theorem bitsOf_getElem (l : Bytes) (k : Nat) :
    (bitsOf l)[k]? = l[k / 8]?.map fun b => b.toNat.testBit (7 - k % 8) := by
  induction l generalizing k with
  | nil => simp [bitsOf]
  | cons b t ih =>
    rw [bitsOf_cons]
    by_cases hk : k < 8
    · rw [List.getElem?_append_left (by rw [octetBits_length]; exact hk)]
      have h0 : k / 8 = 0 := by omega
      have h1 : k % 8 = k := by omega
      rw [h0, h1]
      simp [octetBits, hk]
    · rw [List.getElem?_append_right (by rw [octetBits_length]; omega), octetBits_length, ih]
      have h0 : k / 8 = (k - 8) / 8 + 1 := by omega
      have h1 : k % 8 = (k - 8) % 8 := by omega
      rw [h0, h1, List.getElem?_cons_succ]

/-! ## Classes -/

theorem classesOk_optional {α : Type} {f : α → Der} (h : ∀ a, (f a).ClassOk) (v : Option α) : ClassesOk (ifPresent f v) := by
  cases v with
  | none => trivial
  | some a => exact ⟨h a, trivial⟩

theorem classOk_openDice (v : OpenDiceValue) : v.der.ClassOk := by
  have hx : ∀ t c, (explicitly t (octetString c)).ClassOk := by
    intro t c; simp [explicitly, Tagging.apply, octetString, Der.ClassOk, ClassesOk]
  have hu : ∀ t c, (explicitly t (utf8String c)).ClassOk := by
    intro t c; simp [explicitly, Tagging.apply, utf8String, Der.ClassOk, ClassesOk]
  have hi : (explicitly 6 (integer v.mode)).ClassOk := by
    simp [explicitly, Tagging.apply, integer, Der.ClassOk, ClassesOk]
  exact classOk_sequence (classesOk_append (classesOk_optional (hx 0) _) (classesOk_append (classesOk_optional (hx 1) _)
    (classesOk_append (classesOk_optional (hx 2) _) (classesOk_append (classesOk_optional (hx 3) _)
    (classesOk_append (classesOk_optional (hx 4) _) (classesOk_append (classesOk_optional (hx 5) _)
    (classesOk_append ⟨hi, trivial⟩ (classesOk_optional (hu 7) _))))))))

theorem classOk_fwid (f : FwidValue) : f.der.ClassOk :=
  classOk_sequence ⟨classOk_oid _, by simp [octetString, Der.ClassOk], trivial⟩

theorem classOk_tcbInfo (v : TcbInfoValue) : v.der.ClassOk := by
  have hx : ∀ t c, (implicitly t (octetString c)).ClassOk := by
    intro t c; simp [implicitly, Tagging.apply, octetString, Der.ClassOk]
  have hu : ∀ t c, (implicitly t (utf8String c)).ClassOk := by
    intro t c; simp [implicitly, Tagging.apply, utf8String, Der.ClassOk]
  have hi : ∀ t n, (implicitly t (integer n)).ClassOk := by
    intro t c; simp [implicitly, Tagging.apply, integer, Der.ClassOk]
  have hb : ∀ t n, (implicitly t (bitString n)).ClassOk := by
    intro t c; simp [implicitly, Tagging.apply, bitString, Der.ClassOk]
  have hf : ∀ l : List FwidValue, (implicitly 6 (sequence (l.map FwidValue.der))).ClassOk := by
    intro l
    have := classesOk_map classOk_fwid l
    simp [implicitly, Tagging.apply, sequence, Der.ClassOk, this]
  exact classOk_sequence (classesOk_append (classesOk_optional (hu 0) _) (classesOk_append (classesOk_optional (hu 1) _)
    (classesOk_append (classesOk_optional (hu 2) _) (classesOk_append ⟨hi 3 _, trivial⟩ (classesOk_append ⟨hi 4 _, trivial⟩
    (classesOk_append ⟨hi 5 _, trivial⟩ (classesOk_append (classesOk_optional hf _) (classesOk_append ⟨hb 7 _, trivial⟩
    (classesOk_append (classesOk_optional (hx 8) _) (classesOk_append (classesOk_optional (hx 9) _) ⟨hb 10 _, trivial⟩))))))))))

/-! ## Distinct values have distinct trees -/

/-- The tag of a value. -/
def derTag : Der → Nat
  | .prim _ t _ => t
  | .cons _ t _ => t

/-- Splits off a member which may be absent and whose tag does not occur further on. -/
theorem optional_append_inj_on {α : Type} {f : α → Der} {t : Nat} (hf : ∀ a, derTag (f a) = t) {a b : Option α}
    (hi : ∀ x, a = some x → ∀ y, b = some y → f x = f y → x = y) {l m : List Der} (hl : ∀ d ∈ l, derTag d ≠ t) (hm : ∀ d ∈ m, derTag d ≠ t)
    (h : ifPresent f a ++ l = ifPresent f b ++ m) : a = b ∧ l = m := by
  cases a with
  | none =>
    cases b with
    | none => exact ⟨rfl, h⟩
    | some b =>
      exfalso
      simp only [ifPresent, Option.map_none, Option.toList_none, List.nil_append, Option.map_some, Option.toList_some,
        List.singleton_append] at h
      exact hl (f b) (by rw [h]; simp) (hf b)
  | some a =>
    cases b with
    | none =>
      exfalso
      simp only [ifPresent, Option.map_none, Option.toList_none, List.nil_append, Option.map_some, Option.toList_some,
        List.singleton_append] at h
      exact hm (f a) (by rw [← h]; simp) (hf a)
    | some b =>
      simp only [ifPresent, Option.map_some, Option.toList_some, List.singleton_append, List.cons.injEq] at h
      exact ⟨by rw [hi a rfl b rfl h.1], h.2⟩

theorem optional_append_inj {α : Type} {f : α → Der} {t : Nat} (hf : ∀ a, derTag (f a) = t) (hi : ∀ a b, f a = f b → a = b)
    {a b : Option α} {l m : List Der} (hl : ∀ d ∈ l, derTag d ≠ t) (hm : ∀ d ∈ m, derTag d ≠ t)
    (h : ifPresent f a ++ l = ifPresent f b ++ m) : a = b ∧ l = m :=
  optional_append_inj_on hf (fun x _ y _ => hi x y) hl hm h

theorem single_append_inj {a b : Der} {l m : List Der} (h : [a] ++ l = [b] ++ m) : a = b ∧ l = m := by
  simpa using h

theorem mem_optional {α : Type} {f : α → Der} {t : Nat} (hf : ∀ a, derTag (f a) = t) {v : Option α} {d : Der}
    (h : d ∈ ifPresent f v) : derTag d = t := by
  cases v with
  | none => simp [ifPresent] at h
  | some a =>
    simp [ifPresent] at h
    rw [h, hf]

/-- Tags of a list are at least `t`. -/
def TagsFrom (t : Nat) (l : List Der) : Prop := ∀ d ∈ l, t ≤ derTag d

theorem TagsFrom.optional {α : Type} {f : α → Der} {t : Nat} (hf : ∀ a, derTag (f a) = t) (v : Option α) {l : List Der}
    (h : TagsFrom (t + 1) l) : TagsFrom t (ifPresent f v ++ l) := by
  intro d hd
  rcases List.mem_append.1 hd with hd | hd
  · exact Nat.le_of_eq (mem_optional hf hd).symm
  · exact Nat.le_of_succ_le (h d hd)

theorem TagsFrom.single {t : Nat} {d : Der} (hd : derTag d = t) {l : List Der} (h : TagsFrom (t + 1) l) : TagsFrom t ([d] ++ l) := by
  intro e he
  rcases List.mem_append.1 he with he | he
  · rw [List.mem_singleton] at he; subst he; exact Nat.le_of_eq hd.symm
  · exact Nat.le_of_succ_le (h e he)

theorem TagsFrom.ne {t : Nat} {l : List Der} (h : TagsFrom (t + 1) l) : ∀ d ∈ l, derTag d ≠ t := by
  intro d hd; have := h d hd; omega

theorem openDiceValue_inj {v w : OpenDiceValue} (h : v.der = w.der) : v = w := by
  have hx : ∀ t, ∀ c, derTag (explicitly t (octetString c)) = t := fun t c => rfl
  have hu : ∀ c, derTag (explicitly 7 (utf8String c)) = 7 := fun c => rfl
  have ix : ∀ t c d, explicitly t (octetString c) = explicitly t (octetString d) → c = d := by
    intro t c d h; simpa [explicitly, Tagging.apply, octetString] using h
  have iu : ∀ c d, explicitly 7 (utf8String c) = explicitly 7 (utf8String d) → c = d := by
    intro c d h; simpa [explicitly, Tagging.apply, utf8String] using h
  have T8 : ∀ v : OpenDiceValue, TagsFrom 7 (ifPresent (fun c => explicitly 7 (utf8String c)) v.profileName) := by
    intro v d hd; exact Nat.le_of_eq (mem_optional hu hd).symm
  have T6 : ∀ v : OpenDiceValue, TagsFrom 6 _ := fun v => TagsFrom.single (d := explicitly 6 (integer v.mode)) rfl (T8 v)
  have T5 : ∀ v : OpenDiceValue, TagsFrom 5 _ := fun v => TagsFrom.optional (hx 5) v.authorityDescriptor (T6 v)
  have T4 : ∀ v : OpenDiceValue, TagsFrom 4 _ := fun v => TagsFrom.optional (hx 4) v.authorityHash (T5 v)
  have T3 : ∀ v : OpenDiceValue, TagsFrom 3 _ := fun v => TagsFrom.optional (hx 3) v.configurationDescriptor (T4 v)
  have T2 : ∀ v : OpenDiceValue, TagsFrom 2 _ := fun v => TagsFrom.optional (hx 2) v.configurationHash (T3 v)
  have T1 : ∀ v : OpenDiceValue, TagsFrom 1 _ := fun v => TagsFrom.optional (hx 1) v.codeDescriptor (T2 v)
  simp only [OpenDiceValue.der, sequence, Der.cons.injEq, true_and] at h
  obtain ⟨e0, h⟩ := optional_append_inj (hx 0) (ix 0) (T1 v).ne (T1 w).ne h
  obtain ⟨e1, h⟩ := optional_append_inj (hx 1) (ix 1) (T2 v).ne (T2 w).ne h
  obtain ⟨e2, h⟩ := optional_append_inj (hx 2) (ix 2) (T3 v).ne (T3 w).ne h
  obtain ⟨e3, h⟩ := optional_append_inj (hx 3) (ix 3) (T4 v).ne (T4 w).ne h
  obtain ⟨e4, h⟩ := optional_append_inj (hx 4) (ix 4) (T5 v).ne (T5 w).ne h
  obtain ⟨e5, h⟩ := optional_append_inj (hx 5) (ix 5) (T6 v).ne (T6 w).ne h
  replace h := single_append_inj h
  have e6 : v.mode = w.mode := by
    have h1 := h.1
    simp only [explicitly, Tagging.apply, Der.cons.injEq, true_and, List.cons.injEq, and_true] at h1
    have := integer_inj h1
    omega
  have e7 := (optional_append_inj (l := []) (m := []) hu iu (by simp) (by simp) (by simpa using h.2)).1
  cases v; cases w
  simp_all

theorem fwid_inj {a b : FwidValue} (ha : ArcsOk a.hashAlg) (hb : ArcsOk b.hashAlg) (h : a.der = b.der) : a = b := by
  obtain ⟨o, d⟩ := a
  obtain ⟨o', d'⟩ := b
  simp only [FwidValue.der, sequence, Der.cons.injEq, true_and, List.cons.injEq, and_true, octetString, Der.prim.injEq] at h
  have := oidDer_inj ha hb h.1
  simp_all

/-- All hash algorithms are standard OIDs. -/
def FwidsOk (v : TcbInfoValue) : Prop := ∀ l, v.fwids = some l → ∀ f ∈ l, ArcsOk f.hashAlg

theorem tcbInfoValue_inj {v w : TcbInfoValue} (hv : FwidsOk v) (hw : FwidsOk w) (h : v.der = w.der) : v = w := by
  have hx : ∀ t, ∀ c, derTag (implicitly t (octetString c)) = t := fun t c => rfl
  have hu : ∀ t, ∀ c, derTag (implicitly t (utf8String c)) = t := fun t c => rfl
  have hf : ∀ l : List FwidValue, derTag (implicitly 6 (sequence (l.map FwidValue.der))) = 6 := fun l => rfl
  have ix : ∀ t c d, implicitly t (octetString c) = implicitly t (octetString d) → c = d := by
    intro t c d h; simpa [implicitly, Tagging.apply, octetString] using h
  have iu : ∀ t c d, implicitly t (utf8String c) = implicitly t (utf8String d) → c = d := by
    intro t c d h; simpa [implicitly, Tagging.apply, utf8String] using h
  have ii : ∀ t a b, implicitly t (integer a) = implicitly t (integer b) → a = b := by
    intro t a b h
    apply integer_inj
    simpa [implicitly, Tagging.apply, integer] using h
  have ib : ∀ t a b, implicitly t (bitString a) = implicitly t (bitString b) → a = b := by
    intro t a b h
    apply bitString_inj
    simpa [implicitly, Tagging.apply, bitString] using h
  have T10 : ∀ v : TcbInfoValue, TagsFrom 10 [implicitly 10 (bitString v.flagsMask)] := by
    intro v d hd; rw [List.mem_singleton] at hd; subst hd; exact Nat.le_refl _
  have T9 : ∀ v : TcbInfoValue, TagsFrom 9 _ := fun v => TagsFrom.optional (hx 9) v.type (T10 v)
  have T8 : ∀ v : TcbInfoValue, TagsFrom 8 _ := fun v => TagsFrom.optional (hx 8) v.vendorInfo (T9 v)
  have T7 : ∀ v : TcbInfoValue, TagsFrom 7 _ := fun v => TagsFrom.single (d := implicitly 7 (bitString v.flags)) rfl (T8 v)
  have T6 : ∀ v : TcbInfoValue, TagsFrom 6 _ := fun v => TagsFrom.optional hf v.fwids (T7 v)
  have T5 : ∀ v : TcbInfoValue, TagsFrom 5 _ := fun v => TagsFrom.single (d := implicitly 5 (integer v.index)) rfl (T6 v)
  have T4 : ∀ v : TcbInfoValue, TagsFrom 4 _ := fun v => TagsFrom.single (d := implicitly 4 (integer v.layer)) rfl (T5 v)
  have T3 : ∀ v : TcbInfoValue, TagsFrom 3 _ := fun v => TagsFrom.single (d := implicitly 3 (integer v.svn)) rfl (T4 v)
  have T2 : ∀ v : TcbInfoValue, TagsFrom 2 _ := fun v => TagsFrom.optional (hu 2) v.version (T3 v)
  have T1 : ∀ v : TcbInfoValue, TagsFrom 1 _ := fun v => TagsFrom.optional (hu 1) v.model (T2 v)
  simp only [TcbInfoValue.der, sequence, Der.cons.injEq, true_and] at h
  obtain ⟨e0, h⟩ := optional_append_inj (hu 0) (iu 0) (T1 v).ne (T1 w).ne h
  obtain ⟨e1, h⟩ := optional_append_inj (hu 1) (iu 1) (T2 v).ne (T2 w).ne h
  obtain ⟨e2, h⟩ := optional_append_inj (hu 2) (iu 2) (T3 v).ne (T3 w).ne h
  replace h := single_append_inj h
  have e3 := ii 3 _ _ h.1
  replace h := h.2
  replace h := single_append_inj h
  have e4 := ii 4 _ _ h.1
  replace h := h.2
  replace h := single_append_inj h
  have e5 := ii 5 _ _ h.1
  replace h := h.2
  obtain ⟨e6, h⟩ := optional_append_inj_on hf (by
    intro l hl m hm h1
    simp only [implicitly, Tagging.apply, sequence, Der.cons.injEq, true_and] at h1
    exact map_inj_on (P := fun f => ArcsOk f.hashAlg) (fun a b ha hb e => fwid_inj ha hb e) l m (hv l hl) (hw m hm) h1)
    (T7 v).ne (T7 w).ne h
  replace h := single_append_inj h
  have e7 := ib 7 _ _ h.1
  replace h := h.2
  obtain ⟨e8, h⟩ := optional_append_inj (hx 8) (ix 8) (T9 v).ne (T9 w).ne h
  obtain ⟨e9, h⟩ := optional_append_inj (hx 9) (ix 9) (T10 v).ne (T10 w).ne h
  rw [List.cons.injEq] at h
  have e10 := ib 10 _ _ h.1
  cases v; cases w
  simp_all

end Nat20
