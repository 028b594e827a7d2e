import Verif.Lemmas.Stream
import Verif.Model.Asn1
import Verif.Spec.Asn1
/-!
# Lemmas about base-128 integers, headers and header_with_content
-/

namespace Nat20

open Der

/-- `Prepends` for writers which return a value. -/
structure PrependsV {α : Type} (w : W α) (bs : Bytes) (v : α) : Prop where
  null : w none = .ok (v, none)
  run : ∀ s : Stream, s.WF → ∃ s' : Stream, w (some s) = .ok (v, some s') ∧ s'.WF ∧ Prepended s s' bs

theorem Prepends.toV {w : W Unit} {bs : Bytes} (h : Prepends w bs) : PrependsV w bs () := ⟨h.null, h.run⟩
theorem PrependsV.toUnit {w : W Unit} {bs : Bytes} (h : PrependsV w bs ()) : Prepends w bs := ⟨h.null, h.run⟩

theorem PrependsV.pure {α : Type} (v : α) : PrependsV (Pure.pure v : W α) [] v where
  null := rfl
  run s hs := ⟨s, rfl, hs, Prepended.refl s hs⟩

theorem PrependsV.bind {α β : Type} {w : W α} {f : α → W β} {b1 b2 : Bytes} {v : α} {u : β}
    (h1 : PrependsV w b1 v) (h2 : PrependsV (f v) b2 u) : PrependsV (do let x ← w; f x) (b2 ++ b1) u where
  null := by
    show (w none >>= fun p => f p.1 p.2) = _
    rw [h1.null]; exact h2.null
  run s hs := by
    obtain ⟨s1, e1, hw1, p1⟩ := h1.run s hs
    obtain ⟨s2, e2, hw2, p2⟩ := h2.run s1 hw1
    refine ⟨s2, ?_, hw2, p1.trans hs hw1 p2⟩
    show (w (some s) >>= fun p => f p.1 p.2) = _
    rw [e1]; exact e2

theorem PrependsV.congr {α : Type} {w : W α} {b b' : Bytes} {v : α} (h : PrependsV w b v) (e : b = b') :
    PrependsV w b' v := e ▸ h

theorem PrependsV.bindP {α : Type} {w : W α} {f : α → W Unit} {b1 b2 : Bytes} {v : α}
    (h1 : PrependsV w b1 v) (h2 : Prepends (f v) b2) : Prepends (do let x ← w; f x) (b2 ++ b1) :=
  (h1.bind h2.toV).toUnit

theorem PrependsV.lift {α : Type} {r : Except UB α} {v : α} (hr : r = .ok v) :
    PrependsV (liftM r : W α) [] v := by
  subst hr
  exact ⟨rfl, fun s hs => ⟨s, rfl, hs, Prepended.refl s hs⟩⟩

/-- Once the position counter overflowed, the bytes do not matter any more. -/
theorem Prepended.of_wpo {s s' : Stream} {b b' : Bytes} (hs : s.WF) (hs' : s'.WF) (h : Prepended s s' b)
    (hw : s'.writePositionOverflow = true)
    (hb' : s.writePositionOverflow = true ∨ 2 ^ 64 ≤ s.writePosition.toNat + b'.length) : Prepended s s' b' where
  size_eq := h.size_eq
  same_buffer := h.same_buffer
  wpo_iff := ⟨fun _ => hb', fun _ => hw⟩
  bo_iff := by
    refine ⟨fun _ => ?_, fun _ => hs'.wpo_bo hw⟩
    rcases hb' with h | h
    · exact Or.inl (hs.wpo_bo h)
    · right; have := uint64_lt s.size; omega
  count := by intro hh; rw [hw] at hh; cases hh
  fits := by intro hh; rw [hs'.wpo_bo hw] at hh; cases hh
  keeps := h.keeps
  dead := h.dead

/-- A header computed from the number of bytes written since `mark`, put in front of these bytes. -/
theorem prepends_counted {w : W Unit} {content : Bytes} {g : UInt64 → W Unit} {hdr : Nat → Bytes}
    (hw : Prepends w content) (hg : ∀ n : UInt64, Prepends (g n) (hdr n.toNat)) :
    Prepends (do let mark ← byteCount; w; let count ← byteCount; g (count - mark)) (hdr content.length ++ content) where
  null := by
    show (w none >>= fun p => g (streamByteCount p.2 - streamByteCount none) p.2) = _
    rw [hw.null]
    exact (hg _).null
  run s hs := by
    obtain ⟨s1, e1, wf1, p1⟩ := hw.run s hs
    obtain ⟨s2, e2, wf2, p2⟩ := (hg (streamByteCount (some s1) - streamByteCount (some s))).run s1 wf1
    refine ⟨s2, ?_, wf2, ?_⟩
    · show (w (some s) >>= fun p => g (streamByteCount p.2 - streamByteCount (some s)) p.2) = _
      rw [e1]; exact e2
    · cases hwp : s1.writePositionOverflow with
      | false =>
        have hc := p1.count hwp
        have e : (streamByteCount (some s1) - streamByteCount (some s)).toNat = content.length := by
          simp only [streamByteCount]
          rw [UInt64.toNat_sub_of_le, hc]
          · omega
          · rw [UInt64.le_iff_toNat_le, hc]; omega
        rw [e] at p2
        exact p1.trans hs wf1 p2
      | true =>
        refine (p1.trans hs wf1 p2).of_wpo hs wf2 ((p2.wpo_iff).2 (Or.inl hwp)) ?_
        rcases (p1.wpo_iff).1 hwp with h | h
        · exact Or.inl h
        · right; simp; omega

/-! ## Bit-level facts -/

theorem u8_eq_of_toNat {a : UInt8} {n : Nat} (h : a.toNat = n) : a = UInt8.ofNat n := by
  subst h; simp

theorem and_7f (n : UInt64) : (n &&& 0x7f).toUInt8 = UInt8.ofNat (n.toNat % 128) := by
  apply u8_eq_of_toNat
  have h : (n &&& 0x7f).toNat = n.toNat % 128 := by
    rw [UInt64.toNat_and]; exact Nat.and_two_pow_sub_one_eq_mod n.toNat 7
  rw [UInt64.toNat_toUInt8, h]; omega

theorem and_ff (n : UInt64) : (n &&& 0xff).toUInt8 = UInt8.ofNat (n.toNat % 256) := by
  apply u8_eq_of_toNat
  have h : (n &&& 0xff).toNat = n.toNat % 256 := by
    rw [UInt64.toNat_and]; exact Nat.and_two_pow_sub_one_eq_mod n.toNat 8
  rw [UInt64.toNat_toUInt8, h]; omega

theorem shr7 (n : UInt64) : (n >>> 7).toNat = n.toNat / 128 := by
  rw [UInt64.toNat_shiftRight]; simp [Nat.shiftRight_eq_div_pow]

theorem shr8 (n : UInt64) : (n >>> 8).toNat = n.toNat / 256 := by
  rw [UInt64.toNat_shiftRight]; simp [Nat.shiftRight_eq_div_pow]

theorem or_80 (m : Nat) (h : m < 128) : (0x80 : UInt8) ||| UInt8.ofNat m = UInt8.ofNat (128 + m) := by
  apply u8_eq_of_toNat
  rw [UInt8.toNat_or, UInt8.toNat_ofNat_of_lt' (by simp [UInt8.size]; omega)]
  have := Nat.two_pow_add_eq_or_of_lt (i := 7) (b := m) h 1
  simpa using this.symm

theorem u64_ne_zero {n : UInt64} : n ≠ 0 ↔ n.toNat ≠ 0 := by
  rw [ne_eq, ← UInt64.toNat_inj]; rfl

theorem septets_pos {n : Nat} (h : n ≠ 0) : septets n = septets (n / 128) ++ [UInt8.ofNat (128 + n % 128)] := by
  rw [septets, dif_neg h]

theorem septets_zero : septets 0 = [] := by rw [septets, dif_pos rfl]

theorem beBytes_pos {n : Nat} (h : n ≠ 0) : beBytes n = beBytes (n / 256) ++ [UInt8.ofNat (n % 256)] := by
  rw [beBytes, dif_neg h]

theorem beBytes_zero : beBytes 0 = [] := by rw [beBytes, dif_pos rfl]

/-! ## base128 -/

theorem prepends_base128Loop (m : Nat) : ∀ (n : UInt64) (t : UInt8), n.toNat = m →
    Prepends (base128Loop n t) (septets (m / 128) ++ [t]) := by
  induction m using Nat.strongRecOn with
  | _ m ih =>
    intro n t hn
    rw [base128Loop]
    by_cases h0 : n >>> 7 ≠ 0
    · have h1 : (n >>> 7).toNat ≠ 0 := u64_ne_zero.1 h0
      rw [shr7, hn] at h1
      simp only [if_pos h0]
      have h2 := ih (m / 128) (by omega) (n >>> 7) ((0x80 : UInt8) ||| ((n >>> 7) &&& 0x7f).toUInt8) (by rw [shr7, hn])
      refine ((prepends_byte t).bind h2).congr ?_
      rw [septets_pos h1, and_7f, or_80 _ (by omega), shr7, hn]
    · have h1 : (n >>> 7).toNat = 0 := by
        have := mt u64_ne_zero.2 h0; simpa using this
      rw [shr7, hn] at h1
      simp only [if_neg h0, h1, septets_zero]
      exact (prepends_byte t).bind Prepends.pure

theorem prepends_base128 (n : UInt64) : Prepends (asn1Base128Int n) (base128 n.toNat) := by
  have := prepends_base128Loop n.toNat n (n &&& 0x7f).toUInt8 rfl
  rw [asn1Base128Int]
  rw [and_7f] at this ⊢
  exact this

/-! ## header -/

theorem prepends_lengthLoop (m : Nat) : ∀ (n : UInt64) (l : UInt8) (k : UInt64), n.toNat = m →
    PrependsV (lengthLoop n l k) (beBytes (m / 256) ++ [l]) (k + 1 + UInt64.ofNat (beBytes (m / 256)).length) := by
  induction m using Nat.strongRecOn with
  | _ m ih =>
    intro n l k hn
    rw [lengthLoop]
    by_cases h0 : n >>> 8 ≠ 0
    · have h1 : (n >>> 8).toNat ≠ 0 := u64_ne_zero.1 h0
      rw [shr8, hn] at h1
      simp only [if_pos h0]
      have h2 := ih (m / 256) (by omega) (n >>> 8) ((n >>> 8) &&& 0xff).toUInt8 (k + 1) (by rw [shr8, hn])
      have h3 := ((prepends_byte l).toV.bind (f := fun _ => _) h2)
      refine cast ?_ h3
      congr 1
      · rw [beBytes_pos h1, and_ff, shr8, hn]
      · rw [beBytes_pos h1]
        simp only [List.length_append, List.length_singleton, UInt64.ofNat_add]
        rw [UInt64.add_assoc (k + 1)]
        congr 1
        exact UInt64.add_comm _ _
    · have h1 : (n >>> 8).toNat = 0 := by
        have := mt u64_ne_zero.2 h0; simpa using this
      rw [shr8, hn] at h1
      simp only [if_neg h0, h1, beBytes_zero]
      have := (prepends_byte l).toV.bind (f := fun _ => _) (PrependsV.pure (k + 1))
      simpa using this

theorem beBytes_length_le (n k : Nat) (h : n < 256 ^ k) : (beBytes n).length ≤ k := by
  induction k generalizing n with
  | zero => simp at h; subst h; simp [beBytes_zero]
  | succ k ih =>
    by_cases h0 : n = 0
    · subst h0; simp [beBytes_zero]
    · rw [beBytes_pos h0]
      have := ih (n / 256) (by rw [Nat.div_lt_iff_lt_mul (by omega)]; rw [Nat.pow_succ] at h; omega)
      simp; omega

theorem lengthByte (k : Nat) (h : k ≤ 8) :
    ((UInt64.ofNat k &&& 0x7f) ||| 0x80).toUInt8 = UInt8.ofNat (128 + k) := by
  have : ∀ k : Fin 9, ((UInt64.ofNat k.val &&& 0x7f) ||| 0x80).toUInt8 = UInt8.ofNat (128 + k.val) := by decide
  exact this ⟨k, by omega⟩

theorem headerByte_short (c : Fin 4) (t : Fin 31) (b : Bool) :
    (if b then (((UInt32.ofNat t.val) &&& 0x1f).toUInt8 ||| ((UInt8.ofNat c.val) <<< 6)) ||| 0x20
      else ((UInt32.ofNat t.val) &&& 0x1f).toUInt8 ||| ((UInt8.ofNat c.val) <<< 6))
      = UInt8.ofNat (c.val * 64 + (if b then 32 else 0) + t.val) := by
  revert c t b; decide

theorem headerByte_long (c : Fin 4) (b : Bool) :
    (if b then ((0x1f : UInt8) ||| ((UInt8.ofNat c.val) <<< 6)) ||| 0x20
      else (0x1f : UInt8) ||| ((UInt8.ofNat c.val) <<< 6))
      = UInt8.ofNat (c.val * 64 + (if b then 32 else 0) + 31) := by
  revert c b; decide

theorem prepends_headerLength (len : UInt64) : Prepends (headerLength len) (lengthOctets len.toNat) := by
  unfold headerLength lengthOctets
  by_cases h : len ≤ 127
  · have h' : len.toNat ≤ 127 := UInt64.le_iff_toNat_le.1 h
    rw [if_pos h, if_pos (by omega)]
    have : len.toUInt8 = UInt8.ofNat len.toNat := by
      apply u8_eq_of_toNat; rw [UInt64.toNat_toUInt8]; omega
    rw [this]; exact prepends_byte _
  · have h' : ¬ len.toNat ≤ 127 := fun hh => h (UInt64.le_iff_toNat_le.2 hh)
    rw [if_neg h, if_neg (by omega)]
    have h1 := prepends_lengthLoop len.toNat len (len &&& 0xff).toUInt8 0 rfl
    have e : beBytes len.toNat = beBytes (len.toNat / 256) ++ [(len &&& 0xff).toUInt8] := by
      rw [and_ff, ← beBytes_pos (by omega)]
    have hl8 := beBytes_length_le len.toNat 8 (by have := uint64_lt len; simpa using this)
    refine (h1.bindP (prepends_byte _)).congr ?_
    rw [← e]
    have hk : (0 + 1 + UInt64.ofNat (beBytes (len.toNat / 256)).length) = UInt64.ofNat (beBytes len.toNat).length := by
      rw [e]; simp only [List.length_append, List.length_singleton, UInt64.ofNat_add]
      rw [UInt64.add_comm]; rfl
    rw [hk, lengthByte _ hl8]
    rfl

theorem prepends_header (cls : UInt8) (constructed : Bool) (tag : UInt32) (len : UInt64) (hc : cls.toNat < 4) :
    Prepends (asn1Header cls constructed tag len)
      (identifierOctets cls.toNat constructed tag.toNat ++ lengthOctets len.toNat) := by
  have h1 := prepends_headerLength len
  by_cases h : tag > 30
  · have h' : 30 < tag.toNat := UInt32.lt_iff_toNat_lt.1 h
    have hb := prepends_base128 tag.toUInt64
    rw [UInt32.toNat_toUInt64] at hb
    have h2 : PrependsV (headerTag tag) (base128 tag.toNat) 0x1f := by
      unfold headerTag
      rw [if_pos h]
      exact hb.toV.bind (f := fun _ => (Pure.pure (0x1f : UInt8) : W UInt8)) (PrependsV.pure _)
    refine (h1.bind (h2.bindP (prepends_byte _))).congr ?_
    have e := headerByte_long ⟨cls.toNat, hc⟩ constructed
    simp only [UInt8.ofNat_toNat] at e
    rw [e]
    simp only [identifierOctets]
    rw [if_neg (show ¬ tag.toNat < 31 by omega)]
    rfl
  · have h' : ¬ 30 < tag.toNat := fun hh => h (UInt32.lt_iff_toNat_lt.2 hh)
    have h2 : PrependsV (headerTag tag) [] (tag &&& 0x1f).toUInt8 := by
      unfold headerTag
      rw [if_neg h]
      exact PrependsV.pure _
    refine (h1.bind (h2.bindP (prepends_byte _))).congr ?_
    have e := headerByte_short ⟨cls.toNat, hc⟩ ⟨tag.toNat, by omega⟩ constructed
    simp only [UInt8.ofNat_toNat, UInt32.ofNat_toNat] at e
    rw [e]
    simp only [identifierOctets]
    rw [if_pos (show tag.toNat < 31 by omega)]
    rfl

/-! ## header_with_content -/

theorem prepends_hwc_plain (cls : UInt8) (constructed : Bool) (tag : UInt32) (hc : cls.toNat < 4)
    {w : W Unit} {content : Bytes} (hw : Prepends w content) :
    Prepends (do let mark ← byteCount; w; let count ← byteCount; asn1Header cls constructed tag (count - mark))
      (tlv cls.toNat constructed tag.toNat content) :=
  (prepends_counted hw (hdr := fun n => identifierOctets cls.toNat constructed tag.toNat ++ lengthOctets n)
    fun n => prepends_header cls constructed tag n hc)

theorem byteCount_twice {α : Type} (f : UInt64 → UInt64 → W α) :
    (do let a ← byteCount; let b ← byteCount; f a b) = (do let a ← byteCount; f a a) := rfl

theorem prepends_hwc (cls : UInt8) (constructed : Bool) (tag : UInt32) (hc : cls.toNat < 4)
    {w : W Unit} {content : Bytes} (hw : Prepends w content) (ti : TagInfo) :
    Prepends (asn1HeaderWithContent cls constructed tag (some w) ti)
      (ti.tagging.element cls.toNat constructed tag.toNat content) := by
  obtain ⟨ty, t⟩ := ti
  cases ty with
  | noOverride =>
    have := prepends_hwc_plain cls constructed tag hc hw
    simpa [asn1HeaderWithContent, callContent, explicitHeader, TagInfo.tagging, Tagging.element] using this
  | implicit =>
    have := prepends_hwc_plain 2 constructed t (by decide) hw
    simpa [asn1HeaderWithContent, callContent, explicitHeader, classContextSpecific, TagInfo.tagging, Tagging.element] using this
  | explicit =>
    have := prepends_hwc_plain 2 true t (by decide) (prepends_hwc_plain cls constructed tag hc hw)
    simp only [bind_assoc] at this
    rw [byteCount_twice (fun a b => do
      w
      let count ← byteCount
      asn1Header cls constructed tag (count - b)
      let count ← byteCount
      asn1Header 2 true t (count - a))] at this
    simpa [asn1HeaderWithContent, callContent, explicitHeader, classContextSpecific, TagInfo.tagging, Tagging.element] using this

theorem prepends_null (ti : TagInfo) :
    Prepends (asn1Null ti) (ti.tagging.element 0 false 5 []) := by
  obtain ⟨ty, t⟩ := ti
  have h0 : ∀ cls tag, asn1Header cls false tag 0 =
      (do let mark ← byteCount; Pure.pure (); let count ← byteCount; asn1Header cls false tag (count - mark)) := by
    intro cls tag
    funext sp
    show _ = asn1Header cls false tag (streamByteCount sp - streamByteCount sp) sp
    rw [UInt64.sub_self]
  have key : ∀ cls tag, cls.toNat < 4 → Prepends (asn1Header cls false tag 0) (tlv cls.toNat false tag.toNat []) := by
    intro cls tag hc
    rw [h0]
    exact prepends_hwc_plain cls false tag hc Prepends.pure
  cases ty with
  | noOverride =>
    exact (key 0 5 (by decide)).bind Prepends.pure
  | implicit =>
    exact (key 2 t (by decide)).bind Prepends.pure
  | explicit =>
    exact prepends_hwc_plain 2 true t (by decide) (key 0 5 (by decide))

theorem prepends_hwc_null (cls : UInt8) (constructed : Bool) (tag : UInt32) (hc : cls.toNat < 4) (ti : TagInfo) :
    Prepends (asn1HeaderWithContent cls constructed tag none ti)
      (ti.tagging.element cls.toNat constructed tag.toNat []) :=
  prepends_hwc cls constructed tag hc Prepends.pure ti

end Nat20
