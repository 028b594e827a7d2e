import Verif.Spec.Der
import Verif.Lemmas.Asn1Header
/-!
# The strict DER parser inverts the encoding functions, and accepts nothing else
-/

namespace Nat20.Der

theorem u8_ofNat_toNat (n : Nat) (h : n < 256) : (UInt8.ofNat n).toNat = n := by
  simp; omega

theorem parseBase128_septets (m : Nat) (r : Bytes) : parseBase128 0 (septets m ++ r) = parseBase128 m r := by
  induction m using Nat.strongRecOn generalizing r with
  | _ m ih =>
    by_cases h : m = 0
    · subst h; simp [septets_zero]
    · rw [septets_pos h, List.append_assoc, ih (m / 128) (by omega)]
      rw [List.singleton_append, parseBase128, u8_ofNat_toNat _ (by omega), if_neg (by omega)]
      have e : m / 128 * 128 + (128 + m % 128 - 128) = m := by omega
      rw [e]

theorem parseBase128_base128 (n : Nat) (r : Bytes) : parseBase128 0 (base128 n ++ r) = some (n, r) := by
  rw [base128, List.append_assoc, parseBase128_septets, List.singleton_append, parseBase128,
    u8_ofNat_toNat _ (by omega), if_pos (by omega)]
  congr 2; omega

theorem septets_head (m : Nat) (r : Bytes) (h : m ≠ 0) : (septets m ++ r).head? ≠ some 0x80 := by
  induction m using Nat.strongRecOn generalizing r with
  | _ m ih =>
    rw [septets_pos h, List.append_assoc]
    by_cases h0 : m / 128 = 0
    · rw [h0, septets_zero]
      simp only [List.nil_append, List.singleton_append, List.head?_cons, ne_eq, Option.some.injEq]
      intro hh
      have := congrArg UInt8.toNat hh
      rw [u8_ofNat_toNat _ (by omega)] at this
      have e : (0x80 : UInt8).toNat = 128 := rfl
      omega
    · exact ih _ (by omega) _ h0

theorem base128_head (n : Nat) (r : Bytes) : (base128 n ++ r).head? ≠ some 0x80 := by
  rw [base128, List.append_assoc]
  by_cases h0 : n / 128 = 0
  · rw [h0, septets_zero]
    simp only [List.nil_append, List.singleton_append, List.head?_cons, ne_eq, Option.some.injEq]
    intro hh
    have := congrArg UInt8.toNat hh
    rw [u8_ofNat_toNat _ (by omega)] at this
    have e : (0x80 : UInt8).toNat = 128 := rfl
    omega
  · exact septets_head _ _ h0

theorem parseBase128_canonical (l : Bytes) : ∀ (acc n : Nat) (r : Bytes), parseBase128 acc l = some (n, r) →
    (acc ≠ 0 ∨ l.head? ≠ some 0x80) → septets acc ++ l = base128 n ++ r := by
  induction l with
  | nil => intro acc n r h; simp [parseBase128] at h
  | cons b t ih =>
    intro acc n r h hne
    rw [parseBase128] at h
    have hb := b.toNat_lt
    split at h
    · rename_i hlt
      simp only [Option.some.injEq, Prod.mk.injEq] at h
      obtain ⟨rfl, rfl⟩ := h
      rw [base128]
      have e1 : (acc * 128 + b.toNat) / 128 = acc := by omega
      have e2 : (acc * 128 + b.toNat) % 128 = b.toNat := by omega
      rw [e1, e2, UInt8.ofNat_toNat]; simp
    · rename_i hge
      have hacc : acc * 128 + (b.toNat - 128) ≠ 0 := by
        rcases hne with h1 | h1
        · omega
        · intro h0
          apply h1
          have : b.toNat = 128 := by omega
          simp only [List.head?_cons, Option.some.injEq]
          apply UInt8.toNat_inj.1; rw [this]; rfl
      have := ih _ _ _ h (Or.inl hacc)
      rw [← this, septets_pos hacc]
      have e1 : (acc * 128 + (b.toNat - 128)) / 128 = acc := by omega
      have e2 : 128 + (acc * 128 + (b.toNat - 128)) % 128 = b.toNat := by omega
      rw [e1, e2, UInt8.ofNat_toNat]; simp

theorem identifierByte {c : Nat} (k : Bool) {t : Nat} (hc : c < 4) (ht : t < 32) :
    let b := UInt8.ofNat (c * 64 + (if k then 32 else 0) + t)
    b.toNat / 64 = c ∧ (b.toNat / 32 % 2 == 1) = k ∧ b.toNat % 32 = t := by
  intro b
  have hb : b.toNat = c * 64 + (if k then 32 else 0) + t := by
    apply u8_ofNat_toNat; split <;> omega
  rw [hb]
  cases k
  · refine ⟨?_, ?_, ?_⟩
    · simp; omega
    · simp; omega
    · simp; omega
  · refine ⟨?_, ?_, ?_⟩
    · simp; omega
    · simp; omega
    · simp; omega

theorem parseIdentifier_octets (c : Nat) (k : Bool) (t : Nat) (hc : c < 4) (r : Bytes) :
    parseIdentifier (identifierOctets c k t ++ r) = some ((c, k, t), r) := by
  unfold identifierOctets
  by_cases h : t < 31
  · simp only [if_pos h, List.singleton_append, parseIdentifier]
    obtain ⟨h1, h2, h3⟩ := identifierByte k hc (show t < 32 by omega)
    rw [h1, h2, h3, if_pos h]
  · simp only [if_neg h, List.cons_append, parseIdentifier]
    obtain ⟨h1, h2, h3⟩ := identifierByte k hc (show 31 < 32 by omega)
    rw [h1, h2, h3, if_neg (by omega), if_neg (base128_head t r), parseBase128_base128]
    simp only [if_neg h]

theorem parseIdentifier_canonical (l : Bytes) (c : Nat) (k : Bool) (t : Nat) (r : Bytes)
    (h : parseIdentifier l = some ((c, k, t), r)) : c < 4 ∧ l = identifierOctets c k t ++ r := by
  cases l with
  | nil => simp [parseIdentifier] at h
  | cons b l =>
    have hb := b.toNat_lt
    have hbyte : ∀ t', b.toNat % 32 = t' →
        UInt8.ofNat (b.toNat / 64 * 64 + (if (b.toNat / 32 % 2 == 1) = true then 32 else 0) + t') = b := by
      intro t' ht
      apply UInt8.toNat_inj.1
      have : b.toNat / 64 * 64 + (if (b.toNat / 32 % 2 == 1) = true then 32 else 0) + t' = b.toNat := by
        split
        · rename_i hh; simp at hh; omega
        · rename_i hh; simp at hh; omega
      rw [this, u8_ofNat_toNat _ hb]
    simp only [parseIdentifier] at h
    split at h
    · rename_i hlow
      simp only [Option.some.injEq, Prod.mk.injEq] at h
      obtain ⟨⟨rfl, rfl, rfl⟩, rfl⟩ := h
      refine ⟨by omega, ?_⟩
      rw [identifierOctets]
      simp only [if_pos hlow, hbyte _ rfl, List.singleton_append]
    · rename_i hlow
      split at h
      · cases h
      · rename_i hhead
        split at h
        · cases h
        · rename_i tag r' hp
          split at h
          · cases h
          · rename_i htag
            simp only [Option.some.injEq, Prod.mk.injEq] at h
            obtain ⟨⟨rfl, rfl, rfl⟩, rfl⟩ := h
            refine ⟨by omega, ?_⟩
            have := parseBase128_canonical l 0 _ _ hp (Or.inr hhead)
            rw [septets_zero, List.nil_append] at this
            rw [identifierOctets]
            simp only [if_neg htag, hbyte 31 (by omega), List.cons_append, this]

theorem fromBE_append (l : Bytes) (b : UInt8) : fromBE (l ++ [b]) = fromBE l * 256 + b.toNat := by
  simp [fromBE, List.foldl_append]

theorem fromBE_beBytes (n : Nat) : fromBE (beBytes n) = n := by
  induction n using Nat.strongRecOn with
  | _ n ih =>
    by_cases h : n = 0
    · subst h; simp [beBytes_zero, fromBE]
    · rw [beBytes_pos h, fromBE_append, ih _ (by omega), u8_ofNat_toNat _ (by omega)]; omega

theorem beBytes_head (n : Nat) (r : Bytes) (h : n ≠ 0) : (beBytes n ++ r).head? ≠ some 0 := by
  induction n using Nat.strongRecOn generalizing r with
  | _ n ih =>
    rw [beBytes_pos h, List.append_assoc]
    by_cases h0 : n / 256 = 0
    · rw [h0, beBytes_zero]
      simp only [List.nil_append, List.singleton_append, List.head?_cons, ne_eq, Option.some.injEq]
      intro hh
      have := congrArg UInt8.toNat hh
      rw [u8_ofNat_toNat _ (by omega)] at this
      have e : (0 : UInt8).toNat = 0 := rfl
      omega
    · exact ih _ (by omega) _ h0

theorem beBytes_ne_nil {n : Nat} (h : n ≠ 0) : beBytes n ≠ [] := by
  rw [beBytes_pos h]; simp

/-- Induction on a list from its end. -/
theorem rev_ind {α : Type} {P : List α → Prop} (nil : P []) (snoc : ∀ l x, P l → P (l ++ [x])) (l : List α) : P l := by
  have : ∀ l : List α, P l.reverse := by
    intro l
    induction l with
    | nil => exact nil
    | cons a t ih => rw [List.reverse_cons]; exact snoc _ _ ih
  have h := this l.reverse
  rwa [List.reverse_reverse] at h

theorem dropWhile_append_of_ne {α : Type} (p : α → Bool) (l r : List α) (h : l.dropWhile p ≠ []) :
    (l ++ r).dropWhile p = l.dropWhile p ++ r := by
  induction l with
  | nil => simp at h
  | cons a t ih =>
    rw [List.cons_append, List.dropWhile_cons, List.dropWhile_cons]
    split
    · rename_i hp
      rw [List.dropWhile_cons, if_pos hp] at h
      exact ih h
    · simp

theorem dropWhile_append_of_nil {α : Type} (p : α → Bool) (l r : List α) (h : l.dropWhile p = []) :
    (l ++ r).dropWhile p = r.dropWhile p := by
  induction l with
  | nil => simp
  | cons a t ih =>
    rw [List.dropWhile_cons] at h
    rw [List.cons_append, List.dropWhile_cons]
    split
    · rename_i hp
      rw [if_pos hp] at h
      exact ih h
    · rename_i hp
      rw [if_neg hp] at h; cases h

/-- The minimal digits of a digit string are what remains after dropping leading zeros. -/
theorem beBytes_fromBE (l : Bytes) : beBytes (fromBE l) = l.dropWhile (fun b => b == 0) := by
  induction l using rev_ind with
  | nil => simp [fromBE, beBytes_zero]
  | snoc l b ih =>
    rw [fromBE_append]
    have hb := b.toNat_lt
    by_cases h : fromBE l = 0
    · have hl : l.dropWhile (fun b => b == 0) = [] := by rw [← ih, h, beBytes_zero]
      rw [dropWhile_append_of_nil _ _ _ hl, h]
      by_cases hb0 : b = 0
      · subst hb0; simp [beBytes_zero]
      · have : (0 * 256 + b.toNat) ≠ 0 := by
          intro h0; apply hb0; apply UInt8.toNat_inj.1; simpa using h0
        rw [beBytes_pos this]
        have e1 : (0 * 256 + b.toNat) / 256 = 0 := by omega
        have e2 : (0 * 256 + b.toNat) % 256 = b.toNat := by omega
        rw [e1, e2, beBytes_zero, UInt8.ofNat_toNat]
        simp [hb0]
    · have hne : l.dropWhile (fun b => b == 0) ≠ [] := by rw [← ih]; exact beBytes_ne_nil h
      rw [dropWhile_append_of_ne _ _ _ hne, ← ih]
      have : fromBE l * 256 + b.toNat ≠ 0 := by omega
      rw [beBytes_pos this]
      have e1 : (fromBE l * 256 + b.toNat) / 256 = fromBE l := by omega
      have e2 : (fromBE l * 256 + b.toNat) % 256 = b.toNat := by omega
      rw [e1, e2, UInt8.ofNat_toNat]

theorem parseLength_octets (n : Nat) (hn : n < 256 ^ 127) (r : Bytes) :
    parseLength (lengthOctets n ++ r) = some (n, r) := by
  unfold lengthOctets
  by_cases h : n < 128
  · rw [if_pos h, List.singleton_append, parseLength, u8_ofNat_toNat _ (by omega), if_pos h]
  · have hl := beBytes_length_le n 127 hn
    rw [if_neg h, List.cons_append, parseLength, u8_ofNat_toNat _ (by omega), if_neg (by omega)]
    have e : 128 + (beBytes n).length - 128 = (beBytes n).length := by omega
    have hne : (beBytes n).length ≠ 0 := by
      have := beBytes_ne_nil (n := n) (by omega); simpa using this
    simp only [e]
    rw [if_neg (by simp), if_neg, List.take_left, if_neg, List.drop_left]
    · rw [fromBE_beBytes]
    · rw [fromBE_beBytes]; omega
    · rintro (h1 | h1)
      · exact hne h1
      · exact beBytes_head n r (by omega) h1

theorem dropWhile_head_ne (l : Bytes) (h : l.head? ≠ some 0) : l.dropWhile (fun b => b == 0) = l := by
  cases l with
  | nil => rfl
  | cons a t =>
    rw [List.dropWhile_cons, if_neg]
    intro hh; apply h; simpa using hh

theorem parseLength_canonical (l : Bytes) (n : Nat) (r : Bytes) (h : parseLength l = some (n, r)) :
    l = lengthOctets n ++ r := by
  cases l with
  | nil => simp [parseLength] at h
  | cons b l =>
    have hb := b.toNat_lt
    rw [parseLength] at h
    split at h
    · rename_i hlt
      simp only [Option.some.injEq, Prod.mk.injEq] at h
      obtain ⟨rfl, rfl⟩ := h
      rw [lengthOctets, if_pos hlt, UInt8.ofNat_toNat]; rfl
    · rename_i hge
      simp only at h
      split at h
      · cases h
      · rename_i hlen
        split at h
        · cases h
        · rename_i hk
          split at h
          · cases h
          · rename_i hmin
            simp only [Option.some.injEq, Prod.mk.injEq] at h
            obtain ⟨rfl, rfl⟩ := h
            rw [not_or] at hk
            have hhead : (l.take (b.toNat - 128)).head? ≠ some 0 := by
              rw [List.head?_take, if_neg hk.1]; exact hk.2
            rw [lengthOctets, if_neg hmin, beBytes_fromBE, dropWhile_head_ne _ hhead]
            have e : 128 + (l.take (b.toNat - 128)).length = b.toNat := by
              rw [List.length_take]; omega
            rw [e, UInt8.ofNat_toNat, List.cons_append, List.take_append_drop]

/-- The parser reads back what `tlv` writes. -/
theorem parseTlv_tlv (c : Nat) (k : Bool) (t : Nat) (content r : Bytes) (hc : c < 4)
    (hl : content.length < 256 ^ 127) :
    parseTlv (tlv c k t content ++ r) = some ((c, k, t, content), r) := by
  unfold parseTlv tlv
  rw [List.append_assoc, List.append_assoc, parseIdentifier_octets c k t hc]
  simp only
  rw [parseLength_octets _ hl]
  simp

/-- The parser accepts nothing but what `tlv` writes: encodings are unique. -/
theorem parseTlv_canonical (l : Bytes) (c : Nat) (k : Bool) (t : Nat) (content r : Bytes)
    (h : parseTlv l = some ((c, k, t, content), r)) : c < 4 ∧ l = tlv c k t content ++ r := by
  unfold parseTlv at h
  split at h
  · cases h
  · rename_i c' k' t' r1 h1
    obtain ⟨hc, rfl⟩ := parseIdentifier_canonical _ _ _ _ _ h1
    split at h
    · cases h
    · rename_i len r2 h2
      have h3 := parseLength_canonical _ _ _ h2
      subst h3
      split at h
      · cases h
      · rename_i hle
        simp only [Option.some.injEq, Prod.mk.injEq] at h
        obtain ⟨⟨rfl, rfl, rfl, rfl⟩, rfl⟩ := h
        refine ⟨hc, ?_⟩
        rw [tlv, List.length_take, Nat.min_eq_left (by omega)]
        simp [List.append_assoc, List.take_append_drop]

theorem identifierOctets_ne_nil (c : Nat) (k : Bool) (t : Nat) : identifierOctets c k t ≠ [] := by
  unfold identifierOctets; simp only; split <;> simp

theorem lengthOctets_ne_nil (n : Nat) : lengthOctets n ≠ [] := by
  unfold lengthOctets; split <;> simp

theorem tlv_length (c : Nat) (k : Bool) (t : Nat) (content : Bytes) :
    content.length + 2 ≤ (tlv c k t content).length := by
  have h1 : (identifierOctets c k t).length ≠ 0 := by simpa using identifierOctets_ne_nil c k t
  have h2 : (lengthOctets content.length).length ≠ 0 := by simpa using lengthOctets_ne_nil content.length
  simp only [tlv, List.length_append]; omega

theorem encodeAll_append (a b : List Der) : encodeAll (a ++ b) = encodeAll a ++ encodeAll b := by
  induction a with
  | nil => simp [encodeAll]
  | cons d ds ih => simp [encodeAll, ih]

theorem pow_bound : (2 : Nat) ^ 64 ≤ 256 ^ 127 :=
  Nat.le_trans (by decide : (2 : Nat) ^ 64 ≤ 256 ^ 8) (Nat.pow_le_pow_right (by omega) (by omega))

theorem parseItems_encodeAll (fuel : Nat) : ∀ ds : List Der, ClassesOk ds →
    (encodeAll ds).length < 2 ^ 64 → (encodeAll ds).length < fuel → parseItems fuel (encodeAll ds) = some ds := by
  induction fuel with
  | zero => intro ds _ _ h; omega
  | succ fuel ih =>
    intro ds hok hlen hfuel
    cases ds with
    | nil => simp [encodeAll, parseItems]
    | cons d ds =>
      rw [encodeAll] at hlen hfuel ⊢
      rw [List.length_append] at hlen hfuel
      have hne : d.encode ++ encodeAll ds ≠ [] := by
        cases d with
        | prim c t content => rw [Der.encode]; simp [tlv, identifierOctets_ne_nil]
        | cons c t items => rw [Der.encode]; simp [tlv, identifierOctets_ne_nil]
      have hstep : ∀ input : Bytes, input ≠ [] → parseItems (fuel + 1) input =
          (match parseTlv input with
          | none => none
          | some ((cls, constructed, tag, content), rest) =>
            match parseItems fuel rest with
            | none => none
            | some ds =>
              if constructed then
                match parseItems fuel content with
                | none => none
                | some cs => some (.cons cls tag cs :: ds)
              else some (.prim cls tag content :: ds)) := by
        intro input h
        cases input with
        | nil => exact absurd rfl h
        | cons a t => rfl
      rw [hstep _ hne]
      cases d with
      | prim c t content =>
        rw [Der.encode] at hlen hfuel ⊢
        have h1 := tlv_length c false t content
        simp only [ClassesOk, Der.ClassOk] at hok
        rw [parseTlv_tlv _ _ _ _ _ hok.1 (Nat.lt_of_lt_of_le (by omega) pow_bound)]
        simp only
        rw [ih ds hok.2 (by omega) (by omega)]
        rfl
      | cons c t items =>
        rw [Der.encode] at hlen hfuel ⊢
        have h1 := tlv_length c true t (encodeAll items)
        simp only [ClassesOk, Der.ClassOk] at hok
        rw [parseTlv_tlv _ _ _ _ _ hok.1.1 (Nat.lt_of_lt_of_le (by omega) pow_bound)]
        simp only
        rw [ih ds hok.2 (by omega) (by omega), ih items hok.1.2 (by omega) (by omega)]
        rfl

/-- Any DER value of encodable size is read back from its encoding. -/
theorem parse_encode (d : Der) (hok : d.ClassOk) (hlen : d.encode.length < 2 ^ 64) : parse d.encode = some d := by
  have := parseItems_encodeAll (d.encode.length + 1) [d] ⟨hok, trivial⟩ (by simpa [encodeAll] using hlen)
    (by simp [encodeAll])
  simp only [encodeAll, List.append_nil] at this
  unfold parse
  rw [this]

/-- Different values have different encodings. -/
theorem encode_injective {d e : Der} (hd : d.ClassOk) (he : e.ClassOk) (hld : d.encode.length < 2 ^ 64)
    (h : d.encode = e.encode) : d = e := by
  have h1 := parse_encode d hd hld
  have h2 := parse_encode e he (by rw [← h]; exact hld)
  rw [h, h2] at h1
  exact (Option.some.inj h1).symm

theorem encodeAll_injective {d e : List Der} (hd : ClassesOk d) (he : ClassesOk e) (hld : (encodeAll d).length < 2 ^ 64)
    (h : encodeAll d = encodeAll e) : d = e := by
  have h1 := parseItems_encodeAll ((encodeAll d).length + 1) d hd hld (by omega)
  have h2 := parseItems_encodeAll ((encodeAll d).length + 1) e he (by rw [← h]; exact hld) (by rw [← h]; omega)
  rw [h] at h1
  rw [h, h1] at h2
  exact Option.some.inj h2

/-- Prefix-freeness of elements: the tagged element determines where it ends. -/
theorem tlv_prefix_free {c c' t t' : Nat} {k k' : Bool} {x x' r r' : Bytes} (hc : c < 4) (hc' : c' < 4)
    (hx : x.length < 2 ^ 64) (hx' : x'.length < 2 ^ 64)
    (h : tlv c k t x ++ r = tlv c' k' t' x' ++ r') : c = c' ∧ k = k' ∧ t = t' ∧ x = x' ∧ r = r' := by
  have h1 := parseTlv_tlv c k t x r hc (Nat.lt_of_lt_of_le hx pow_bound)
  have h2 := parseTlv_tlv c' k' t' x' r' hc' (Nat.lt_of_lt_of_le hx' pow_bound)
  rw [h, h2] at h1
  simp only [Option.some.injEq, Prod.mk.injEq] at h1
  obtain ⟨⟨a, b, c, d⟩, e⟩ := h1
  exact ⟨a.symm, b.symm, c.symm, d.symm, e.symm⟩

end Nat20.Der
