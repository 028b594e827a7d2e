import Verif.Lemmas.Asn1Integer
import Verif.Model.Cbor
import Verif.Spec.Cbor
/-!
# Lemmas about CBOR
-/

namespace Nat20

open Cbor

/-! ## Writing heads -/

theorem prepends_cborValueLoop (n : UInt64) (rem : Nat) : ∀ i, i + rem ≤ 8 →
    Prepends (cborValueLoop n i rem)
      (((List.range rem).map fun j => UInt8.ofNat (n.toNat / 256 ^ (i + j) % 256)).reverse) := by
  induction rem with
  | zero => intro i _; exact Prepends.pure
  | succ rem ih =>
    intro i hi
    rw [cborValueLoop]
    have hb : (n >>> (UInt64.ofNat i * 8)).toUInt8 = UInt8.ofNat (n.toNat / 256 ^ i % 256) := by
      apply u8_eq_of_toNat
      rw [UInt64.toNat_toUInt8, UInt64.toNat_shiftRight]
      have : (UInt64.ofNat i * 8).toNat % 64 = 8 * i := by
        rw [UInt64.toNat_mul, UInt64.toNat_ofNat_of_lt' (by simp [UInt64.size]; omega)]
        have e : (8 : UInt64).toNat = 8 := rfl
        rw [e]; omega
      rw [this, Nat.shiftRight_eq_div_pow, Nat.pow_mul]
    rw [hb]
    refine ((prepends_byte _).bind (ih (i + 1) (by omega))).congr ?_
    rw [List.range_succ_eq_map, List.map_cons, List.reverse_cons, List.map_map]
    have e : (fun j => UInt8.ofNat (n.toNat / 256 ^ (i + 1 + j) % 256)) =
        (fun j => UInt8.ofNat (n.toNat / 256 ^ (i + j) % 256)) ∘ Nat.succ := by
      funext j
      simp only [Function.comp]
      rw [show i + 1 + j = i + Nat.succ j by omega]
    rw [e]; rfl

theorem cbor_byte_small (t : Fin 8) (n : Fin 32) :
    ((UInt32.ofNat t.val) <<< 5).toUInt8 ||| UInt8.ofNat n.val = UInt8.ofNat (t.val * 32 + n.val) := by
  revert t n; decide

theorem prepends_cborHeader (type : UInt32) (n : UInt64) (ht : type.toNat < 8) :
    Prepends (cborWriteHeader type n) (head type.toNat n.toNat) := by
  have hundef : ¬ type > 7 := by
    intro h; have := UInt32.lt_iff_toNat_lt.1 h; have e : (7 : UInt32).toNat = 7 := rfl; omega
  have h0 := prepends_cborValueLoop n (cborValueSize n) 0 (by
    unfold cborValueSize
    repeat' split
    all_goals omega)
  unfold cborWriteHeader
  simp only [decide_eq_true_eq, if_neg hundef]
  refine (h0.bind (prepends_byte _)).congr ?_
  have hty : type = UInt32.ofNat type.toNat := by simp
  have e24 : n < 24 ↔ n.toNat < 24 := UInt64.lt_iff_toNat_lt
  have e8 : n < 0x100 ↔ n.toNat < 2 ^ 8 := UInt64.lt_iff_toNat_lt
  have e16 : n < 0x10000 ↔ n.toNat < 2 ^ 16 := UInt64.lt_iff_toNat_lt
  have e32 : n < 0x100000000 ↔ n.toNat < 2 ^ 32 := UInt64.lt_iff_toNat_lt
  have key : ∀ k : Nat, k < 32 → (type <<< 5).toUInt8 ||| UInt8.ofNat k = UInt8.ofNat (type.toNat * 32 + k) := by
    intro k hk
    have := cbor_byte_small ⟨type.toNat, ht⟩ ⟨k, hk⟩
    simpa using this
  simp only [Nat.zero_add]
  unfold head cborInitialByte cborValueSize
  simp only [e24, e8, e16, e32]
  by_cases h1 : n.toNat < 24
  · simp only [if_pos h1]
    have hn : n.toUInt8 = UInt8.ofNat n.toNat := by
      apply u8_eq_of_toNat; rw [UInt64.toNat_toUInt8]; omega
    rw [hn, key _ (by omega)]; rfl
  · simp only [if_neg h1]
    by_cases h2 : n.toNat < 2 ^ 8
    · simp only [if_pos h2]
      rw [← key 24 (by omega)]; rfl
    · simp only [if_neg h2]
      by_cases h3 : n.toNat < 2 ^ 16
      · simp only [if_pos h3]
        rw [← key 25 (by omega)]; rfl
      · simp only [if_neg h3]
        by_cases h4 : n.toNat < 2 ^ 32
        · simp only [if_pos h4]
          rw [← key 26 (by omega)]; rfl
        · simp only [if_neg h4]
          rw [← key 27 (by omega)]; rfl

theorem prepends_cborHeader_undefined (type : UInt32) (n : UInt64) (ht : 7 < type.toNat) :
    Prepends (cborWriteHeader type n) [0xf7] := by
  have hundef : type > 7 := UInt32.lt_iff_toNat_lt.2 ht
  unfold cborWriteHeader
  simp only [decide_eq_true_eq, if_pos hundef]
  exact Prepends.bind (b1 := []) Prepends.pure (prepends_byte _)

/-! ## Decoding heads -/

theorem beOctets_length (k n : Nat) : (beOctets k n).length = k := by simp [beOctets]

theorem beNat_beOctets (k n : Nat) (h : n < 256 ^ k) : beNat (beOctets k n) = n := by
  have := leDigits_value n k
  rw [Nat.mod_eq_of_lt h] at this
  exact this

theorem decodeHead_long (major info k n : Nat) (r : Bytes) (hm : major < 8) (hi : 24 ≤ info) (hi2 : info < 32)
    (hk : argumentSize info = some k) (hn : n < 256 ^ k) (h7 : ¬ (major = 7 ∧ k = 1 ∧ n < 32)) :
    decodeHead (UInt8.ofNat (major * 32 + info) :: beOctets k n ++ r) = some ((major, n), r) := by
  rw [List.cons_append, decodeHead]
  rw [Der.u8_ofNat_toNat _ (by omega)]
  have e1 : (major * 32 + info) / 32 = major := by omega
  have e2 : (major * 32 + info) % 32 = info := by omega
  have hl := beOctets_length k n
  rw [e1, e2, if_neg (by omega), hk]
  simp only
  rw [if_neg (by rw [List.length_append]; omega), List.take_left' hl, List.drop_left' hl, beNat_beOctets k n hn,
    if_neg h7]

theorem decodeHead_head (major n : Nat) (r : Bytes) (hm : major < 8) (hn : n < 2 ^ 64)
    (h7 : major ≠ 7 ∨ n < 24 ∨ 32 ≤ n) : decodeHead (head major n ++ r) = some ((major, n), r) := by
  unfold head
  by_cases h1 : n < 24
  · rw [if_pos h1, List.singleton_append, decodeHead]
    rw [Der.u8_ofNat_toNat _ (by omega)]
    have e1 : (major * 32 + n) / 32 = major := by omega
    have e2 : (major * 32 + n) % 32 = n := by omega
    rw [e1, e2, if_pos h1]
  · rw [if_neg h1]
    by_cases h2 : n < 2 ^ 8
    · rw [if_pos h2]
      exact decodeHead_long major 24 1 n r hm (by omega) (by omega) rfl (by omega) (by omega)
    · rw [if_neg h2]
      by_cases h3 : n < 2 ^ 16
      · rw [if_pos h3]
        exact decodeHead_long major 25 2 n r hm (by omega) (by omega) rfl (by omega) (by omega)
      · rw [if_neg h3]
        by_cases h4 : n < 2 ^ 32
        · rw [if_pos h4]
          exact decodeHead_long major 26 4 n r hm (by omega) (by omega) rfl (by omega) (by omega)
        · rw [if_neg h4]
          exact decodeHead_long major 27 8 n r hm (by omega) (by omega) rfl (by omega) (by omega)

theorem head_length (major n : Nat) : 1 ≤ (head major n).length := by
  unfold head; repeat' split
  all_goals simp

theorem beNat_lt (l : Bytes) : beNat l < 256 ^ l.length := by
  have := fromBE_complement l
  have e : beNat l = Der.fromBE l := rfl
  omega

/-- No head denoting the same argument is shorter. -/
theorem decodeHead_shortest (l : Bytes) (major n : Nat) (r : Bytes) (h : decodeHead l = some ((major, n), r)) :
    (head major n).length + r.length ≤ l.length := by
  cases l with
  | nil => simp [decodeHead] at h
  | cons b t =>
    rw [decodeHead] at h
    split at h
    · rename_i hi
      simp only [Option.some.injEq, Prod.mk.injEq] at h
      obtain ⟨⟨_, rfl⟩, rfl⟩ := h
      rw [head, if_pos hi]; simp; omega
    · split at h
      · cases h
      · rename_i k hk
        split at h
        · cases h
        · rename_i hlen
          split at h
          · cases h
          · simp only [Option.some.injEq, Prod.mk.injEq] at h
            obtain ⟨⟨rfl, rfl⟩, rfl⟩ := h
            have hlt := beNat_lt (t.take k)
            have hl : (t.take k).length = k := by rw [List.length_take]; omega
            rw [hl] at hlt
            generalize hv : beNat (t.take k) = n at *
            have hr : (t.drop k).length = t.length - k := by simp
            rw [hr, List.length_cons]
            have hk1 : k = 1 ∨ k = 2 ∨ k = 4 ∨ k = 8 := by
              unfold argumentSize at hk
              repeat' split at hk
              all_goals (first | (cases hk; omega) | cases hk)
            have hhead : (head (b.toNat / 32) n).length ≤ 1 + k := by
              unfold head
              rcases hk1 with rfl | rfl | rfl | rfl
              · by_cases h1 : n < 24
                · rw [if_pos h1]; simp
                · rw [if_neg h1, if_pos (by omega)]; simp [beOctets_length]
              · by_cases h1 : n < 24
                · rw [if_pos h1]; simp
                · rw [if_neg h1]
                  by_cases h2 : n < 2 ^ 8
                  · rw [if_pos h2]; simp [beOctets_length]
                  · rw [if_neg h2, if_pos (by omega)]; simp [beOctets_length]
              · repeat' split
                all_goals (first | (simp [beOctets_length]; done) | omega)
              · repeat' split
                all_goals simp [beOctets_length]
            omega

/-! ## Decoding items -/

theorem encode_length (i : Item) : 1 ≤ (encode i).length := by
  cases i with
  | int v => cases v <;> (simp only [encode]; exact head_length _ _)
  | bytes b => rw [encode, List.length_append]; have := head_length 2 b.length; omega
  | text b => rw [encode, List.length_append]; have := head_length 3 b.length; omega
  | array l => rw [encode, List.length_append]; have := head_length 4 l.length; omega
  | map l => rw [encode, List.length_append]; have := head_length 5 l.length; omega
  | tag n i => rw [encode, List.length_append]; have := head_length 6 n; omega
  | simple n => rw [encode]; exact head_length 7 n

theorem decode_all (fuel : Nat) :
    (∀ i r, Item.Ok i → 4 * (encode i).length ≤ fuel → decodeItem fuel (encode i ++ r) = some (i, r)) ∧
    (∀ l r, (∀ i ∈ l, Item.Ok i) → 4 * (encodeList l).length + 1 ≤ fuel →
      decodeItems fuel l.length (encodeList l ++ r) = some (l, r)) ∧
    (∀ l r, (∀ e ∈ l, Item.Ok e.1 ∧ Item.Ok e.2) → 4 * (encodeEntries l).length + 2 ≤ fuel →
      decodeEntries fuel l.length (encodeEntries l ++ r) = some (l, r)) := by
  induction fuel with
  | zero =>
    refine ⟨?_, ?_, ?_⟩
    · intro i r _ h; have := encode_length i; omega
    · intro l r _ h; omega
    · intro l r _ h; omega
  | succ fuel ih =>
    obtain ⟨ih1, ih2, ih3⟩ := ih
    refine ⟨?_, ?_, ?_⟩
    · intro i r hok hf
      have step : ∀ (major n : Nat) (body : Bytes), major < 8 → n < 2 ^ 64 → (major ≠ 7 ∨ n < 24 ∨ 32 ≤ n) →
          decodeItem (fuel + 1) (head major n ++ body ++ r) =
            decodeBody (decodeItems fuel) (decodeEntries fuel) major n (body ++ r) := by
        intro major n body hm hn h7
        rw [decodeItem, List.append_assoc, decodeHead_head major n _ hm hn h7]
      cases hok with
      | @int v h1 h2 =>
        cases v with
        | ofNat n =>
          have := step 0 n [] (by omega) (by simp at h2; omega) (by omega)
          simp only [encode]
          rw [List.append_nil] at this
          rw [this]; rfl
        | negSucc n =>
          have := step 1 n [] (by omega) (by rw [Int.negSucc_eq] at h1; omega) (by omega)
          simp only [encode]
          rw [List.append_nil] at this
          rw [this, decodeBody, List.nil_append, Int.negSucc_eq]
          congr 3; omega
      | @bytes b h =>
        rw [encode, step 2 b.length b (by omega) h (by omega), decodeBody,
          if_neg (by rw [List.length_append]; omega), List.take_left, List.drop_left]
      | @text b h =>
        rw [encode, step 3 b.length b (by omega) h (by omega), decodeBody,
          if_neg (by rw [List.length_append]; omega), List.take_left, List.drop_left]
      | @array l h hi =>
        have hh := head_length 4 l.length
        rw [encode, List.length_append] at hf
        rw [encode, step 4 l.length _ (by omega) h (by omega), decodeBody, ih2 l r hi (by omega)]
        rfl
      | @map l h hk hv =>
        have hh := head_length 5 l.length
        rw [encode, List.length_append] at hf
        rw [encode, step 5 l.length _ (by omega) h (by omega), decodeBody,
          ih3 l r (fun e he => ⟨hk e he, hv e he⟩) (by omega)]
        rfl
      | @tag n i h hi =>
        have hh := head_length 6 n
        rw [encode, List.length_append] at hf
        rw [encode, step 6 n _ (by omega) h (by omega), decodeBody]
        have := ih2 [i] r (by intro j hj; rw [List.mem_singleton] at hj; subst hj; exact hi)
          (by simp only [encodeList, List.append_nil]; omega)
        simp only [encodeList, List.append_nil, List.length_singleton] at this
        rw [this]
      | @simple n h =>
        have := step 7 n [] (by omega) (by omega) (by omega)
        rw [encode]
        rw [List.append_nil] at this
        rw [this, decodeBody, if_pos (by omega)]; rfl
    · intro l r hok hf
      cases l with
      | nil => rfl
      | cons i l =>
        have hi := encode_length i
        rw [encodeList, List.length_append] at hf
        rw [List.length_cons, decodeItems, encodeList, List.append_assoc,
          ih1 i _ (hok i (by simp)) (by omega)]
        simp only
        rw [ih2 l r (fun j hj => hok j (by simp [hj])) (by omega)]
    · intro l r hok hf
      cases l with
      | nil => rfl
      | cons e l =>
        obtain ⟨k, v⟩ := e
        have hk := encode_length k
        have hv := encode_length v
        rw [encodeEntries, encodePair, List.length_append, List.length_append] at hf
        have h2 := ih2 [k, v] (encodeEntries l ++ r)
          (by
            intro j hj
            have := hok (k, v) (by simp)
            simp only [List.mem_cons, List.not_mem_nil, or_false] at hj
            rcases hj with rfl | rfl
            · exact this.1
            · exact this.2)
          (by simp only [encodeList, List.append_nil, List.length_append]; omega)
        simp only [encodeList, List.append_nil, List.length_cons, List.length_nil] at h2
        rw [List.length_cons, decodeEntries, encodeEntries, encodePair, List.append_assoc, h2]
        simp only
        rw [ih3 l r (fun j hj => hok j (by simp [hj])) (by omega)]

theorem decode_encode (i : Item) (h : i.Ok) (r : Bytes) : decode (encode i ++ r) = some (i, r) :=
  (decode_all _).1 i r h (by rw [List.length_append]; omega)

end Nat20
