import Verif.Lemmas.Asn1Integer
/-!
# Lemmas about the remaining ASN.1 types
-/

namespace Nat20

open Der

/-! ## INTEGER, slice level -/

theorem msf_length (le : Bool) (l : Bytes) : (mostSignificantFirst le l).length = l.length := by
  cases le <;> simp [mostSignificantFirst]

theorem beBytes_eq_nil {n : Nat} : beBytes n = [] ↔ n = 0 :=
  ⟨fun h => Classical.byContradiction fun hn => beBytes_ne_nil hn h, fun h => by subst h; exact beBytes_zero⟩

/-- All bytes are padding exactly for the values 0 and -1. -/
theorem insignificant_iff (tc : Bool) (be : Bytes) :
    be.dropWhile (fun b => b == if isNegative tc be then 0xff else 0) = [] ↔ bytesValue tc be = 0 ∨ bytesValue tc be = -1 := by
  have pos : ∀ l : Bytes, l.dropWhile (fun b => b == 0) = [] ↔ ((fromBE l : Int) = 0 ∨ (fromBE l : Int) = -1) := by
    intro l
    rw [← beBytes_fromBE, beBytes_eq_nil]; omega
  cases tc with
  | false => exact pos be
  | true =>
    cases be with
    | nil => simp [bytesValue, twosComplement]
    | cons b t =>
      by_cases h : 128 ≤ b.toNat
      · have e : isNegative true (b :: t) = true := by simp [isNegative, h]
        have hm : (b :: t).dropWhile (fun b => b == 0xff) = [] ↔
            ((b :: t).map (fun b => 255 - b)).dropWhile (fun b => b == 0) = [] := by
          rw [dropWhile_complement]; simp only [List.map_eq_nil_iff]
        simp only [e, if_true, hm, bytesValue, twosComplement_hi b t h, Int.negSucc_eq]
        rw [← beBytes_fromBE, beBytes_eq_nil]; omega
      · have e : isNegative true (b :: t) = false := by simp [isNegative, h]
        simp only [e, Bool.false_eq_true, if_false, bytesValue, if_true, twosComplement_lo b t (by omega)]
        exact pos _

theorem readsBack_slice (p : Ptr) (size : UInt64) (le : Bool) (h : size.toNat ≤ p.data.length) :
    ReadsBack p (if le then -1 else 1) (if le then -1 else (size.toNat : Int))
      (mostSignificantFirst le (p.data.take size.toNat)).reverse := by
  cases le with
  | false => exact readsBack_be p _ h
  | true =>
    simp only [mostSignificantFirst, if_true, List.reverse_reverse]
    exact readsBack_le p _

theorem neighbour_iff (p : Ptr) (size : UInt64) (le : Bool) :
    ((∃ a, p.read (if le then -1 else (size.toNat : Int)) = .ok a) ↔
      Slice.NeighbourReadable ⟨size, some p⟩ le) ∧
    (¬ Slice.NeighbourReadable ⟨size, some p⟩ le → p.read (if le then -1 else (size.toNat : Int)) = .error .oobRead) := by
  unfold Slice.NeighbourReadable
  simp only [Option.some.injEq, exists_eq_left']
  cases le with
  | false =>
    simp only [Bool.false_eq_true, if_false, Ptr.read, if_pos (show (0 : Int) ≤ size.toNat by omega), Int.toNat_natCast]
    by_cases h : size.toNat < p.data.length
    · simp [h]
    · simp [h]
  | true =>
    simp only [if_true, Ptr.read, if_neg (show ¬ (0 : Int) ≤ -1 by omega)]
    have e : (-1 - -1 : Int).toNat = 0 := rfl
    rw [e]
    cases hb : p.before.reverse with
    | nil =>
      have : p.before = [] := by simpa using hb
      simp [this]
    | cons b r =>
      have : p.before ≠ [] := by intro h0; rw [h0] at hb; cases hb
      simp [this]

theorem prepends_integer (n : Slice) (le tc : Bool) (ti : TagInfo) (hv : n.Valid) (hb : n.buffer ≠ none)
    (hne : tc = true → n.size ≠ 0)
    (hadj : n.NeighbourReadable le ∨ (n.value le tc ≠ 0 ∧ n.value le tc ≠ -1)) :
    Prepends (asn1Integer n le tc ti) (ti.tagging.element 0 false 2 (intContent (n.value le tc))) := by
  obtain ⟨size, buf⟩ := n
  cases buf with
  | none => exact absurd rfl hb
  | some p =>
    have hle : size.toNat ≤ p.data.length := hv p rfl
    have hlen : (mostSignificantFirst le (p.data.take size.toNat)).length = size.toNat := by
      rw [msf_length, List.length_take]; omega
    have := prepends_integerContent p size le tc (mostSignificantFirst le (p.data.take size.toNat)) hlen
      (readsBack_slice p size le hle)
      (by
        intro h h0
        have := hne h
        rw [h0] at hlen
        rw [u64_ne_zero] at this
        exact this hlen.symm)
      (by
        rcases hadj with h | ⟨h1, h2⟩
        · exact Or.inl ((neighbour_iff p size le).1.2 h)
        · right
          rw [ne_eq, insignificant_iff, not_or]
          exact ⟨h1, h2⟩)
    rw [strippedContent_eq] at this
    exact prepends_hwc classUniversal false 2 (by decide) this ti

theorem integer_ub (n : Slice) (le tc : Bool) (ti : TagInfo) (hv : n.Valid) (hb : n.buffer ≠ none)
    (hne : tc = true → n.size ≠ 0) (hadj : ¬ n.NeighbourReadable le) (hval : n.value le tc = 0 ∨ n.value le tc = -1)
    (s : Option Stream) : asn1Integer n le tc ti s = .error .oobRead := by
  obtain ⟨size, buf⟩ := n
  cases buf with
  | none => exact absurd rfl hb
  | some p =>
    have hle : size.toNat ≤ p.data.length := hv p rfl
    have hlen : (mostSignificantFirst le (p.data.take size.toNat)).length = size.toNat := by
      rw [msf_length, List.length_take]; omega
    have := integerContent_ub p size le tc (mostSignificantFirst le (p.data.take size.toNat)) s hlen
      (readsBack_slice p size le hle)
      (by
        intro h h0
        have := hne h
        rw [h0] at hlen
        rw [u64_ne_zero] at this
        exact this hlen.symm)
      ((neighbour_iff p size le).2 hadj) ((insignificant_iff _ _).2 hval)
    show (asn1IntegerContent p size le tc s >>= _) = _
    rw [this]; rfl

theorem objectBytes_length (fr : Frame) (n : UInt64) : (fr.objectBytes n).length = 8 := by
  unfold Frame.objectBytes
  split <;> simp [leBytes64]

/-- The argument as `n20_asn1_integer` gets it. -/
theorem objectBytes_first (fr : Frame) (n : UInt64) :
    mostSignificantFirst (!fr.bigEndian) (Slice.bytes ⟨8, some ⟨fr.below, fr.objectBytes n ++ fr.above⟩⟩) = (leBytes64 n).reverse := by
  have e : Slice.bytes ⟨8, some ⟨fr.below, fr.objectBytes n ++ fr.above⟩⟩ = fr.objectBytes n := List.take_left' (objectBytes_length fr n)
  rw [e]
  unfold mostSignificantFirst Frame.objectBytes
  cases fr.bigEndian <;> rfl

theorem objectBytes_value (fr : Frame) (n : UInt64) : Slice.value ⟨8, some ⟨fr.below, fr.objectBytes n ++ fr.above⟩⟩ (!fr.bigEndian) false = n.toNat := by
  unfold Slice.value
  rw [objectBytes_first]
  simp only [bytesValue, Bool.false_eq_true, if_false]
  rw [leBytes64_value]

theorem objectBytes_signed (fr : Frame) (n : Int64) : Slice.value ⟨8, some ⟨fr.below, fr.objectBytes n.toUInt64 ++ fr.above⟩⟩ (!fr.bigEndian) true = n.toInt := by
  unfold Slice.value
  rw [objectBytes_first]
  simp only [bytesValue, if_true]
  rw [leBytes64_signed]

theorem objectBytes_neighbour (fr : Frame) (n : UInt64) :
    Slice.NeighbourReadable ⟨8, some ⟨fr.below, fr.objectBytes n ++ fr.above⟩⟩ (!fr.bigEndian) ↔ fr.adjacent ≠ [] := by
  have hl := objectBytes_length fr n
  have e8 : (8 : UInt64).toNat = 8 := rfl
  unfold Slice.NeighbourReadable Frame.adjacent
  cases fr.bigEndian with
  | false => simp
  | true =>
    simp only [Option.some.injEq, exists_eq_left', Bool.not_true, Bool.false_eq_true, if_false, if_true, e8, List.length_append, hl]
    rw [← List.length_pos_iff]
    omega

theorem objectBytes_valid (fr : Frame) (n : UInt64) : Slice.Valid ⟨8, some ⟨fr.below, fr.objectBytes n ++ fr.above⟩⟩ := by
  intro p hp
  cases hp
  simp [objectBytes_length]

theorem prepends_uint64 (fr : Frame) (n : UInt64) (ti : TagInfo) (h : fr.adjacent ≠ [] ∨ n ≠ 0) :
    Prepends (asn1UInt64 fr n ti) (ti.tagging.element 0 false 2 (intContent n.toNat)) := by
  have hval := objectBytes_value fr n
  have := prepends_integer ⟨8, some ⟨fr.below, fr.objectBytes n ++ fr.above⟩⟩ (!fr.bigEndian) false ti
    (objectBytes_valid fr n) (by simp) (by simp)
    (by
      rcases h with h | h
      · exact Or.inl ((objectBytes_neighbour fr n).2 h)
      · right
        rw [hval]
        rw [u64_ne_zero] at h
        omega)
  rw [hval] at this
  exact this

theorem prepends_int64 (fr : Frame) (n : Int64) (ti : TagInfo) (h : fr.adjacent ≠ [] ∨ (n ≠ 0 ∧ n ≠ -1)) :
    Prepends (asn1Int64 fr n ti) (ti.tagging.element 0 false 2 (intContent n.toInt)) := by
  have hval := objectBytes_signed fr n
  have := prepends_integer ⟨8, some ⟨fr.below, fr.objectBytes n.toUInt64 ++ fr.above⟩⟩ (!fr.bigEndian) true ti
    (objectBytes_valid fr _) (by simp) (by simp)
    (by
      rcases h with h | ⟨h1, h2⟩
      · exact Or.inl ((objectBytes_neighbour fr _).2 h)
      · right
        rw [hval]
        constructor
        · intro h0; apply h1; apply Int64.toInt_inj.1; rw [h0]; rfl
        · intro h0; apply h2; apply Int64.toInt_inj.1; rw [h0]; rfl)
  rw [hval] at this
  exact this

theorem uint64_ub (fr : Frame) (hfr : fr.adjacent = []) (ti : TagInfo) (s : Option Stream) : asn1UInt64 fr 0 ti s = .error .oobRead :=
  integer_ub _ _ _ ti (objectBytes_valid fr 0) (by simp) (by simp) (fun h => (objectBytes_neighbour fr 0).1 h hfr) (Or.inl (objectBytes_value fr 0)) s

theorem int64_ub (fr : Frame) (hfr : fr.adjacent = []) (n : Int64) (hn : n = 0 ∨ n = -1) (ti : TagInfo) (s : Option Stream) : asn1Int64 fr n ti s = .error .oobRead := by
  refine integer_ub _ _ _ ti (objectBytes_valid fr _) (by simp) (by simp) (fun h => (objectBytes_neighbour fr _).1 h hfr) ?_ s
  rw [objectBytes_signed]
  rcases hn with rfl | rfl
  · exact Or.inl rfl
  · exact Or.inr rfl

/-! ## BIT STRING -/

theorem octetBits_length (b : UInt8) : (octetBits b).length = 8 := by simp [octetBits]

theorem bitsOf_length (l : Bytes) : (bitsOf l).length = 8 * l.length := by
  induction l with
  | nil => rfl
  | cons b t ih =>
    have : bitsOf (b :: t) = octetBits b ++ bitsOf t := by simp [bitsOf]
    rw [this, List.length_append, octetBits_length, ih, List.length_cons]; omega

theorem bitsOf_cons (b : UInt8) (t : Bytes) : bitsOf (b :: t) = octetBits b ++ bitsOf t := by simp [bitsOf]

theorem packBits_nil : packBits [] = [] := by rw [packBits, dif_pos rfl]

theorem packBits_cons {l : List Bool} (h : l ≠ []) : packBits l = packOctet (l.take 8) :: packBits (l.drop 8) := by
  rw [packBits, dif_neg h]

theorem packOctet_octetBits (b : UInt8) : packOctet (octetBits b) = b := by
  have : ∀ i : Fin 256, packOctet (octetBits (UInt8.ofNat i.val)) = UInt8.ofNat i.val := by decide +kernel
  have h := this ⟨b.toNat, b.toNat_lt⟩
  simpa using h

theorem packOctet_mask (b : UInt8) (k : Nat) (h : k ≤ 8) (h0 : 0 < k) :
    packOctet ((octetBits b).take k) = b &&& ~~~((1 <<< UInt8.ofNat (8 - k)) - 1) := by
  have : ∀ (i : Fin 256) (k : Fin 8), packOctet ((octetBits (UInt8.ofNat i.val)).take (k.val + 1))
      = UInt8.ofNat i.val &&& ~~~((1 <<< UInt8.ofNat (8 - (k.val + 1))) - 1) := by decide +kernel
  have h := this ⟨b.toNat, b.toNat_lt⟩ ⟨k - 1, by omega⟩
  simp only [UInt8.ofNat_toNat] at h
  rwa [Nat.sub_add_cancel (by omega)] at h

theorem packBits_bitsOf (l : Bytes) : packBits (bitsOf l) = l := by
  induction l with
  | nil => exact packBits_nil
  | cons b t ih =>
    have hl := octetBits_length b
    rw [bitsOf_cons, packBits_cons (by intro h; have := congrArg List.length h; simp [hl] at this)]
    rw [List.take_left' hl, List.drop_left' hl, packOctet_octetBits, ih]

/-- Packing the first `n > 0` bits of some bytes: all bytes but the last one, and the last one masked. -/
theorem packBits_take (data : Bytes) : ∀ n : Nat, 0 < n → n ≤ 8 * data.length →
    ∃ c, data[(n - 1) / 8]? = some c ∧
      packBits ((bitsOf data).take n) =
        data.take ((n - 1) / 8) ++ [c &&& ~~~((1 <<< UInt8.ofNat (8 - (n - 8 * ((n - 1) / 8)))) - 1)] := by
  induction data with
  | nil => intro n h0 hn; simp at hn; omega
  | cons b t ih =>
    intro n h0 hn
    have hl := octetBits_length b
    rw [bitsOf_cons]
    by_cases h8 : n ≤ 8
    · have e : (n - 1) / 8 = 0 := by omega
      refine ⟨b, by rw [e]; rfl, ?_⟩
      rw [e, List.take_append_of_le_length (by omega)]
      rw [packBits_cons (by
        intro h; have := congrArg List.length h; simp [hl] at this; omega)]
      rw [List.drop_eq_nil_of_le (by simp [hl]; omega), packBits_nil, List.take_of_length_le (by simp [hl]; omega),
        packOctet_mask b n h8 h0]
      simp
    · obtain ⟨c, hc, he⟩ := ih (n - 8) (by omega) (by simp at hn; omega)
      have e : (n - 1) / 8 = (n - 8 - 1) / 8 + 1 := by omega
      refine ⟨c, by rw [e]; simpa using hc, ?_⟩
      have et : List.take n (octetBits b ++ bitsOf t) = octetBits b ++ (bitsOf t).take (n - 8) := by
        rw [List.take_append, hl, List.take_of_length_le (by omega)]
      rw [et, packBits_cons (by intro h; have := congrArg List.length h; simp [hl] at this)]
      rw [List.take_left' hl, List.drop_left' hl, packOctet_octetBits, he, e]
      have e3 : n - 8 - 8 * ((n - 8 - 1) / 8) = n - 8 * ((n - 8 - 1) / 8 + 1) := by omega
      rw [e3]
      simp

theorem prepends_bitstringLoop (p : Ptr) (k : Nat) (h : k ≤ p.data.length) :
    Prepends (bitstringLoop p k) (p.data.take k) := by
  induction k with
  | zero => exact Prepends.pure
  | succ k ih =>
    have hr : p.read k = .ok (p.data[k]'(by omega)) := by
      unfold Ptr.read
      rw [if_pos (by omega)]
      simp [List.getElem?_eq_getElem (show k < p.data.length by omega)]
    rw [bitstringLoop]
    refine Prepends.lift_bind hr (((prepends_byte _).bind (ih (by omega))).congr ?_)
    rw [List.take_add_one, List.getElem?_eq_getElem (show k < p.data.length by omega)]
    rfl

theorem prepends_bitstringContent (p : Ptr) (bits : UInt64) (hwrap : bits.toNat + 7 < 2 ^ 64)
    (hlen : bits.toNat ≤ 8 * p.data.length) :
    Prepends (asn1BitstringContent (some p) bits) (bitStringContent ((bitsOf p.data).take bits.toNat)) := by
  have hbl := bitsOf_length p.data
  have hbytes : ((bits + 7) >>> 3).toNat = (bits.toNat + 7) / 8 := by
    rw [UInt64.toNat_shiftRight, UInt64.toNat_add]
    have e : (7 : UInt64).toNat = 7 := rfl
    have e3 : (3 : UInt64).toNat % 64 = 3 := rfl
    rw [e, e3, Nat.mod_eq_of_lt hwrap, Nat.shiftRight_eq_div_pow]
  have hunused : ((8 - (bits &&& 7)) &&& 7).toUInt8 = UInt8.ofNat ((8 - bits.toNat % 8) % 8) := by
    apply u8_eq_of_toNat
    have e1 : (bits &&& 7).toNat = bits.toNat % 8 := by
      rw [UInt64.toNat_and]; exact Nat.and_two_pow_sub_one_eq_mod bits.toNat 3
    have e8 : (8 : UInt64).toNat = 8 := rfl
    have e2 : (8 - (bits &&& 7)).toNat = 8 - bits.toNat % 8 := by
      rw [UInt64.toNat_sub_of_le]
      · rw [e1]; rfl
      · rw [UInt64.le_iff_toNat_le, e1, e8]; omega
    have e3 : ((8 - (bits &&& 7)) &&& 7).toNat = (8 - bits.toNat % 8) % 8 := by
      rw [UInt64.toNat_and, e2]; exact Nat.and_two_pow_sub_one_eq_mod _ 3
    rw [UInt64.toNat_toUInt8, e3]; omega
  unfold asn1BitstringContent
  simp only [Option.isNone_some, Bool.false_eq_true, if_false]
  rw [hunused]
  unfold bitStringContent
  have hlen2 : ((bitsOf p.data).take bits.toNat).length = bits.toNat := by rw [List.length_take]; omega
  rw [hlen2]
  have key : Prepends (bitstringBytes (some p) ((bits + 7) >>> 3) (UInt8.ofNat ((8 - bits.toNat % 8) % 8)))
      (packBits ((bitsOf p.data).take bits.toNat)) := by
    unfold bitstringBytes
    by_cases h0 : bits.toNat = 0
    · rw [if_pos (UInt64.toNat_inj.1 (by rw [hbytes, h0]; rfl)), h0, List.take_zero, packBits_nil]
      exact Prepends.pure
    · rw [if_neg (fun h => by rw [h] at hbytes; have e : (0 : UInt64).toNat = 0 := rfl; omega)]
      simp only
      have hm : ((bits + 7) >>> 3 - 1).toNat = (bits.toNat - 1) / 8 := by
        rw [UInt64.toNat_sub_of_le]
        · rw [hbytes]; have e : (1 : UInt64).toNat = 1 := rfl; omega
        · rw [UInt64.le_iff_toNat_le, hbytes]; have e : (1 : UInt64).toNat = 1 := rfl; omega
      rw [hm]
      obtain ⟨c, hc, he⟩ := packBits_take p.data bits.toNat (by omega) hlen
      have hr : p.read ((bits.toNat - 1) / 8 : Nat) = .ok c := by
        unfold Ptr.read
        rw [if_pos (by omega), Int.toNat_natCast, hc]
      refine Prepends.lift_bind hr ?_
      rw [he]
      have eu : (8 - bits.toNat % 8) % 8 = 8 - (bits.toNat - 8 * ((bits.toNat - 1) / 8)) := by omega
      rw [eu]
      refine ((prepends_byte _).bind (prepends_bitstringLoop p _ ?_))
      rcases Nat.lt_or_ge ((bits.toNat - 1) / 8) p.data.length with h | h
      · omega
      · rw [List.getElem?_eq_none h] at hc; cases hc
  exact key.bind (prepends_byte _)

theorem prepends_bitstring (p : Ptr) (bits : UInt64) (ti : TagInfo) (hwrap : bits.toNat + 7 < 2 ^ 64)
    (hlen : bits.toNat ≤ 8 * p.data.length) :
    Prepends (asn1Bitstring (some p) bits ti)
      (ti.tagging.element 0 false 3 (bitStringContent ((bitsOf p.data).take bits.toNat))) :=
  prepends_hwc classUniversal false 3 (by decide) (prepends_bitstringContent p bits hwrap hlen) ti

theorem prepends_bitstring_null (bits : UInt64) (ti : TagInfo) :
    Prepends (asn1Bitstring none bits ti) (ti.tagging.element 0 false 3 (bitStringContent [])) := by
  refine prepends_hwc classUniversal false 3 (by decide) ?_ ti
  have e1 : ((0 : UInt64) + 7) >>> 3 = 0 := by decide
  have e2 : (((8 : UInt64) - (0 &&& 7)) &&& 7).toUInt8 = 0 := by decide
  unfold asn1BitstringContent
  simp only [Option.isNone_none, if_true]
  rw [e1, e2, bitstringBytes, if_pos rfl]
  refine (Prepends.bind (b1 := []) Prepends.pure (prepends_byte 0)).congr ?_
  rw [bitStringContent, packBits_nil]
  rfl

theorem octetBits_packOctet (l : List Bool) (h : l.length ≤ 8) :
    octetBits (packOctet l) = l ++ List.replicate (8 - l.length) false := by
  match l, h with
  | [], _ => decide
  | [a], _ => revert a; decide
  | [a, b], _ => revert a b; decide
  | [a, b, c], _ => revert a b c; decide
  | [a, b, c, d], _ => revert a b c d; decide
  | [a, b, c, d, e], _ => revert a b c d e; decide +kernel
  | [a, b, c, d, e, f], _ => revert a b c d e f; decide +kernel
  | [a, b, c, d, e, f, g], _ => revert a b c d e f g; decide +kernel
  | [a, b, c, d, e, f, g, i], _ => revert a b c d e f g i; decide +kernel
  | _ :: _ :: _ :: _ :: _ :: _ :: _ :: _ :: _ :: _, h => simp at h

theorem bitsOf_packBits (n : Nat) : ∀ l : List Bool, l.length = n →
    bitsOf (packBits l) = l ++ List.replicate ((8 - l.length % 8) % 8) false ∧ (packBits l).length = (l.length + 7) / 8 := by
  induction n using Nat.strongRecOn with
  | _ n ih =>
    intro l hl
    by_cases h : l = []
    · subst h; rw [packBits_nil]; exact ⟨rfl, rfl⟩
    · have hpos : 0 < l.length := by
        cases l with
        | nil => exact absurd rfl h
        | cons a t => simp
      obtain ⟨h1, h2⟩ := ih (l.drop 8).length (by simp; omega) (l.drop 8) rfl
      rw [packBits_cons h, bitsOf_cons, h1, octetBits_packOctet _ (by simp; omega), List.length_cons, h2]
      by_cases h8 : 8 ≤ l.length
      · constructor
        · have e1 : 8 - (l.take 8).length = 0 := by simp; omega
          have e2 : (l.drop 8).length % 8 = l.length % 8 := by simp; omega
          rw [e1, e2, List.replicate_zero, List.append_nil, ← List.append_assoc, List.take_append_drop]
        · simp; omega
      · constructor
        · have e1 : l.drop 8 = [] := List.drop_eq_nil_of_le (by omega)
          have e2 : l.take 8 = l := List.take_of_length_le (by omega)
          have e3 : (8 - l.length % 8) % 8 = 8 - l.length := by omega
          rw [e1, e2, e3]; simp
        · simp; omega

/-- Strict reading of bit string contents recovers the bits. -/
theorem parseBitString_content (l : List Bool) : parseBitString (bitStringContent l) = some l := by
  obtain ⟨h1, h2⟩ := bitsOf_packBits l.length l rfl
  unfold bitStringContent parseBitString
  simp only
  rw [u8_ofNat_toNat _ (by omega), if_neg (by omega), if_neg]
  · rw [h1, h2]
    have e : 8 * ((l.length + 7) / 8) - (8 - l.length % 8) % 8 = l.length := by omega
    rw [e, List.drop_left, List.take_left, if_pos rfl]
  · rintro ⟨ha, hb⟩
    rw [hb] at h2
    simp at h2
    omega

theorem bitStringContent_injective {a b : List Bool} (h : bitStringContent a = bitStringContent b) : a = b := by
  have h1 := parseBitString_content a
  rw [h, parseBitString_content] at h1
  exact (Option.some.inj h1).symm

/-! ## Strings, BOOLEAN -/

theorem prepends_stringish (tag : UInt32) (slice : Option Slice) (ti : TagInfo) (hv : ∀ s, slice = some s → s.Valid) :
    Prepends (asn1Stringish tag slice ti)
      (ti.tagging.element 0 false tag.toNat (optBytes slice)) := by
  refine prepends_hwc classUniversal false tag (by decide) ?_ ti
  cases slice with
  | none => exact Prepends.pure
  | some s =>
    obtain ⟨size, buf⟩ := s
    cases buf with
    | none => exact Prepends.pure
    | some p => exact prepends_streamPrepend (hv _ rfl p rfl)

theorem prepends_octetString (slice : Option Slice) (ti : TagInfo) (hv : ∀ s, slice = some s → s.Valid) :
    Prepends (asn1OctetString slice ti) (ti.tagging.element 0 false 4 (optBytes slice)) :=
  prepends_stringish 4 slice ti hv

theorem prepends_printableString (slice : Option Slice) (ti : TagInfo) (hv : ∀ s, slice = some s → s.Valid) :
    Prepends (asn1PrintableString slice ti) (ti.tagging.element 0 false 19 (optBytes slice)) := by
  cases slice with
  | none => exact prepends_stringish 19 (some Slice.null) ti (by intro s hs; cases hs; intro p hp; cases hp)
  | some s => exact prepends_stringish 19 (some s) ti hv

theorem prepends_utf8String (slice : Option Slice) (ti : TagInfo) (hv : ∀ s, slice = some s → s.Valid) :
    Prepends (asn1Utf8String slice ti) (ti.tagging.element 0 false 12 (optBytes slice)) := by
  cases slice with
  | none => exact prepends_stringish 12 (some Slice.null) ti (by intro s hs; cases hs; intro p hp; cases hp)
  | some s => exact prepends_stringish 12 (some s) ti hv

theorem prepends_generalizedTime (s : Slice) (ti : TagInfo) (hv : s.Valid) :
    Prepends (asn1GeneralizedTime (some s) ti) (ti.tagging.element 0 false 24 s.bytes) :=
  prepends_stringish 24 (some s) ti (by intro s' hs; cases hs; exact hv)

theorem prepends_generalizedTime_null (ti : TagInfo) : Prepends (asn1GeneralizedTime none ti) [5, 0] :=
  prepends_null tagInfoNoOverride

theorem prepends_boolean (v : Bool) (ti : TagInfo) :
    Prepends (asn1Boolean v ti) (ti.tagging.element 0 false 1 [if v then 0xff else 0]) :=
  prepends_hwc classUniversal false 1 (by decide) (prepends_byte _) ti

/-! ## OBJECT IDENTIFIER -/

theorem Oid.element_ok (oid : Oid) (i : Nat) (h : i < 10) : oid.element i = .ok oid.elements[i] := by
  unfold Oid.element
  rw [Vector.getElem?_eq_getElem h]

theorem prepends_oidLoop (oid : Oid) (k : Nat) (hk : k ≤ 10) :
    PrependsV (oidLoop oid k)
      ((((oid.elements.toList.take k).drop 2).map fun x => base128 x.toNat).flatten) (min k 2) := by
  induction k with
  | zero => exact PrependsV.pure 0
  | succ k ih =>
    rw [oidLoop]
    by_cases h : k + 1 > 2
    · rw [if_pos h]
      have hb := prepends_base128 (oid.elements[k]'(by omega)).toUInt64
      have hx := (PrependsV.lift (oid.element_ok k (by omega))).bind
        (f := fun x => do asn1Base128Int x.toUInt64; oidLoop oid k) (hb.toV.bind (ih (by omega)))
      have e : min (k + 1) 2 = min k 2 := by omega
      rw [e]
      refine hx.congr ?_
      have hl : k < oid.elements.toList.length := by simp; omega
      rw [List.take_add_one, List.getElem?_eq_getElem hl, List.append_nil,
        List.drop_append_of_le_length (by simp; omega)]
      simp
    · rw [if_neg h]
      have e : min (k + 1) 2 = k + 1 := by omega
      rw [e]
      refine (PrependsV.pure (k + 1)).congr ?_
      rw [List.drop_eq_nil_of_le (by simp; omega)]; rfl

theorem oidFirstByte_ok (oid : Oid) (hk : oid.elemCount.toNat ≤ 10) :
    oidFirstByte oid (min oid.elemCount.toNat 2) =
      .ok (UInt8.ofNat (match oid.arcs with | [] => 0 | [a] => 40 * a | a :: b :: _ => 40 * a + b)) := by
  have h0 := oid.element_ok 0 (by omega)
  have h1 := oid.element_ok 1 (by omega)
  have key : ∀ (h : UInt8) (x : UInt32), (h.toUInt32 + x * 40).toUInt8 = UInt8.ofNat (40 * x.toNat + h.toNat) := by
    intro h x
    apply UInt8.toNat_inj.1
    rw [UInt32.toNat_toUInt8, UInt32.toNat_add, UInt32.toNat_mul, UInt8.toNat_toUInt32, UInt8.toNat_ofNat']
    have e : (40 : UInt32).toNat = 40 := rfl
    rw [e]; omega
  unfold oidFirstByte Oid.arcs
  generalize hn : oid.elemCount.toNat = n at hk
  have hlist : oid.elements.toList = oid.elements[0] :: oid.elements[1] :: oid.elements.toList.drop 2 := by
    apply List.ext_getElem?
    intro i
    match i with
    | 0 => simp
    | 1 => simp
    | i + 2 => simp [Nat.add_comm]
  match n, hk with
  | 0, _ => rfl
  | 1, _ =>
    rw [hlist]
    simp only [List.take_succ_cons, List.take_zero, List.map_cons, List.map_nil]
    show (do let x ← oid.element 0; Pure.pure ((0 : UInt8).toUInt32 + x * 40).toUInt8 : Except UB UInt8) = _
    rw [h0]
    show Except.ok _ = _
    rw [key]
    have e : (0 : UInt8).toNat = 0 := rfl
    rw [e, Nat.add_zero]
  | n + 2, _ =>
    rw [hlist]
    have e : min (n + 2) 2 = 2 := by omega
    rw [e]
    simp only [List.take_succ_cons, List.map_cons]
    show ((·.toUInt8) <$> oid.element 1 >>= fun h : UInt8 => do
      let x ← oid.element 0; Pure.pure (h.toUInt32 + x * 40).toUInt8 : Except UB UInt8) = _
    rw [h0, h1]
    show Except.ok _ = _
    rw [key]
    congr 1
    apply UInt8.toNat_inj.1
    rw [UInt8.toNat_ofNat', UInt8.toNat_ofNat', UInt32.toNat_toUInt8]; omega

theorem prepends_oidContent (oid : Oid) (hk : oid.elemCount.toNat ≤ 10) :
    Prepends (asn1ObjectIdentifierContent oid) (oidCodeContent oid.arcs) := by
  have h1 := prepends_oidLoop oid oid.elemCount.toNat hk
  unfold asn1ObjectIdentifierContent
  refine (h1.bindP (f := fun e => do let h ← liftM (oidFirstByte oid e); prependLocal [h])
    (Prepends.lift_bind (oidFirstByte_ok oid hk) (prepends_byte _))).congr ?_
  unfold oidCodeContent
  simp only [List.singleton_append, List.cons.injEq]
  rw [Oid.arcs, ← List.map_drop, List.map_map]
  exact ⟨rfl, rfl⟩

theorem prepends_oid (oid : Oid) (ti : TagInfo) (hk : oid.elemCount.toNat ≤ 10) :
    Prepends (asn1ObjectIdentifier (some oid) ti) (ti.tagging.element 0 false 6 (oidCodeContent oid.arcs)) := by
  unfold asn1ObjectIdentifier
  have : ¬ oid.elemCount > 10 := by
    intro h; have := UInt32.lt_iff_toNat_lt.1 h; have e : (10 : UInt32).toNat = 10 := rfl; omega
  simp only [if_neg this]
  exact prepends_hwc classUniversal false 6 (by decide) (prepends_oidContent oid hk) ti

theorem prepends_oid_null (oid : Option Oid) (ti : TagInfo) (h : ∀ o, oid = some o → 10 < o.elemCount.toNat) :
    Prepends (asn1ObjectIdentifier oid ti) [5, 0] := by
  cases oid with
  | none => exact prepends_null tagInfoNoOverride
  | some o =>
    unfold asn1ObjectIdentifier
    have : o.elemCount > 10 := UInt32.lt_iff_toNat_lt.2 (h o rfl)
    simp only [if_pos this]
    exact prepends_null tagInfoNoOverride

theorem base128_small (n : Nat) (h : n < 128) : base128 n = [UInt8.ofNat n] := by
  rw [base128, Nat.div_eq_of_lt h, septets_zero, Nat.mod_eq_of_lt h]; rfl

/-- If the first two arcs fit into one octet, the code computes the standard contents octets. -/
theorem oidCodeContent_eq (arcs : List Nat) (a b : Nat) (rest : List Nat) (h : arcs = a :: b :: rest)
    (hs : 40 * a + b < 128) : oidContent arcs = some (oidCodeContent arcs) := by
  subst h
  simp only [oidContent, oidCodeContent, base128_small _ hs, List.singleton_append, List.drop_succ_cons, List.drop_zero]

theorem base128_ne_nil (n : Nat) : base128 n ≠ [] := by simp [base128]

theorem parseSubidentifiers_cons (n : Nat) (r : Bytes) :
    parseSubidentifiers (base128 n ++ r) = (parseSubidentifiers r).map (n :: ·) := by
  rw [parseSubidentifiers, dif_neg (by simp [base128_ne_nil]), if_neg (base128_head n r)]
  simp only [parseBase128_base128]
  have : r.length < (base128 n ++ r).length := by
    have h : (base128 n).length ≠ 0 := by simpa using base128_ne_nil n
    rw [List.length_append]; omega
  rw [dif_pos this]
  cases parseSubidentifiers r <;> rfl

theorem parseSubidentifiers_all (l : List Nat) : parseSubidentifiers ((l.map base128).flatten) = some l := by
  induction l with
  | nil => simp [parseSubidentifiers]
  | cons n t ih => rw [List.map_cons, List.flatten_cons, parseSubidentifiers_cons, ih]; rfl

theorem parseOid_content (arcs : List Nat) (h : ValidArcs arcs) (c : Bytes) (hc : oidContent arcs = some c) :
    parseOid c = some arcs := by
  obtain ⟨a, b, rest, rfl, ha, hb⟩ := h
  simp only [oidContent, Option.some.injEq] at hc
  subst hc
  have := parseSubidentifiers_all ((40 * a + b) :: rest)
  rw [List.map_cons, List.flatten_cons] at this
  rw [parseOid, this]
  simp only
  by_cases h0 : a = 0
  · subst h0
    have := hb (by omega)
    rw [if_pos (by omega)]; simp
  · by_cases h1 : a = 1
    · subst h1
      have := hb (by omega)
      rw [if_neg (by omega), if_pos (by omega)]; simp
    · have : a = 2 := by omega
      subst this
      rw [if_neg (by omega), if_neg (by omega)]; simp

theorem parseSubidentifiers_canonical (l : Bytes) (ns : List Nat) (h : parseSubidentifiers l = some ns) : l = (ns.map base128).flatten := by
  induction hn : l.length using Nat.strongRecOn generalizing l ns with
  | _ n ih =>
    rw [parseSubidentifiers] at h
    by_cases h0 : l = []
    · rw [dif_pos h0] at h
      cases h
      exact h0
    · rw [dif_neg h0] at h
      by_cases h8 : l.head? = some 0x80
      · rw [if_pos h8] at h
        cases h
      · rw [if_neg h8] at h
        cases hp : parseBase128 0 l with
        | none => rw [hp] at h; cases h
        | some x =>
          obtain ⟨m, r⟩ := x
          rw [hp] at h
          simp only at h
          by_cases hr : r.length < l.length
          · rw [dif_pos hr] at h
            cases hs : parseSubidentifiers r with
            | none => rw [hs] at h; cases h
            | some ms =>
              rw [hs] at h
              cases h
              have := parseBase128_canonical l 0 m r hp (Or.inr h8)
              rw [septets_zero, List.nil_append] at this
              rw [this, List.map_cons, List.flatten_cons, ← ih _ (hn ▸ hr) r ms hs rfl]
          · rw [dif_neg hr] at h
            cases h

/-- There is only one encoding of an OID. -/
theorem parseOid_canonical (l : Bytes) (arcs : List Nat) (h : parseOid l = some arcs) : oidContent arcs = some l := by
  unfold parseOid at h
  cases hs : parseSubidentifiers l with
  | none => rw [hs] at h; cases h
  | some ns =>
    rw [hs] at h
    cases ns with
    | nil => cases h
    | cons x rest =>
      have e := parseSubidentifiers_canonical l _ hs
      simp only at h
      rw [List.map_cons, List.flatten_cons] at e
      rw [e]
      by_cases h1 : x < 40
      · rw [if_pos h1] at h
        cases h
        simp [oidContent]
      · rw [if_neg h1] at h
        by_cases h2 : x < 80
        · rw [if_pos h2] at h
          cases h
          simp [oidContent, show 40 + (x - 40) = x by omega]
        · rw [if_neg h2] at h
          cases h
          simp [oidContent, show 80 + (x - 80) = x by omega]

end Nat20
