import Verif.Lemmas.Cbor
import Verif.Props.Stream
/-!
# C19-C23: CBOR writers

`Prepends w bs` (`Verif/Spec/Stream.lean`) says that `w` prepends exactly the bytes `bs` to every stream state.  The decoder
`Cbor.decode` and the item trees are in `Verif/Spec/Cbor.lean`.
-/

namespace Nat20

open Cbor

/-! ## C19 -/

/-- **C19** (partial). A decoder reads the head back as major type and argument whatever follows, and no head that decodes
to the same is shorter.  Missing: major type 7 with an argument of 24 to 31, for which no valid encoding exists and the
function writes a malformed one (`C19_reserved_simple`). -/
theorem C19_header_partial (type : UInt32) (n : UInt64) (ht : type.toNat ≤ 7)
    (hs : type.toNat ≠ 7 ∨ n.toNat < 24 ∨ 32 ≤ n.toNat) :
    ∃ bs, Prepends (cborWriteHeader type n) bs ∧
      (∀ rest, decodeHead (bs ++ rest) = some ((type.toNat, n.toNat), rest)) ∧
      (∀ other rest, decodeHead (other ++ rest) = some ((type.toNat, n.toNat), rest) → bs.length ≤ other.length) := by
  refine ⟨_, prepends_cborHeader type n (by omega), ?_, ?_⟩
  · intro rest; exact decodeHead_head _ _ _ (by omega) n.toNat_lt hs
  · intro other rest h
    have := decodeHead_shortest _ _ _ _ h
    rw [List.length_append] at this
    omega

/-- Non-vacuity of C19: boundary values. -/
example :
    cborWriteHeader 5 0x10000 (some (streamInit (some [9, 9, 9, 9, 9, 9]) 6)) =
      .ok ((), some ⟨some [9, 0xba, 0, 1, 0, 0], 6, 5, false, false⟩) ∧
    cborWriteHeader 1 0xffffffffffffffff (some (streamInit (some [9, 9, 9, 9, 9, 9, 9, 9, 9]) 9)) =
      .ok ((), some ⟨some [0x3b, 255, 255, 255, 255, 255, 255, 255, 255], 9, 9, false, false⟩) := by
  constructor <;> decide +kernel

/-- **C19, negated** for the reserved simple values: the two bytes written are not accepted by a decoder. -/
theorem C19_reserved_simple (n : UInt64) (h1 : 24 ≤ n.toNat) (h2 : n.toNat < 32) :
    ∃ bs, Prepends (cborWriteHeader cborTypeSimpleFloat n) bs ∧ ∀ rest, decodeHead (bs ++ rest) = none := by
  refine ⟨_, prepends_cborHeader cborTypeSimpleFloat n (by decide), ?_⟩
  intro rest
  have e : cborTypeSimpleFloat.toNat = 7 := rfl
  rw [e, head, if_neg (by omega), if_pos (by omega), List.cons_append, decodeHead]
  have hl := beOctets_length 1 n.toNat
  have e1 : (UInt8.ofNat (7 * 32 + 24)).toNat / 32 = 7 := by decide
  have e2 : (UInt8.ofNat (7 * 32 + 24)).toNat % 32 = 24 := by decide
  simp only [e1, e2]
  rw [if_neg (by omega)]
  simp only [argumentSize, if_true]
  rw [if_neg (by rw [List.length_append]; omega), List.take_left' hl, beNat_beOctets 1 _ (by omega),
    if_pos (show True ∧ True ∧ n.toNat < 32 from ⟨trivial, trivial, h2⟩)]

/-! ## C20 -/

/-- **C20.** Any type that is not a major type is written as the one byte `0xf7`, whatever the argument. -/
theorem C20_invalid_type (type : UInt32) (n : UInt64) (ht : 7 < type.toNat) :
    Prepends (cborWriteHeader type n) [0xf7] ∧ decodeHead [0xf7] = some ((7, 23), []) :=
  ⟨prepends_cborHeader_undefined type n ht, by decide⟩

/-- Non-vacuity of C20: `n20_cbor_type_none_e` with a nine byte argument. -/
example :
    cborWriteHeader cborTypeNone 0xffffffffffffffff (some (streamInit (some [9, 9]) 2)) =
      .ok ((), some ⟨some [9, 0xf7], 2, 1, false, false⟩) := by decide +kernel

/-! ## C21 -/

/-- `bs` is the shortest CBOR encoding of the integer `v`. -/
structure ShortestInt (bs : Bytes) (v : Int) : Prop where
  decodes : ∀ rest, decode (bs ++ rest) = some (.int v, rest)
  shortest : ∀ other rest, decode (other ++ rest) = some (.int v, rest) → bs.length ≤ other.length

theorem decode_int_shortest (l : Bytes) (v : Int) (r : Bytes) (h : decode l = some (.int v, r)) :
    (encode (.int v)).length + r.length ≤ l.length := by
  rw [decode, decodeItem] at h
  split at h
  · cases h
  · rename_i major n r' hh
    have hle := decodeHead_shortest _ _ _ _ hh
    unfold decodeBody at h
    split at h
    · simp only [Option.some.injEq, Prod.mk.injEq, Item.int.injEq] at h
      obtain ⟨rfl, rfl⟩ := h
      exact hle
    · simp only [Option.some.injEq, Prod.mk.injEq, Item.int.injEq] at h
      obtain ⟨rfl, rfl⟩ := h
      have e : (-1 - (n : Int)) = Int.negSucc n := by rw [Int.negSucc_eq]; omega
      rw [e]; exact hle
    · split at h
      · cases h
      · simp at h
    · split at h
      · cases h
      · simp at h
    · rw [Option.map_eq_some_iff] at h
      obtain ⟨_, _, h⟩ := h; simp at h
    · rw [Option.map_eq_some_iff] at h
      obtain ⟨_, _, h⟩ := h; simp at h
    · split at h
      · simp at h
      · cases h
    · split at h
      · simp at h
      · cases h
    · cases h

theorem shortestInt_encode (v : Int) (h1 : -(2 ^ 64) ≤ v) (h2 : v < 2 ^ 64) : ShortestInt (encode (.int v)) v where
  decodes rest := decode_encode _ (.int h1 h2) rest
  shortest other rest h := by
    have := decode_int_shortest _ _ _ h
    rw [List.length_append] at this; omega

theorem prepends_cborUInt (n : UInt64) : Prepends (cborWriteUInt n) (encode (.int n.toNat)) :=
  prepends_cborHeader cborTypeUint n (by decide)

theorem prepends_cborInt (n : Int64) (h : n ≠ Int64.minValue) : Prepends (cborWriteInt n) (encode (.int n.toInt)) := by
  have hlo := n.le_toInt
  have hhi := n.toInt_lt
  unfold cborWriteInt
  by_cases h0 : 0 ≤ n
  · rw [if_pos h0]
    have h0' : 0 ≤ n.toInt := Int64.le_iff_toInt_le.1 h0
    have e : ((n.toUInt64.toNat : Nat) : Int) = n.toInt := by
      rw [Int64.toNat_toUInt64_of_le h0, Int64.toNatClampNeg]
      omega
    rw [← e]; exact prepends_cborUInt _
  · rw [if_neg h0, negMinusOne, if_neg h]
    have hneg : n.toInt < 0 := by
      rw [Int64.le_iff_toInt_le] at h0
      have : (0 : Int64).toInt = 0 := rfl
      omega
    have hmin : n.toInt ≠ -2 ^ 63 := by
      intro hc; apply h
      apply Int64.toInt_inj.1; rw [hc]; rfl
    have e1 : (-n - 1).toInt = -1 - n.toInt := by
      rw [Int64.toInt_sub, Int64.toInt_neg]
      have : (1 : Int64).toInt = 1 := rfl
      rw [this]
      have hb : (-n.toInt).bmod (2 ^ 64) = -n.toInt := Int.bmod_eq_of_le (by omega) (by omega)
      rw [hb, Int.bmod_eq_of_le (by omega) (by omega)]
      omega
    have h0' : 0 ≤ -n - 1 := Int64.le_iff_toInt_le.2 (by rw [e1]; show (0:Int) ≤ _; omega)
    have e2 : (((-n - 1).toUInt64.toNat : Nat) : Int) = -1 - n.toInt := by
      rw [Int64.toNat_toUInt64_of_le h0', Int64.toNatClampNeg, e1]
      omega
    have e3 : n.toInt = Int.negSucc (-n - 1).toUInt64.toNat := by rw [Int.negSucc_eq]; omega
    rw [e3]
    exact prepends_cborHeader cborTypeNint _ (by decide)

/-- **C21.** `n20_cbor_write_uint` writes the shortest encoding of its argument. -/
theorem C21_uint (n : UInt64) : ∃ bs, Prepends (cborWriteUInt n) bs ∧ ShortestInt bs n.toNat :=
  ⟨_, prepends_cborUInt n, shortestInt_encode _ (by omega) (by have := n.toNat_lt; omega)⟩

/-- **C21** (partial). `n20_cbor_write_int` writes the shortest encoding of its argument.  Missing: the most negative
number, for which the code computes `-n`, a signed overflow (`C21_int_min_undefined`). -/
theorem C21_int_partial (n : Int64) (h : n ≠ Int64.minValue) :
    ∃ bs, Prepends (cborWriteInt n) bs ∧ ShortestInt bs n.toInt :=
  ⟨_, prepends_cborInt n h, shortestInt_encode _ (by have := n.le_toInt; omega) (by have := n.toInt_lt; omega)⟩

/-- **C21, negated** for `INT64_MIN`. -/
theorem C21_int_min_undefined (s : Option Stream) : cborWriteInt Int64.minValue s = .error .signedOverflow := rfl

/-- Non-vacuity of C21. -/
example :
    cborWriteInt (-9223372036854775807) (some (streamInit (some (List.replicate 9 0)) 9)) =
      .ok ((), some ⟨some [0x3b, 0x7f, 255, 255, 255, 255, 255, 255, 254], 9, 9, false, false⟩) ∧
    cborWriteInt (-24) (some (streamInit (some [0, 0]) 2)) = .ok ((), some ⟨some [0, 0x37], 2, 1, false, false⟩) ∧
    cborWriteInt (-25) (some (streamInit (some [0, 0]) 2)) = .ok ((), some ⟨some [0x38, 24], 2, 2, false, false⟩) := by
  refine ⟨?_, ?_, ?_⟩ <;> decide +kernel

/-! ## C22 -/

theorem prepends_cborString (type : UInt32) (ht : type.toNat < 8) (s : Slice) (hv : s.Valid) (hb : s.buffer ≠ none) :
    Prepends (do streamPrepend s.buffer s.size; cborWriteHeader type s.size)
      (head type.toNat s.bytes.length ++ s.bytes) := by
  obtain ⟨size, buffer⟩ := s
  cases buffer with
  | none => exact absurd rfl hb
  | some p =>
    have hp : size.toNat ≤ p.data.length := hv p rfl
    have hl : (Slice.bytes ⟨size, some p⟩).length = size.toNat := by
      simp only [Slice.bytes, List.length_take]; omega
    rw [hl]
    exact (prepends_streamPrepend hp).bind (prepends_cborHeader type size ht)

theorem slice_bytes_lt (s : Slice) : s.bytes.length < 2 ^ 64 := by
  obtain ⟨size, buffer⟩ := s
  cases buffer with
  | none => simp [Slice.bytes]
  | some p =>
    have := size.toNat_lt
    simp only [Slice.bytes, List.length_take]
    omega

theorem prepends_cborByteString (s : Slice) (hv : s.Valid) (hb : s.buffer ≠ none) :
    Prepends (cborWriteByteString s) (encode (.bytes s.bytes)) := by
  rw [cborWriteByteString, if_neg (by rintro ⟨_, h⟩; exact hb h), encode]
  exact prepends_cborString cborTypeBytes (by decide) s hv hb

theorem prepends_cborTextString (s : Slice) (hv : s.Valid) (hb : s.buffer ≠ none) :
    Prepends (cborWriteTextString s) (encode (.text s.bytes)) := by
  rw [cborWriteTextString, if_neg (by rintro ⟨_, h⟩; exact hb h), encode]
  exact prepends_cborString cborTypeString (by decide) s hv hb

/-- **C22** (partial). Strings decode to exactly the bytes of the slice.  Missing: a NULL buffer of size zero
(`C22_empty_null_string`). -/
theorem C22_strings_partial (s : Slice) (hv : s.Valid) (hb : s.buffer ≠ none) :
    (∃ bs, Prepends (cborWriteByteString s) bs ∧ ∀ rest, decode (bs ++ rest) = some (.bytes s.bytes, rest)) ∧
    (∃ bs, Prepends (cborWriteTextString s) bs ∧ ∀ rest, decode (bs ++ rest) = some (.text s.bytes, rest)) :=
  ⟨⟨_, prepends_cborByteString s hv hb, decode_encode _ (.bytes (slice_bytes_lt s))⟩,
   ⟨_, prepends_cborTextString s hv hb, decode_encode _ (.text (slice_bytes_lt s))⟩⟩

/-- **C22.** A NULL buffer with non-zero size is written as null. -/
theorem C22_null_string (size : UInt64) (h : size ≠ 0) :
    Prepends (cborWriteByteString ⟨size, none⟩) [0xf6] ∧ Prepends (cborWriteTextString ⟨size, none⟩) [0xf6] ∧
    decode [0xf6] = some (.simple 22, []) := by
  have hpos : size > 0 := by
    apply UInt64.lt_iff_toNat_lt.2
    have : size.toNat ≠ 0 := fun hc => h (UInt64.toNat_inj.1 hc)
    show 0 < size.toNat
    omega
  have hn : Prepends cborWriteNull [0xf6] := prepends_cborHeader cborTypeSimpleFloat 22 (by decide)
  refine ⟨?_, ?_, decode_encode (.simple 22) (.simple (by omega)) []⟩
  · rw [cborWriteByteString, if_pos ⟨hpos, rfl⟩]; exact hn
  · rw [cborWriteTextString, if_pos ⟨hpos, rfl⟩]; exact hn

/-- **C22.** Null and booleans. -/
theorem C22_null_bool :
    Prepends cborWriteNull [0xf6] ∧ Prepends (cborWriteBool true) [0xf5] ∧ Prepends (cborWriteBool false) [0xf4] ∧
    decode [0xf6] = some (.simple 22, []) ∧ decode [0xf5] = some (.simple 21, []) ∧
    decode [0xf4] = some (.simple 20, []) :=
  ⟨prepends_cborHeader cborTypeSimpleFloat 22 (by decide), prepends_cborHeader cborTypeSimpleFloat 21 (by decide),
   prepends_cborHeader cborTypeSimpleFloat 20 (by decide), decode_encode (.simple 22) (.simple (by omega)) [],
   decode_encode (.simple 21) (.simple (by omega)) [], decode_encode (.simple 20) (.simple (by omega)) []⟩

/-- **C22, negated** for the empty slice `N20_SLICE_NULL`: on every stream that has not overflowed the NULL pointer reaches `memcpy`,
which C11 does not define even for length 0.  If the stream has overflowed, the size is counted correctly. -/
theorem C22_empty_null_string (s : Stream) (hs : s.WF) :
    (s.bufferOverflow = false → cborWriteByteString Slice.null (some s) = .error .nullMemcpy ∧ cborWriteTextString Slice.null (some s) = .error .nullMemcpy) ∧
    (s.bufferOverflow = true → (∃ s', cborWriteByteString Slice.null (some s) = .ok ((), some s') ∧ s'.WF ∧ Prepended s s' [0x40]) ∧
      ∃ s', cborWriteTextString Slice.null (some s) = .ok ((), some s') ∧ s'.WF ∧ Prepended s s' [0x60]) := by
  have hb : cborWriteByteString Slice.null = (do streamPrepend none 0; cborWriteHeader cborTypeBytes 0) := by
    rw [cborWriteByteString, if_neg (by rintro ⟨h, _⟩; exact absurd h (by decide))]
    rfl
  have ht : cborWriteTextString Slice.null = (do streamPrepend none 0; cborWriteHeader cborTypeString 0) := by
    rw [cborWriteTextString, if_neg (by rintro ⟨h, _⟩; exact absurd h (by decide))]
    rfl
  rw [hb, ht]
  constructor
  · intro ho
    obtain ⟨mem, h1, h2, h3⟩ := hs.good ho
    have hw : s.writePositionOverflow = false := by
      cases h : s.writePositionOverflow with
      | false => rfl
      | true => have := hs.wpo_bo h; rw [ho] at this; cases this
    have e : streamPrepend none 0 (some s) = .error .nullMemcpy := by
      unfold streamPrepend
      have hlt : ¬ s.size < s.writePosition := by
        intro h
        have := UInt64.lt_iff_toNat_lt.1 h
        omega
      have hlt' : ¬ s.writePosition < s.writePosition := by
        intro h
        have := UInt64.lt_iff_toNat_lt.1 h
        omega
      simp only [ho, hw, UInt64.add_zero, hlt, hlt', decide_false, Bool.or_false, Bool.false_eq_true, if_false, h1]
      rfl
    constructor
    · show (streamPrepend none 0 (some s) >>= _) = _
      rw [e]
      rfl
    · show (streamPrepend none 0 (some s) >>= _) = _
      rw [e]
      rfl
  · intro ho
    have e : streamPrepend none 0 (some s) = .ok ((), some s) := by
      unfold streamPrepend
      have hlt' : ¬ s.writePosition < s.writePosition := by
        intro h
        have := UInt64.lt_iff_toNat_lt.1 h
        omega
      obtain ⟨begin_, size, pos, wpo, bo⟩ := s
      simp only at ho hlt'
      subst ho
      simp [hlt']
    have run : ∀ {w : W Unit}, (do streamPrepend none 0; w) (some s) = w (some s) := by
      intro w
      show (streamPrepend none 0 (some s) >>= fun x => w x.2) = _
      rw [e]
      rfl
    rw [run, run]
    exact ⟨(prepends_cborHeader cborTypeBytes 0 (by decide)).run s hs, (prepends_cborHeader cborTypeString 0 (by decide)).run s hs⟩

/-- Non-vacuity of C22. -/
example :
    cborWriteTextString ⟨2, some ⟨[], [0x68, 0x69]⟩⟩ (some (streamInit (some [0, 0, 0, 0]) 4)) =
      .ok ((), some ⟨some [0, 0x62, 0x68, 0x69], 4, 3, false, false⟩) := by decide +kernel

/-! ## C23 -/

mutual
/-- A client writing a tree of items: the parts of a structure last one first, then its header. -/
def writeItem : Item → W Unit
  | .int v => match v with
    | .ofNat n => cborWriteUInt (UInt64.ofNat n)
    | .negSucc n =>
      if n < 2 ^ 63 - 1 then cborWriteInt (Int64.ofInt (Int.negSucc n))
      else cborWriteHeader cborTypeNint (UInt64.ofNat n)
  | .bytes b => cborWriteByteString ⟨UInt64.ofNat b.length, some ⟨[], b⟩⟩
  | .text b => cborWriteTextString ⟨UInt64.ofNat b.length, some ⟨[], b⟩⟩
  | .array items => do
    writeItems items
    cborWriteArrayHeader (UInt64.ofNat items.length)
  | .map entries => do
    writeEntries entries
    cborWriteMapHeader (UInt64.ofNat entries.length)
  | .tag n item => do
    writeItem item
    cborWriteTag (UInt64.ofNat n)
  | .simple n =>
    if n = 20 then cborWriteBool false
    else if n = 21 then cborWriteBool true
    else if n = 22 then cborWriteNull
    else cborWriteHeader cborTypeSimpleFloat (UInt64.ofNat n)
def writeItems : List Item → W Unit
  | [] => Pure.pure ()
  | i :: is => do
    writeItems is
    writeItem i
def writeEntries : List (Item × Item) → W Unit
  | [] => Pure.pure ()
  | e :: es => do
    writeEntries es
    writePair e
/-- The value is written before the key. -/
def writePair : Item × Item → W Unit
  | (k, v) => do
    writeItem v
    writeItem k
end

mutual
theorem prepends_writeItem : ∀ i : Item, i.Ok → Prepends (writeItem i) (encode i)
  | .int (.ofNat n), h => by
    cases h with
    | int h1 h2 =>
      have e : (UInt64.ofNat n).toNat = n := UInt64.toNat_ofNat_of_lt' (by simp at h2; simp [UInt64.size]; omega)
      have := prepends_cborUInt (UInt64.ofNat n)
      rw [e] at this
      simp only [writeItem]
      exact this
  | .int (.negSucc n), h => by
    cases h with
    | int h1 h2 =>
      simp only [writeItem]
      by_cases hn : n < 2 ^ 63 - 1
      · rw [if_pos hn]
        have e : (Int64.ofInt (Int.negSucc n)).toInt = Int.negSucc n := by
          rw [Int64.toInt_ofInt_of_le] <;> rw [Int.negSucc_eq] <;> omega
        have := prepends_cborInt (Int64.ofInt (Int.negSucc n)) (by
          intro hc; rw [hc, Int.negSucc_eq] at e
          have : Int64.minValue.toInt = -2 ^ 63 := rfl
          omega)
        rw [e] at this; exact this
      · rw [if_neg hn]
        have e : (UInt64.ofNat n).toNat = n :=
          UInt64.toNat_ofNat_of_lt' (by rw [Int.negSucc_eq] at h1; simp [UInt64.size]; omega)
        have := prepends_cborHeader cborTypeNint (UInt64.ofNat n) (by decide)
        rw [e] at this; exact this
  | .bytes b, h => by
    cases h with
    | bytes h =>
      have e : (UInt64.ofNat b.length).toNat = b.length := UInt64.toNat_ofNat_of_lt' h
      have := prepends_cborByteString ⟨UInt64.ofNat b.length, some ⟨[], b⟩⟩ (by intro p hp; cases hp; simp [e]) (by simp)
      simp only [Slice.bytes, e, List.take_length] at this
      rw [writeItem]; exact this
  | .text b, h => by
    cases h with
    | text h =>
      have e : (UInt64.ofNat b.length).toNat = b.length := UInt64.toNat_ofNat_of_lt' h
      have := prepends_cborTextString ⟨UInt64.ofNat b.length, some ⟨[], b⟩⟩ (by intro p hp; cases hp; simp [e]) (by simp)
      simp only [Slice.bytes, e, List.take_length] at this
      rw [writeItem]; exact this
  | .array items, h => by
    cases h with
    | array h hi =>
      have e : (UInt64.ofNat items.length).toNat = items.length := UInt64.toNat_ofNat_of_lt' h
      have h2 := prepends_cborHeader cborTypeArray (UInt64.ofNat items.length) (by decide)
      rw [e] at h2
      rw [writeItem, encode]
      exact (prepends_writeItems items hi).bind h2
  | .map entries, h => by
    cases h with
    | map h hk hv =>
      have e : (UInt64.ofNat entries.length).toNat = entries.length := UInt64.toNat_ofNat_of_lt' h
      have h2 := prepends_cborHeader cborTypeMap (UInt64.ofNat entries.length) (by decide)
      rw [e] at h2
      rw [writeItem, encode]
      exact (prepends_writeEntries entries hk hv).bind h2
  | .tag n i, h => by
    cases h with
    | tag h hi =>
      have e : (UInt64.ofNat n).toNat = n := UInt64.toNat_ofNat_of_lt' h
      have h2 := prepends_cborHeader cborTypeTag (UInt64.ofNat n) (by decide)
      rw [e] at h2
      rw [writeItem, encode]
      exact (prepends_writeItem i hi).bind h2
  | .simple n, h => by
    cases h with
    | simple h =>
      have e : (UInt64.ofNat n).toNat = n := UInt64.toNat_ofNat_of_lt' (by simp [UInt64.size]; omega)
      have h2 := prepends_cborHeader cborTypeSimpleFloat (UInt64.ofNat n) (by decide)
      rw [e] at h2
      rw [writeItem, encode]
      by_cases h20 : n = 20
      · subst h20; exact h2
      · rw [if_neg h20]
        by_cases h21 : n = 21
        · subst h21; exact h2
        · rw [if_neg h21]
          by_cases h22 : n = 22
          · subst h22; exact h2
          · rw [if_neg h22]; exact h2
theorem prepends_writeItems : ∀ l : List Item, (∀ i ∈ l, i.Ok) → Prepends (writeItems l) (encodeList l)
  | [], _ => Prepends.pure
  | i :: is, h => by
    rw [writeItems, encodeList]
    exact (prepends_writeItems is (fun j hj => h j (by simp [hj]))).bind (prepends_writeItem i (h i (by simp)))
theorem prepends_writeEntries : ∀ l : List (Item × Item), (∀ e ∈ l, e.1.Ok) → (∀ e ∈ l, e.2.Ok) →
    Prepends (writeEntries l) (encodeEntries l)
  | [], _, _ => Prepends.pure
  | e :: es, hk, hv => by
    rw [writeEntries, encodeEntries]
    exact (prepends_writeEntries es (fun j hj => hk j (by simp [hj])) (fun j hj => hv j (by simp [hj]))).bind
      (prepends_writePair e (hk e (by simp)) (hv e (by simp)))
theorem prepends_writePair : ∀ e : Item × Item, e.1.Ok → e.2.Ok → Prepends (writePair e) (encodePair e)
  | (k, v), hk, hv => by
    rw [writePair, encodePair]
    exact (prepends_writeItem v hv).bind (prepends_writeItem k hk)
end

/-- **C23.** Every tree of items, written with the CBOR functions as the header file prescribes, decodes to that tree,
whatever follows. -/
theorem C23_structures (i : Item) (h : i.Ok) :
    ∃ bs, Prepends (writeItem i) bs ∧ ∀ rest, decode (bs ++ rest) = some (i, rest) :=
  ⟨_, prepends_writeItem i h, decode_encode i h⟩

/-- **C23.** In particular different trees are written as different bytes, and one is not a prefix of the other. -/
theorem C23_injective (i j : Item) (hi : i.Ok) (hj : j.Ok) (bi bj ri rj : Bytes)
    (h1 : Prepends (writeItem i) bi) (h2 : Prepends (writeItem j) bj) (hli : bi.length < 2 ^ 64) (hlj : bj.length < 2 ^ 64)
    (h : bi ++ ri = bj ++ rj) : i = j := by
  have e1 := h1.unique (prepends_writeItem i hi) hli
  have e2 := h2.unique (prepends_writeItem j hj) hlj
  have d1 := decode_encode i hi ri
  have d2 := decode_encode j hj rj
  rw [e1, h] at d1
  rw [e2] at d2
  rw [d1] at d2
  exact (Prod.mk.inj (Option.some.inj d2)).1

/-- Non-vacuity of C23: a tagged map with a nested array. -/
example :
    let i : Item := .tag 55799 (.map [(.int 1, .array [.text [0x61], .simple 21]), (.int (-300), .bytes [1, 2])])
    i.Ok ∧ encode i = [0xd9, 0xd9, 0xf7, 0xa2, 0x01, 0x82, 0x61, 0x61, 0xf5, 0x39, 0x01, 0x2b, 0x42, 1, 2] := by
  refine ⟨?_, by decide +kernel⟩
  refine .tag (by decide) (.map (by decide) ?_ ?_)
  · intro e he; simp at he
    rcases he with rfl | rfl
    · exact .int (by decide) (by decide)
    · exact .int (by decide) (by decide)
  · intro e he; simp at he
    rcases he with rfl | rfl
    · refine .array (by decide) ?_
      intro i hi; simp at hi
      rcases hi with rfl | rfl
      · exact .text (by decide)
      · exact .simple (by decide)
    · exact .bytes (by decide)

end Nat20
