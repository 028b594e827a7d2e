import Verif.Lemmas.Sha2
import Verif.Spec.Stream
/-!
# Buffering, padding and output of the SHA-2 code
-/

namespace Nat20

open Fips Der

/-- `x <<= 8; x |= b;` -/
def shiftByte {w : Nat} (x : BitVec w) (b : UInt8) : BitVec w := (x <<< 8) ||| BitVec.ofNat w b.toNat

theorem or_eq_add {a b i : Nat} (h : b < 2 ^ i) : (2 ^ i * a) ||| b = 2 ^ i * a + b := (Nat.two_pow_add_eq_or_of_lt h a).symm

theorem shiftByte_toNat {w : Nat} (hw : 8 ≤ w) (x : BitVec w) (b : UInt8) :
    (shiftByte x b).toNat = (x.toNat * 256 + b.toNat) % 2 ^ w := by
  have hb : b.toNat < 2 ^ 8 := b.toNat_lt
  obtain ⟨k, rfl⟩ := Nat.exists_eq_add_of_le hw
  have hbw : b.toNat < 2 ^ (8 + k) := Nat.lt_of_lt_of_le hb (Nat.pow_le_pow_right (by decide) hw)
  rw [shiftByte, BitVec.toNat_or, BitVec.toNat_shiftLeft, BitVec.toNat_ofNat, Nat.mod_eq_of_lt hbw, Nat.shiftLeft_eq, Nat.mul_comm]
  rw [Nat.pow_add, Nat.mul_mod_mul_left, or_eq_add hb]
  rw [Nat.add_mod, Nat.mul_mod_mul_left]
  have h1 : x.toNat % 2 ^ k < 2 ^ k := Nat.mod_lt _ (Nat.two_pow_pos k)
  have h2 : 2 ^ 8 * (x.toNat % 2 ^ k) + b.toNat < 2 ^ 8 * 2 ^ k := by
    have : 2 ^ 8 * (x.toNat % 2 ^ k + 1) ≤ 2 ^ 8 * 2 ^ k := Nat.mul_le_mul_left _ h1
    omega
  rw [Nat.mod_eq_of_lt (a := b.toNat) (by rw [← Nat.pow_add]; exact hbw), Nat.mod_eq_of_lt h2]

theorem foldl_shiftByte_toNat {w : Nat} (hw : 8 ≤ w) (l : Bytes) (x : BitVec w) :
    (l.foldl shiftByte x).toNat = (l.foldl (fun acc b => acc * 256 + b.toNat) x.toNat) % 2 ^ w := by
  induction l generalizing x with
  | nil => simp [Nat.mod_eq_of_lt x.isLt]
  | cons b l ih =>
    rw [List.foldl_cons, ih, shiftByte_toNat hw, List.foldl_cons]
    clear ih
    generalize x.toNat * 256 + b.toNat = y
    have key : ∀ (l : Bytes) (a c : Nat), a % 2 ^ w = c % 2 ^ w →
        (l.foldl (fun acc b => acc * 256 + b.toNat) a) % 2 ^ w = (l.foldl (fun acc b => acc * 256 + b.toNat) c) % 2 ^ w := by
      intro l
      induction l with
      | nil => intro a c h; exact h
      | cons b l ih =>
        intro a c h
        apply ih
        rw [Nat.add_mod, Nat.mul_mod, h, ← Nat.mul_mod, ← Nat.add_mod]
    exact key l _ _ (Nat.mod_mod _ _)

theorem foldl_be (l : Bytes) (x : Nat) : l.foldl (fun acc b => acc * 256 + b.toNat) x = x * 256 ^ l.length + fromBE l := by
  induction l generalizing x with
  | nil => simp [fromBE]
  | cons b l ih =>
    have h2 : fromBE (b :: l) = (0 * 256 + b.toNat) * 256 ^ l.length + fromBE l := ih _
    rw [List.foldl_cons, ih, h2]
    simp only [Nat.zero_mul, Nat.zero_add, List.length_cons, Nat.pow_succ, Nat.add_mul]
    rw [Nat.mul_assoc, Nat.mul_comm 256]; omega

/-- After a word's worth of octets nothing of the old value is left. -/
theorem foldl_shiftByte_full (k : Nat) (hk : 1 ≤ k) (l : Bytes) (hl : l.length = k) (x : BitVec (8 * k)) :
    l.foldl shiftByte x = BitVec.ofNat (8 * k) (fromBE l) := by
  apply BitVec.eq_of_toNat_eq
  rw [foldl_shiftByte_toNat (by omega), foldl_be, hl, BitVec.toNat_ofNat]
  have : (256 : Nat) ^ k = 2 ^ (8 * k) := by rw [Nat.pow_mul]
  rw [this, Nat.add_comm, Nat.add_mul_mod_self_right]

section
variable {F : Family} {P : ShaCode F.w} (hP : P.Refines F)

/-- Octets of the `k`-th word. -/
def chunk (F : Family) (buf : Bytes) (k : Nat) : Bytes := (buf.drop (F.wordBytes * k)).take F.wordBytes

/-- The word buffer holds the octets `buf`. -/
def Holds (F : Family) (s : ShaState F.w) (buf : Bytes) : Prop :=
  ∀ k : Nat, (h : k < 16) → ∃ x, s.W[k] = (chunk F buf k).foldl shiftByte x

theorem holds_nil (s : ShaState F.w) : Holds F s [] := by
  intro k hk; exact ⟨s.W[k], by simp [chunk]⟩

include hP in
theorem shift_div (j : Nat) : j >>> P.shift = j / F.wordBytes := by
  rw [Nat.shiftRight_eq_div_pow, hP.shift]

include hP in
theorem shiftIn_ok (s : ShaState F.w) (buf : Bytes) (hb : buf.length < F.blockBytes) (h : Holds F s buf) (b : UInt8) :
    ∃ s', shaShiftIn P s buf.length b = .ok s' ∧ Holds F s' (buf ++ [b]) ∧ s'.H = s.H ∧ s'.total = s.total ∧ s'.fill = s.fill := by
  have hw := hP.wide
  have hpos : 0 < F.wordBytes := by omega
  have hlt : buf.length / F.wordBytes < 16 := Nat.div_lt_of_lt_mul (by rw [Nat.mul_comm]; exact hb)
  have hdm := Nat.div_add_mod buf.length F.wordBytes
  have hml := Nat.mod_lt buf.length hpos
  obtain ⟨q, hq⟩ : ∃ q, buf.length / F.wordBytes = q := ⟨_, rfl⟩
  rw [hq] at hlt hdm
  unfold shaShiftIn
  simp only [shift_div hP, hq]
  rw [dif_pos hlt]
  refine ⟨_, rfl, ?_, rfl, rfl, rfl⟩
  intro k hk
  obtain ⟨x, hx⟩ := h k hk
  refine ⟨x, ?_⟩
  simp only [Vector.getElem_set]
  by_cases hkq : q = k
  · subst hkq
    have hd : F.wordBytes * q ≤ buf.length := by omega
    have : chunk F (buf ++ [b]) q = chunk F buf q ++ [b] := by
      unfold chunk
      rw [List.drop_append_of_le_length hd, List.take_append, List.take_of_length_le (by rw [List.length_drop]; omega),
        List.length_drop]
      congr 1
      rw [List.take_of_length_le]
      simp; omega
    rw [if_pos rfl, this, List.foldl_append, ← hx]
    rfl
  · rw [if_neg hkq, hx]
    congr 1
    unfold chunk
    rcases Nat.lt_or_gt_of_ne hkq with hlt' | hgt
    · have : F.wordBytes * (q + 1) ≤ F.wordBytes * k := Nat.mul_le_mul_left _ hlt'
      rw [Nat.mul_add, Nat.mul_one] at this
      rw [List.drop_eq_nil_of_le (by omega), List.drop_eq_nil_of_le (by simp; omega)]
    · have : F.wordBytes * (k + 1) ≤ F.wordBytes * q := Nat.mul_le_mul_left _ hgt
      rw [Nat.mul_add, Nat.mul_one] at this
      rw [List.drop_append_of_le_length (by omega), List.take_append_of_le_length (by rw [List.length_drop]; omega)]

include hP in
theorem holds_full (s : ShaState F.w) (buf : Bytes) (hb : buf.length = F.blockBytes) (h : Holds F s buf) (t : Nat) (ht : t < 16) :
    s.W[t] = F.word buf t := by
  obtain ⟨x, hx⟩ := h t ht
  rw [hx, Family.word]
  have hw := hP.wide
  refine foldl_shiftByte_full F.wordBytes (by omega) _ ?_ x
  unfold chunk
  rw [List.length_take, List.length_drop, hb, Family.blockBytes]
  have : F.wordBytes * (t + 1) ≤ F.wordBytes * 16 := Nat.mul_le_mul_left _ (by omega)
  rw [Nat.mul_add] at this
  omega

/-! ## Blocks -/

theorem absorb_short (H : F.Hash) (m : Bytes) (h : m.length < F.blockBytes) : F.absorb H m = H := by
  rw [Family.absorb, dif_neg (by omega)]

theorem absorb_block (H : F.Hash) (b m : Bytes) (hb : b.length = F.blockBytes) (hne : F.blockBytes ≠ 0) :
    F.absorb H (b ++ m) = F.absorb (F.compress H b) m := by
  rw [Family.absorb, dif_pos ⟨by rw [List.length_append]; omega, hne⟩, List.take_left' hb, List.drop_left' hb]

theorem absorb_one (H : F.Hash) (b : Bytes) (hb : b.length = F.blockBytes) (hne : F.blockBytes ≠ 0) :
    F.absorb H b = F.compress H b := by
  have h := absorb_block H b [] hb hne
  rw [List.append_nil] at h
  rw [h, absorb_short _ [] (by simp only [List.length_nil]; omega)]

theorem absorb_append (hne : F.blockBytes ≠ 0) (n : Nat) : ∀ (H : F.Hash) (m t : Bytes), m.length = n * F.blockBytes →
    F.absorb H (m ++ t) = F.absorb (F.absorb H m) t := by
  induction n with
  | zero =>
    intro H m t h
    have : m = [] := by simpa using h
    subst this
    rw [absorb_short H [] (by simp; omega)]; rfl
  | succ n ih =>
    intro H m t h
    rw [Nat.add_mul, Nat.one_mul] at h
    have h1 : (m.take F.blockBytes).length = F.blockBytes := by rw [List.length_take]; omega
    have h2 : (m.drop F.blockBytes).length = n * F.blockBytes := by rw [List.length_drop]; omega
    rw [← List.take_append_drop F.blockBytes m, List.append_assoc, absorb_block _ _ _ h1 hne, ih _ _ _ h2,
      absorb_block _ _ _ h1 hne]

/-! ## Update -/

/-- The state after hashing `msg`, starting from the hash value `H0`. -/
structure Rep (F : Family) (H0 : F.Hash) (s : ShaState F.w) (msg : Bytes) : Prop where
  split : ∃ n front tail, msg = front ++ tail ∧ front.length = n * F.blockBytes ∧ tail.length < F.blockBytes ∧
    s.H = F.absorb H0 front ∧ s.fill.toNat = tail.length ∧ Holds F s tail
  total : s.total = UInt64.ofNat msg.length

include hP in
theorem fill_ok (data : Bytes) : ∀ (s : ShaState F.w) (buf : Bytes), buf.length ≤ F.blockBytes → Holds F s buf →
    ∃ s', shaFill P s buf.length data = .ok (s', (buf ++ data.take (F.blockBytes - buf.length)).length,
        data.drop (F.blockBytes - buf.length)) ∧
      Holds F s' (buf ++ data.take (F.blockBytes - buf.length)) ∧ s'.H = s.H ∧ s'.total = s.total := by
  induction data with
  | nil => intro s buf hb h; exact ⟨s, by simp [shaFill], by simpa using h, rfl, rfl⟩
  | cons b data ih =>
    intro s buf hb h
    rw [shaFill, hP.block]
    by_cases hlt : buf.length < F.blockBytes
    · obtain ⟨s1, e1, h1, hH, hT, _⟩ := shiftIn_ok hP s buf hlt h b
      rw [if_pos hlt, e1]
      obtain ⟨s2, e2, h2, hH2, hT2⟩ := ih s1 (buf ++ [b]) (by simp; omega) h1
      have hl : (buf ++ [b]).length = buf.length + 1 := by simp
      rw [hl] at e2 h2
      have hk : F.blockBytes - buf.length = F.blockBytes - (buf.length + 1) + 1 := by omega
      refine ⟨s2, ?_, ?_, hH2.trans hH, hT2.trans hT⟩
      · rw [hk, List.take_succ_cons, List.drop_succ_cons]
        rw [List.append_assoc] at e2
        exact e2
      · rw [hk, List.take_succ_cons]
        rw [List.append_assoc] at h2
        exact h2
    · rw [if_neg hlt]
      have hk : F.blockBytes - buf.length = 0 := by omega
      refine ⟨s, ?_, ?_, rfl, rfl⟩
      · rw [hk]; simp
      · rw [hk]; simpa using h

include hP in
theorem updateLoop_ok (h8 : F.rounds % 8 = 0) (H0 : F.Hash) : ∀ (fuel : Nat) (s : ShaState F.w) (data front tail : Bytes) (n : Nat),
    data.length < fuel → front.length = n * F.blockBytes → tail.length < F.blockBytes → s.H = F.absorb H0 front →
    s.fill.toNat = tail.length → Holds F s tail →
    ∃ s', shaUpdateLoop P fuel s data = .ok s' ∧ s'.total = s.total ∧ ∃ n front' tail', front ++ tail ++ data = front' ++ tail' ∧
      front'.length = n * F.blockBytes ∧ tail'.length < F.blockBytes ∧ s'.H = F.absorb H0 front' ∧ s'.fill.toNat = tail'.length ∧
      Holds F s' tail' := by
  intro fuel
  induction fuel with
  | zero => intro s data front tail n h; omega
  | succ fuel ih =>
    intro s data front tail n hf hn ht hH hfill hh
    rw [shaUpdateLoop]
    by_cases hd : data = []
    · subst hd
      exact ⟨s, by simp, rfl, n, front, tail, by simp, hn, ht, hH, hfill, hh⟩
    · rw [if_neg hd, hfill]
      obtain ⟨s1, e1, h1, hH1, hT1⟩ := fill_ok hP data s tail (by omega) hh
      rw [e1]
      simp only [bind, Except.bind]
      rw [hP.block]
      have hsmall := hP.small
      have hlen : (tail ++ data.take (F.blockBytes - tail.length)).length = tail.length + min (F.blockBytes - tail.length) data.length := by
        rw [List.length_append, List.length_take]
      by_cases hlt : (tail ++ data.take (F.blockBytes - tail.length)).length < F.blockBytes
      · rw [if_pos hlt]
        have htk : data.take (F.blockBytes - tail.length) = data := List.take_of_length_le (by omega)
        refine ⟨_, rfl, hT1, n, front, tail ++ data.take (F.blockBytes - tail.length), by rw [htk, List.append_assoc], hn, hlt,
          hH1.trans hH, ?_, h1⟩
        rw [UInt32.toNat_ofNat']
        exact Nat.mod_eq_of_lt (by omega)
      · rw [if_neg hlt]
        have heq : (tail ++ data.take (F.blockBytes - tail.length)).length = F.blockBytes := by omega
        have hw := hP.wide
        have hne : F.blockBytes ≠ 0 := by unfold Family.blockBytes; omega
        obtain ⟨m1, m2, m3⟩ := main_refines hP h8 s1 _ (fun t ht => holds_full hP s1 _ heq h1 t ht)
        have hdl : data.length ≠ 0 := by simpa using hd
        have hr := ih (shaMain P s1) (data.drop (F.blockBytes - tail.length)) (front ++ (tail ++ data.take (F.blockBytes - tail.length))) []
          (n + 1) (by rw [List.length_drop]; omega) (by rw [List.length_append, heq, hn, Nat.add_mul, Nat.one_mul])
          (by simp; omega) (by
            rw [m1, hH1, hH, absorb_append hne n _ _ _ hn, absorb_one _ _ heq hne])
          (by rw [m2]; rfl) (holds_nil _)
        obtain ⟨s', e', t', n', f', tl', hm, hrest⟩ := hr
        refine ⟨s', e', t'.trans (m3.trans hT1), n', f', tl', ?_, hrest⟩
        rw [← hm]
        simp [List.append_assoc]

include hP in
theorem update_ok (h8 : F.rounds % 8 = 0) (H0 : F.Hash) (s : ShaState F.w) (msg : Bytes) (h : Rep F H0 s msg) (d : Slice)
    (hd : d.Valid) :
    ∃ s', shaUpdate P (some s) d = .ok (some s') ∧ Rep F H0 s' (msg ++ d.bytes) := by
  obtain ⟨size, buf⟩ := d
  cases buf with
  | none => exact ⟨s, rfl, by simpa [Slice.bytes] using h⟩
  | some p =>
    have hl := hd p rfl
    simp only at hl
    obtain ⟨⟨n, front, tail, h1, h2, h3, h4, h5, h6⟩, ht⟩ := h
    obtain ⟨s', e, t, hs⟩ := updateLoop_ok hP h8 H0 (size.toNat + 1) { s with total := s.total + size } (p.data.take size.toNat) front tail n
      (by rw [List.length_take]; omega) h2 h3 h4 h5 h6
    refine ⟨s', ?_, ?_, ?_⟩
    · simp only [shaUpdate]
      rw [if_neg (by omega), e]
      rfl
    · obtain ⟨n', f', t', hm, hrest⟩ := hs
      exact ⟨n', f', t', by rw [h1]; exact hm, hrest⟩
    · rw [t]
      simp only
      rw [ht, List.length_append, Slice.bytes, List.length_take, Nat.min_eq_left hl, UInt64.ofNat_add, UInt64.ofNat_toNat]

/-! ## Finalize -/

include hP in
theorem shiftLoop_ok (f : Nat → UInt8) (n : Nat) : ∀ (s : ShaState F.w) (buf : Bytes), buf.length + n ≤ F.blockBytes → Holds F s buf →
    ∃ s', shaShiftLoop P f n buf.length s = .ok s' ∧ Holds F s' (buf ++ (List.range n).map fun i => f (buf.length + i)) ∧
      s'.H = s.H ∧ s'.total = s.total := by
  induction n with
  | zero => intro s buf _ h; exact ⟨s, rfl, by simpa using h, rfl, rfl⟩
  | succ n ih =>
    intro s buf hb h
    obtain ⟨s1, e1, h1, hH, hT, _⟩ := shiftIn_ok hP s buf (by omega) h (f buf.length)
    obtain ⟨s2, e2, h2, hH2, hT2⟩ := ih s1 (buf ++ [f buf.length]) (by simp; omega) h1
    refine ⟨s2, ?_, ?_, hH2.trans hH, hT2.trans hT⟩
    · rw [shaShiftLoop, e1]
      rw [List.length_append] at e2
      exact e2
    · have : buf ++ [f buf.length] ++ (List.range n).map (fun i => f ((buf ++ [f buf.length]).length + i)) =
          buf ++ (List.range (n + 1)).map fun i => f (buf.length + i) := by
        rw [List.append_assoc, List.range_succ_eq_map]
        simp only [List.map_cons, List.map_map, List.length_append, List.length_singleton]
        congr 1
        rw [List.singleton_append]
        congr 1
        apply List.map_congr_left
        intro i _
        simp only [Function.comp]
        congr 1
        omega
      rw [this] at h2
      exact h2

theorem range_map_const (n : Nat) (b : UInt8) : (List.range n).map (fun _ => b) = List.replicate n b := by
  apply List.ext_getElem <;> simp

/-- The upper octets of a small number are zero. -/
theorem toBE_wide (k n : Nat) (hk : 8 ≤ k) (hn : n < 2 ^ 64) : toBE k n = List.replicate (k - 8) 0 ++ toBE 8 n := by
  apply List.ext_getElem
  · simp [toBE]; omega
  · intro i h1 h2
    simp only [toBE, List.length_map, List.length_range] at h1
    by_cases hi : i < k - 8
    · rw [List.getElem_append_left (by simpa using hi), List.getElem_replicate]
      simp only [toBE, List.getElem_map, List.getElem_range]
      have : n / 256 ^ (k - 1 - i) = 0 := by
        apply Nat.div_eq_of_lt
        refine Nat.lt_of_lt_of_le hn ?_
        rw [show (256 : Nat) = 2 ^ 8 from rfl, ← Nat.pow_mul]
        exact Nat.pow_le_pow_right (by decide) (by omega)
      rw [this]; rfl
    · rw [List.getElem_append_right (by simpa using Nat.le_of_not_lt hi)]
      simp only [toBE, List.getElem_map, List.getElem_range, List.length_replicate]
      congr 3
      omega

include hP in
theorem lengthBytes (total : UInt64) (len : Nat) (hl : len < 2 ^ 61) (ht : total = UInt64.ofNat len) :
    (List.range 8).map (fun i => shaLengthByte P total (P.lengthAt + i)) = toBE 8 (8 * len) := by
  have h8 : (total * 8).toNat = 8 * len := by
    rw [ht, UInt64.toNat_mul, UInt64.toNat_ofNat', show (8 : UInt64).toNat = 8 from rfl, Nat.mod_eq_of_lt (by omega)]
    omega
  apply List.map_congr_left
  intro i hi
  have hi := List.mem_range.1 hi
  have h1 := hP.lengthAt
  have h2 := hP.block
  rw [shaLengthByte, h8, Nat.shiftRight_eq_div_pow, show (256 : Nat) = 2 ^ 8 from rfl, ← Nat.pow_mul]
  congr 4
  omega

theorem getElem_flatten_const {α β : Type} (f : α → List β) (k : Nat) (hk : 0 < k) (hf : ∀ a, (f a).length = k) (l : List α) :
    ∀ i, (l.map f).flatten[i]? = (l[i / k]?).bind fun a => (f a)[i % k]? := by
  induction l with
  | nil => intro i; simp
  | cons a l ih =>
    intro i
    rw [List.map_cons, List.flatten_cons]
    by_cases hi : i < k
    · rw [List.getElem?_append_left (by rw [hf]; exact hi), Nat.div_eq_of_lt hi, Nat.mod_eq_of_lt hi]
      simp
    · have hi' : k ≤ i := Nat.le_of_not_lt hi
      rw [List.getElem?_append_right (by rw [hf]; exact hi'), hf, ih]
      obtain ⟨d, rfl⟩ := Nat.exists_eq_add_of_le hi'
      rw [Nat.add_sub_cancel_left, Nat.add_div_left _ hk, Nat.add_mod_left]
      simp

theorem toBE_length (k n : Nat) : (toBE k n).length = k := by simp [toBE]

include hP in
theorem digest_ok (H : F.Hash) (size : Nat) (hs : size ≤ 8 * F.wordBytes) :
    (List.range size).map (shaDigestByte P H) = (F.output H).take size := by
  have hw := hP.wide
  have hpos : 0 < F.wordBytes := by omega
  apply List.ext_getElem?
  intro i
  by_cases hi : i < size
  · rw [List.getElem?_take_of_lt hi, Family.output, getElem_flatten_const _ F.wordBytes hpos (fun a => toBE_length _ _)]
    have hq : i / F.wordBytes < 8 := Nat.div_lt_of_lt_mul (by rw [Nat.mul_comm]; omega)
    have hm := Nat.mod_lt i hpos
    have hH : (H.toList)[i / F.wordBytes]? = some (H.toList.getD (i / F.wordBytes) 0) := by
      rw [List.getD_eq_getElem?_getD]
      rw [List.getElem?_eq_getElem (by simpa using hq)]; rfl
    rw [hH]
    simp only [List.getElem?_map, List.getElem?_range hi, Option.map_some, Option.bind_some, toBE, List.getElem?_range hm]
    congr 1
    rw [shaDigestByte, shift_div hP, Nat.and_two_pow_sub_one_eq_mod, hP.shift, Nat.shiftRight_eq_div_pow,
      show (256 : Nat) = 2 ^ 8 from rfl, ← Nat.pow_mul]
  · rw [List.getElem?_eq_none (by simp; omega), List.getElem?_eq_none (by rw [List.length_take]; omega)]

include hP in
theorem finalize_ok (h8 : F.rounds % 8 = 0) (H0 : F.Hash) (s : ShaState F.w) (msg : Bytes) (h : Rep F H0 s msg) (hm : msg.length < 2 ^ 61)
    (d : Bytes) (size : Nat) (hs : size ≤ 8 * F.wordBytes) (hd : size ≤ d.length) :
    ∃ s', shaFinalize P (some s) (some d) size =
      .ok (some s', some ((F.output (F.absorb H0 (F.pad msg))).take size ++ d.drop size)) := by
  obtain ⟨⟨n, front, tail, h1, h2, h3, h4, h5, h6⟩, ht⟩ := h
  have hw := hP.wide
  have hb : F.blockBytes = 16 * F.wordBytes := rfl
  have hne : F.blockBytes ≠ 0 := by omega
  have hpl := hP.padLimit
  have hla := hP.lengthAt
  have hbl := hP.block
  obtain ⟨s1, e1, g1, H1, T1, _⟩ := shiftIn_ok hP s tail h3 h6 0x80
  have hlen1 : (tail ++ [0x80]).length = tail.length + 1 := by simp
  -- the end of processing, common to both cases
  have fin : ∀ (s2 : ShaState F.w) (buf pre : Bytes), buf.length ≤ P.lengthAt → Holds F s2 buf → s2.total = s.total →
      s2.H = F.absorb H0 (front ++ pre) → (front ++ pre).length % F.blockBytes = 0 →
      pre ++ buf ++ List.replicate (P.lengthAt - buf.length) 0 ++ toBE 8 (8 * msg.length) =
        tail ++ 0x80 :: (List.replicate (F.zeroCount msg.length) 0 ++ toBE (2 * F.wordBytes) (8 * msg.length)) →
      ∃ s3 s4, shaShiftLoop P (fun _ => 0) (P.lengthAt - buf.length) buf.length s2 = .ok s3 ∧
        shaShiftLoop P (shaLengthByte P s3.total) (P.block - P.lengthAt) P.lengthAt s3 = .ok s4 ∧
        (shaMain P s4).H = F.absorb H0 (F.pad msg) := by
    intro s2 buf pre hbuf hh hT hH hmod heq
    obtain ⟨s3, e3, g3, H3, T3⟩ := shiftLoop_ok hP (fun _ => 0) (P.lengthAt - buf.length) s2 buf (by omega) hh
    rw [range_map_const] at g3
    have hl3 : (buf ++ List.replicate (P.lengthAt - buf.length) 0).length = P.lengthAt := by simp; omega
    obtain ⟨s4, e4, g4, H4, T4⟩ := shiftLoop_ok hP (shaLengthByte P s3.total) (P.block - P.lengthAt) s3
      (buf ++ List.replicate (P.lengthAt - buf.length) 0) (by rw [hl3]; omega) g3
    rw [hl3] at e4 g4
    rw [show P.block - P.lengthAt = 8 by omega, lengthBytes hP s3.total msg.length hm (by rw [T3, hT, ht])] at g4
    refine ⟨s3, s4, e3, e4, ?_⟩
    have hfull : (buf ++ List.replicate (P.lengthAt - buf.length) 0 ++ toBE 8 (8 * msg.length)).length = F.blockBytes := by
      rw [List.length_append, hl3, toBE_length]; omega
    obtain ⟨m1, _, _⟩ := main_refines hP h8 s4 _ (fun t ht => holds_full hP s4 _ hfull g4 t ht)
    rw [m1, H4, H3, hH]
    have hpad : F.pad msg = front ++ pre ++ (buf ++ List.replicate (P.lengthAt - buf.length) 0 ++ toBE 8 (8 * msg.length)) := by
      rw [Family.pad, h1, List.append_assoc front tail, ← h1, ← heq]
      simp [List.append_assoc]
    rw [hpad]
    have hdiv : (front ++ pre).length = (front ++ pre).length / F.blockBytes * F.blockBytes := by
      have := Nat.div_add_mod (front ++ pre).length F.blockBytes
      rw [hmod, Nat.add_zero, Nat.mul_comm] at this
      exact this.symm
    rw [absorb_append hne _ _ _ _ hdiv, absorb_one _ _ hfull hne]
  have hmsg : msg.length = n * F.blockBytes + tail.length := by rw [h1, List.length_append, h2]
  have hmodlen : (msg.length + 1 + 2 * F.wordBytes) % F.blockBytes = (tail.length + 1 + 2 * F.wordBytes) % F.blockBytes := by
    rw [hmsg, show n * F.blockBytes + tail.length + 1 + 2 * F.wordBytes = (tail.length + 1 + 2 * F.wordBytes) + n * F.blockBytes by omega,
      Nat.add_mul_mod_self_right]
  have hbe : toBE (2 * F.wordBytes) (8 * msg.length) = List.replicate (2 * F.wordBytes - 8) 0 ++ toBE 8 (8 * msg.length) :=
    toBE_wide _ _ (by omega) (by omega)
  have done : ∃ s2 i s3 s4, shaFinishBlock P s1 (tail.length + 1) = .ok (s2, i) ∧
      shaShiftLoop P (fun _ => 0) (P.lengthAt - i) i s2 = .ok s3 ∧
      shaShiftLoop P (shaLengthByte P s3.total) (P.block - P.lengthAt) P.lengthAt s3 = .ok s4 ∧
      (shaMain P s4).H = F.absorb H0 (F.pad msg) := by
    unfold shaFinishBlock
    by_cases hc : tail.length + 1 > P.padLimit
    · rw [if_pos hc]
      obtain ⟨s2, e2, g2, H2, T2⟩ := shiftLoop_ok hP (fun _ => 0) (P.block - (tail.length + 1)) s1 (tail ++ [0x80])
        (by rw [hlen1]; omega) g1
      rw [range_map_const] at g2
      rw [hlen1] at e2
      have hfull : (tail ++ [0x80] ++ List.replicate (P.block - (tail.length + 1)) 0).length = F.blockBytes := by
        rw [List.length_append, hlen1, List.length_replicate]; omega
      obtain ⟨m1, m2, m3⟩ := main_refines hP h8 s2 _ (fun t ht => holds_full hP s2 _ hfull g2 t ht)
      obtain ⟨s3, s4, e3, e4, hr⟩ := fin (shaMain P s2) [] (tail ++ [0x80] ++ List.replicate (P.block - (tail.length + 1)) 0)
        (by simp) (holds_nil _) (by rw [m3, T2, T1])
        (by
          rw [m1, H2, H1, h4, absorb_append hne n _ _ _ h2, absorb_one _ _ hfull hne])
        (by rw [List.length_append, hfull, h2]; simp)
        (by
          have hz : F.zeroCount msg.length = (P.block - (tail.length + 1)) + (P.padLimit) := by
            rw [Family.zeroCount, hmodlen]
            by_cases hcc : tail.length + 1 + 2 * F.wordBytes < 2 * F.blockBytes
            · have : (tail.length + 1 + 2 * F.wordBytes) % F.blockBytes = tail.length + 1 + 2 * F.wordBytes - F.blockBytes := by
                rw [Nat.mod_eq_sub_mod (by omega), Nat.mod_eq_of_lt (by omega)]
              rw [this, Nat.mod_eq_of_lt (by omega)]
              omega
            · omega
          rw [hz, hbe]
          simp only [List.append_assoc, List.append_nil, List.nil_append, List.length_nil, List.cons_append, Nat.sub_zero]
          congr 2
          rw [← List.append_assoc, ← List.append_assoc, List.replicate_append_replicate, List.replicate_append_replicate]
          congr 2
          omega)
      exact ⟨shaMain P s2, 0, s3, s4, by rw [e2]; rfl, e3, e4, hr⟩
    · rw [if_neg hc]
      obtain ⟨s3, s4, e3, e4, hr⟩ := fin s1 (tail ++ [0x80]) [] (by rw [hlen1]; omega) g1 T1 (by rw [List.append_nil, H1, h4])
        (by rw [List.append_nil, h2]; simp)
        (by
          have hz : F.zeroCount msg.length = P.padLimit - (tail.length + 1) := by
            rw [Family.zeroCount, hmodlen]
            by_cases hcc : tail.length + 1 = P.padLimit
            · rw [hcc, hpl, Nat.mod_self, Nat.sub_zero, Nat.mod_self]; omega
            · rw [Nat.mod_eq_of_lt (a := tail.length + 1 + 2 * F.wordBytes) (by omega), Nat.mod_eq_of_lt (by omega)]
              omega
          rw [hz, hbe, hlen1]
          simp only [List.append_assoc, List.nil_append, List.cons_append]
          congr 2
          rw [← List.append_assoc, List.replicate_append_replicate]
          congr 2
          omega)
      rw [hlen1] at e3
      exact ⟨s1, tail.length + 1, s3, s4, rfl, e3, e4, hr⟩
  obtain ⟨s2, i, s3, s4, e2, e3, e4, hr⟩ := done
  refine ⟨shaMain P s4, ?_⟩
  simp only [shaFinalize, h5, e1, bind, Except.bind, e2, e3, e4]
  rw [if_neg (by omega), hr, digest_ok hP _ _ hs]

theorem init_rep (H0 : F.Hash) (hne : F.blockBytes ≠ 0) : Rep F H0 (shaInit H0) [] := by
  refine ⟨⟨0, [], [], rfl, by simp, by simp; omega, ?_, rfl, holds_nil _⟩, rfl⟩
  rw [absorb_short _ _ (by simp; omega)]; rfl

end

end Nat20
