import Verif.Lemmas.Arena
import Verif.Spec.Overlap
/-!
# Lemmas: key expansion with any overlap
-/

namespace Nat20

open Fips

def ovT (a : Alg) (m : Memory) (prk info : MSlice) (out : Addr) (k : Nat) : Bytes := (overlapBlocks a m (fun now => prk.bytes now) info out k).1
def ovB (a : Alg) (m : Memory) (prk info : MSlice) (out : Addr) (k : Nat) : Bytes := (overlapBlocks a m (fun now => prk.bytes now) info out k).2

theorem ovT_succ (a : Alg) (m : Memory) (prk info : MSlice) (out : Addr) (k : Nat) : ovT a m prk info out (k + 1) =
    hmac a (prk.bytes (m.write out (ovB a m prk info out k))) (ovT a m prk info out k ++ info.bytes (m.write out (ovB a m prk info out k)) ++ [UInt8.ofNat (k + 1)]) := rfl

theorem ovB_succ (a : Alg) (m : Memory) (prk info : MSlice) (out : Addr) (k : Nat) : ovB a m prk info out (k + 1) = ovB a m prk info out k ++ ovT a m prk info out (k + 1) := rfl

theorem ovT_length (a : Alg) (m : Memory) (prk info : MSlice) (out : Addr) (k : Nat) : (ovT a m prk info out (k + 1)).length = a.size := by
  rw [ovT_succ]; exact hmac_length _ _ _

theorem ovT_length_le (a : Alg) (m : Memory) (prk info : MSlice) (out : Addr) (k : Nat) : (ovT a m prk info out k).length ≤ a.size := by
  cases k with
  | zero => simp [ovT, overlapBlocks]
  | succ k => rw [ovT_length]; exact Nat.le_refl _

theorem ovB_length (a : Alg) (m : Memory) (prk info : MSlice) (out : Addr) (k : Nat) : (ovB a m prk info out k).length = k * a.size := by
  induction k with
  | zero => simp [ovB, overlapBlocks]
  | succ k ih => rw [ovB_succ, List.length_append, ih, ovT_length, Nat.add_mul, Nat.one_mul]

theorem readable_bytes (m : Memory) (s : MSlice) (h : s.Readable m) : (s.bytes m).length = s.size.toNat := by
  unfold MSlice.Readable at h
  unfold MSlice.bytes
  cases hs : s.addr with
  | none => rw [hs] at h; simp only at h; rw [h]; rfl
  | some a => rw [hs] at h; simp only at h ⊢; rw [List.length_take]; omega

section
variable (a : Alg) (m : Memory) (prk info : MSlice) (L : UInt64) (out : Addr)

/-- The state of the loop after `k` blocks. -/
def ovAt (a : Alg) (m : Memory) (prk info : MSlice) (L : UInt64) (out : Addr) (k : Nat) : ExpandAt :=
  ⟨L - UInt64.ofNat (k * a.size), UInt64.ofNat a.size, (m.write out (ovB a m prk info out k)).set .counter [UInt8.ofNat (k + 1)], ⟨out.region, out.off + k * a.size⟩,
    if k = 0 then ⟨0, none⟩ else ⟨UInt64.ofNat a.size, some ⟨out.region, out.off + (k - 1) * a.size⟩⟩⟩

/-- What is assumed of the arguments. -/
structure OverlapArgs (a : Alg) (m : Memory) (prk info : MSlice) (L : UInt64) (out : Addr) : Prop where
  prkOutside : prk.NotExpand
  prkReadable : prk.Readable m
  prkNotNull : prk.addr ≠ none
  prkLength : (prk.bytes m).length < 2 ^ 61
  infoOutside : info.NotExpand
  infoReadable : info.Readable m
  infoLength : 256 + (info.bytes m).length < 2 ^ 61
  outOutside : out.NotExpand
  room : out.off + L.toNat ≤ (m out.region).length

variable {a m prk info L out}

theorem ov_slice (h : OverlapArgs a m prk info L out) (k : Nat) (hk : k * a.size ≤ L.toNat)
    (hN : k ≤ (L.toNat + a.size - 1) / a.size - 1) (b c : Bytes) (s : MSlice) (hs : s.NotExpand) (hr : s.Readable m) :
    s.bytes (((m.write out (ovB a m prk info out k)).set .counter b).set .block c) = s.bytes (m.write out (ovB a m prk info out k)) ∧
    s.Readable (((m.write out (ovB a m prk info out k)).set .counter b).set .block c) := by
  have hroom := h.room
  have hbl := ovB_length a m prk info out k
  have hreg : ∀ p, s.addr = some p → ((m.write out (ovB a m prk info out k)).set .counter b).set .block c p.region = m.write out (ovB a m prk info out k) p.region := by
    intro p hp
    rw [Memory.set_other _ _ _ _ (hs p hp).2.2.1, Memory.set_other _ _ _ _ (hs p hp).2.2.2]
  constructor
  · rw [← fetch_bytes, ← fetch_bytes, fetch_congr _ _ s hreg]
  · refine readable_length m _ s hr fun p hp => ?_
    rw [hreg p hp, write_length _ _ _ (by omega)]

/-- The input of each `hmac` call. -/
theorem ovInput (h : OverlapArgs a m prk info L out) (k : Nat) (hk : k * a.size ≤ L.toNat) (hN : k ≤ (L.toNat + a.size - 1) / a.size - 1) (c : Bytes) :
    let s := ovAt a m prk info L out k
    let g := expandInputAt s.prev info
    let mem := s.mem.set .block c
    g.NotHmac ∧ g.Readable mem ∧ g.bytes mem = ovT a m prk info out k ++ info.bytes (m.write out (ovB a m prk info out k)) ++ [UInt8.ofNat (k + 1)] := by
  have hsl := size_lt a
  have hroom := h.room
  have hszN : (UInt64.ofNat a.size).toNat = a.size := by rw [UInt64.toNat_ofNat']; exact Nat.mod_eq_of_lt hsl
  simp only
  obtain ⟨i1, i2⟩ := ov_slice h k hk hN [UInt8.ofNat (k + 1)] c info h.infoOutside h.infoReadable
  have hc : ∀ M : Memory, M .counter = [UInt8.ofNat (k + 1)] → (⟨1, some counterAddr⟩ : MSlice).bytes M = [UInt8.ofNat (k + 1)] ∧ (⟨1, some counterAddr⟩ : MSlice).Readable M := by
    intro M hM
    simp [MSlice.bytes, MSlice.Readable, counterAddr, hM]
  have hcm : ((m.write out (ovB a m prk info out k)).set .counter [UInt8.ofNat (k + 1)]).set .block c .counter = [UInt8.ofNat (k + 1)] := by
    rw [Memory.set_other _ _ _ _ (by decide), Memory.set_same]
  obtain ⟨c1, c2⟩ := hc _ hcm
  have main : ∀ first : MSlice, first.NotHmac → first.Readable ((ovAt a m prk info L out k).mem.set .block c) →
      first.bytes ((ovAt a m prk info L out k).mem.set .block c) = ovT a m prk info out k →
      (expandInputAt first info).NotHmac ∧ (expandInputAt first info).Readable ((ovAt a m prk info L out k).mem.set .block c) ∧
      (expandInputAt first info).bytes ((ovAt a m prk info L out k).mem.set .block c) =
        ovT a m prk info out k ++ info.bytes (m.write out (ovB a m prk info out k)) ++ [UInt8.ofNat (k + 1)] := by
    intro first f1 f2 f3
    have hsl : (expandInputAt first info).slices = [first, info, ⟨1, some counterAddr⟩] := rfl
    refine ⟨fun s hs => ?_, ⟨by simp [expandInputAt], fun s hs => ?_⟩, ?_⟩
    · simp only [expandInputAt, Option.getD_some, List.mem_cons, List.not_mem_nil, or_false] at hs
      rcases hs with rfl | rfl | rfl
      · exact f1
      · exact fun p hp => ⟨(h.infoOutside p hp).1, (h.infoOutside p hp).2.1⟩
      · intro p hp
        simp only [Option.some.injEq] at hp
        subst hp
        exact ⟨by decide, by decide⟩
    · rw [hsl] at hs
      simp only [List.mem_cons, List.not_mem_nil, or_false] at hs
      rcases hs with rfl | rfl | rfl
      · exact f2
      · exact i2
      · exact c2
    · unfold MList.bytes
      rw [hsl]
      simp only [List.map_cons, List.map_nil, List.flatten_cons, List.flatten_nil, List.append_nil, f3, List.append_assoc]
      rw [show (ovAt a m prk info L out k).mem = (m.write out (ovB a m prk info out k)).set .counter [UInt8.ofNat (k + 1)] from rfl,
        i1, c1]
  cases k with
  | zero =>
    refine main ⟨0, none⟩ (fun p hp => by simp at hp) rfl ?_
    simp [MSlice.bytes, ovT, overlapBlocks]
  | succ k =>
    have hp : (ovAt a m prk info L out (k + 1)).prev = ⟨UInt64.ofNat a.size, some ⟨out.region, out.off + k * a.size⟩⟩ := by simp [ovAt]
    rw [hp]
    have hbl := ovB_length a m prk info out k
    have hTl := ovT_length a m prk info out k
    have hmul : (k + 1) * a.size = k * a.size + a.size := by rw [Nat.add_mul, Nat.one_mul]
    have hreg : (ovAt a m prk info L out (k + 1)).mem.set .block c out.region =
        (m out.region).take out.off ++ (ovB a m prk info out k ++ ovT a m prk info out (k + 1)) ++
          (m out.region).drop (out.off + (k + 1) * a.size) := by
      rw [Memory.set_other _ _ _ _ h.outOutside.2.2.1]
      simp only [ovAt]
      rw [Memory.set_other _ _ _ _ h.outOutside.2.2.2]
      simp only [Memory.write, if_true, ovB_succ, List.length_append, hbl, hTl, hmul]
    have hdrop : ((ovAt a m prk info L out (k + 1)).mem.set .block c out.region).drop (out.off + k * a.size) =
        ovT a m prk info out (k + 1) ++ (m out.region).drop (out.off + (k + 1) * a.size) := by
      have h1 : (List.take out.off (m out.region)).length = out.off := by rw [List.length_take]; omega
      rw [hreg, ← List.append_assoc, List.append_assoc, List.drop_append, List.drop_of_length_le (by rw [List.length_append, h1, hbl]; exact Nat.le_refl _), List.nil_append,
        List.length_append, h1, hbl, Nat.sub_self, List.drop_zero]
    refine main ⟨UInt64.ofNat a.size, some ⟨out.region, out.off + k * a.size⟩⟩ ?_ ?_ ?_
    · intro p hp
      simp only [Option.some.injEq] at hp
      subst hp
      exact ⟨h.outOutside.1, h.outOutside.2.1⟩
    · show (UInt64.ofNat a.size).toNat ≤ (List.drop _ _).length
      rw [hdrop, hszN, List.length_append, hTl]
      omega
    · show (List.drop _ _).take (UInt64.ofNat a.size).toNat = _
      rw [hdrop, hszN, List.take_append_of_le_length (by omega), List.take_of_length_le (by omega)]

/-- Each `hmac` call. -/
theorem ovHmac (h : OverlapArgs a m prk info L out) (k : Nat) (hk : k * a.size ≤ L.toNat) (hN : k ≤ (L.toNat + a.size - 1) / a.size - 1) (c : Bytes) (o : Addr)
    (ho : o.NotHmac) (hor : o.off + a.size ≤ ((ovAt a m prk info L out k).mem.set .block c o.region).length) :
    hmacAt ((ovAt a m prk info L out k).mem.set .block c) (algId a) prk
        (some (expandInputAt (ovAt a m prk info L out k).prev info)) (some o) (some (UInt64.ofNat a.size)) =
      .ok ⟨.ok, ((ovAt a m prk info L out k).mem.set .block c).write o (ovT a m prk info out (k + 1)), some (UInt64.ofNat a.size)⟩ := by
  obtain ⟨g1, g2, g3⟩ := ovInput h k hk hN c
  obtain ⟨p1, p2⟩ := ov_slice h k hk hN [UInt8.ofNat (k + 1)] c prk h.prkOutside h.prkReadable
  have hsl := size_lt a
  have hszN : (UInt64.ofNat a.size).toNat = a.size := by rw [UInt64.toNat_ofNat']; exact Nat.mod_eq_of_lt hsl
  have hbl := block_le_128 a
  have h64 := size_le_64 a
  have hil := h.infoLength
  have hroom := h.room
  have hB := ovB_length a m prk info out k
  have hw : ∀ s : MSlice, s.Readable m → (s.bytes (m.write out (ovB a m prk info out k))).length = (s.bytes m).length := fun s hs => by
    rw [readable_bytes m s hs, readable_bytes _ s (readable_length m _ s hs fun x _ => write_length _ _ _ (by omega) _)]
  have hpw := hw prk h.prkReadable
  have hiw := hw info h.infoReadable
  have hT := ovT_length_le a m prk info out k
  have := hmacAt_ok a ((ovAt a m prk info L out k).mem.set .block c) prk (fun p hp => ⟨(h.prkOutside p hp).1, (h.prkOutside p hp).2.1⟩)
    p2 h.prkNotNull (by rw [show (ovAt a m prk info L out k).mem = (m.write out (ovB a m prk info out k)).set .counter [UInt8.ofNat (k + 1)] from rfl, p1, hpw]; exact h.prkLength)
    _ g1 g2 (by rw [g3]; simp only [List.length_append, List.length_singleton]; omega) o ho hor (UInt64.ofNat a.size) (by rw [hszN]; exact Nat.le_refl _)
  rw [this, g3]
  rw [show (ovAt a m prk info L out k).mem = (m.write out (ovB a m prk info out k)).set .counter [UInt8.ofNat (k + 1)] from rfl, p1,
    ovT_succ]

theorem ovStep (h : OverlapArgs a m prk info L out) (k : Nat) (hk : (k + 1) * a.size ≤ L.toNat) :
    expandStepAt (algId a) prk info (ovAt a m prk info L out k) = .ok (ovAt a m prk info L out (k + 1)) := by
  have hsl := size_lt a
  have hsp := size_pos a
  have hroom := h.room
  have hszN : (UInt64.ofNat a.size).toNat = a.size := by rw [UInt64.toNat_ofNat']; exact Nat.mod_eq_of_lt hsl
  have hmul : (k + 1) * a.size = k * a.size + a.size := by rw [Nat.add_mul, Nat.one_mul]
  have hbl := ovB_length a m prk info out k
  have hN : k ≤ (L.toNat + a.size - 1) / a.size - 1 := by
    have : k + 1 ≤ (L.toNat + a.size - 1) / a.size := by rw [Nat.le_div_iff_mul_le hsp]; omega
    omega
  have hlen : ((ovAt a m prk info L out k).mem out.region).length = (m out.region).length := by
    simp only [ovAt]
    rw [Memory.set_other _ _ _ _ h.outOutside.2.2.2, write_length _ _ _ (by omega)]
  have hc := ovHmac h k (by omega) hN ((ovAt a m prk info L out k).mem .block) ⟨out.region, out.off + k * a.size⟩
    ⟨h.outOutside.1, h.outOutside.2.1⟩ (by rw [Memory.set_self]; simp only [hlen]; omega)
  rw [Memory.set_self] at hc
  unfold expandStepAt
  have hds : (ovAt a m prk info L out k).digestSize = UInt64.ofNat a.size := rfl
  have ho : (ovAt a m prk info L out k).out = ⟨out.region, out.off + k * a.size⟩ := rfl
  rw [hds, ho, hc]
  simp only [bind, Except.bind, Option.getD_some, hszN]
  unfold ovAt
  simp only [Except.ok.injEq, ExpandAt.mk.injEq, true_and]
  refine ⟨?_, ?_, ?_, ?_⟩
  · rw [hmul, UInt64.ofNat_add]
    generalize UInt64.ofNat (k * a.size) = x
    generalize UInt64.ofNat a.size = y
    rw [UInt64.sub_eq_add_neg, UInt64.sub_eq_add_neg, UInt64.sub_eq_add_neg, UInt64.neg_add, UInt64.sub_eq_add_neg, UInt64.add_assoc]
  · unfold Memory.count
    rw [write_set _ ⟨out.region, out.off + k * a.size⟩ _ _ _ h.outOutside.2.2.2, Memory.set_same, Memory.set_set]
    have := write_write m out (ovB a m prk info out k) (ovT a m prk info out (k + 1)) (by omega)
    rw [hbl] at this
    rw [this, ovB_succ]
    congr 1
    simp only [List.map_cons, List.map_nil, List.cons.injEq, and_true]
    exact (UInt8.ofNat_add (k + 1) 1).symm
  · rw [hmul, Nat.add_assoc]
  · simp

theorem ovLoop (h : OverlapArgs a m prk info L out) (n : Nat) : ∀ (k fuel : Nat), n < fuel → (k + n) * a.size ≤ L.toNat → L.toNat < (k + n + 1) * a.size →
    expandLoopAt (algId a) prk info fuel (ovAt a m prk info L out k) = .ok (ovAt a m prk info L out (k + n)) := by
  have hsl := size_lt a
  have hszN : (UInt64.ofNat a.size).toNat = a.size := by rw [UInt64.toNat_ofNat']; exact Nat.mod_eq_of_lt hsl
  have hLlt := L.toNat_lt
  have hkey : ∀ k, k * a.size ≤ L.toNat → (ovAt a m prk info L out k).keyOctets.toNat = L.toNat - k * a.size := by
    intro k hk
    have e : (UInt64.ofNat (k * a.size)).toNat = k * a.size := by rw [UInt64.toNat_ofNat']; exact Nat.mod_eq_of_lt (by omega)
    simp only [ovAt]
    rw [UInt64.toNat_sub_of_le _ _ (UInt64.le_iff_toNat_le.2 (by omega)), e]
  induction n with
  | zero =>
    intro k fuel hf h1 h2
    cases fuel with
    | zero => omega
    | succ fuel =>
      rw [expandLoopAt, if_neg]
      · rfl
      · intro hx
        have := UInt64.le_iff_toNat_le.1 hx
        rw [hkey k (by simpa using h1)] at this
        have hds : (ovAt a m prk info L out k).digestSize = UInt64.ofNat a.size := rfl
        rw [hds, hszN] at this
        simp only [Nat.add_zero, Nat.add_mul, Nat.one_mul] at h1 h2
        omega
  | succ n ih =>
    intro k fuel hf h1 h2
    cases fuel with
    | zero => omega
    | succ fuel =>
      have hk1 : (k + 1) * a.size ≤ L.toNat := Nat.le_trans (Nat.mul_le_mul_right _ (by omega)) h1
      have hmul : (k + 1) * a.size = k * a.size + a.size := by rw [Nat.add_mul, Nat.one_mul]
      rw [expandLoopAt, if_pos]
      · rw [ovStep h k hk1]
        show expandLoopAt (algId a) prk info fuel (ovAt a m prk info L out (k + 1)) = _
        have e : k + (n + 1) = (k + 1) + n := by omega
        rw [e] at h1 h2 ⊢
        exact ih (k + 1) fuel (by omega) h1 h2
      · apply UInt64.le_iff_toNat_le.2
        rw [hkey k (by omega)]
        have hds : (ovAt a m prk info L out k).digestSize = UInt64.ofNat a.size := rfl
        rw [hds, hszN]
        omega

/-- The result of `n20_hkdf_expand`, for every length. -/
theorem ovExpandAt_ok (h : OverlapArgs a m prk info L out) :
    hkdfExpandAt m (algId a) prk info L (some out) =
      .ok ⟨.ok, m.write out ((ovB a m prk info out ((L.toNat + a.size - 1) / a.size)).take L.toNat), none⟩ := by
  have hsl := size_lt a
  have hsp := size_pos a
  have h64 := size_le_64 a
  have hroom := h.room
  have hszN : (UInt64.ofNat a.size).toNat = a.size := by rw [UInt64.toNat_ofNat']; exact Nat.mod_eq_of_lt hsl
  have hLlt := L.toNat_lt
  have h1 : digestEnumToSize (algId a) ≠ 0 := by cases a <;> decide
  have h2 : ¬ (prk.addr = none ∧ prk.size ≠ 0) := fun x => h.prkNotNull x.1
  have h3 : ¬ (info.addr = none ∧ info.size ≠ 0) := by
    rintro ⟨x, y⟩
    have := h.infoReadable
    unfold MSlice.Readable at this
    rw [x] at this
    exact y this
  unfold hkdfExpandAt
  rw [if_neg h1, if_neg h2, if_neg h3]
  by_cases hz : L = 0
  · subst hz
    rw [if_pos rfl]
    simp [write_nil]
  rw [if_neg hz]
  have hLpos : 0 < L.toNat := by
    rcases Nat.eq_zero_or_pos L.toNat with h | h
    · exact absurd (UInt64.toNat_inj.1 h) hz
    · exact h
  obtain ⟨k, r, hk⟩ : ∃ k r, L.toNat = k * a.size + r ∧ r < a.size :=
    ⟨L.toNat / a.size, L.toNat % a.size, by rw [Nat.mul_comm]; exact (Nat.div_add_mod _ _).symm, Nat.mod_lt _ hsp⟩
  obtain ⟨hk, hr⟩ := hk
  have hkle : k ≤ k * a.size := Nat.le_mul_of_pos_right k hsp
  have hloop := ovLoop h k 0 (L.toNat + 1) (by omega) (by rw [Nat.zero_add]; omega) (by rw [Nat.zero_add, Nat.add_mul, Nat.one_mul]; omega)
  have hinit : (⟨L, digestEnumToSize (algId a), m.set .counter [1], out, ⟨0, none⟩⟩ : ExpandAt) = ovAt a m prk info L out 0 := by
    simp [ovAt, digestEnumToSize_algId, ovB, overlapBlocks, write_nil]
  simp only [Memory.withLocal, hinit, hloop, Nat.zero_add, bind, Except.bind]
  have hkey : (ovAt a m prk info L out k).keyOctets.toNat = r := by
    have e : (UInt64.ofNat (k * a.size)).toNat = k * a.size := by rw [UInt64.toNat_ofNat']; exact Nat.mod_eq_of_lt (by omega)
    simp only [ovAt]
    rw [UInt64.toNat_sub_of_le _ _ (UInt64.le_iff_toNat_le.2 (by omega)), e]
    omega
  have hmem : (ovAt a m prk info L out k).mem = (m.write out (ovB a m prk info out k)).set .counter [UInt8.ofNat (k + 1)] := rfl
  have hbl := ovB_length a m prk info out k
  have hrestore : ∀ x : Bytes, (m.write out x).set .counter (m .counter) = m.write out x := by
    intro x
    rw [← write_set _ _ _ _ _ h.outOutside.2.2.2, Memory.set_self]
  unfold expandRestAt
  by_cases hr0 : r = 0
  · subst hr0
    rw [if_neg (by
      intro h
      have := UInt64.lt_iff_toNat_lt.1 h
      rw [hkey] at this
      simp at this)]
    have hN : (L.toNat + a.size - 1) / a.size = k := by
      rw [hk]
      have e : k * a.size + 0 + a.size - 1 = a.size * k + (a.size - 1) := by rw [Nat.mul_comm]; omega
      rw [e, Nat.mul_add_div hsp, Nat.div_eq_of_lt (by omega)]
      rfl
    simp only
    rw [hN, hmem, List.take_of_length_le (by omega), Memory.set_set, hrestore]
  · rw [if_pos (UInt64.lt_iff_toNat_lt.2 (by rw [hkey]; show 0 < r; omega))]
    have hN : (L.toNat + a.size - 1) / a.size = k + 1 := by
      rw [hk]
      have e : k * a.size + r + a.size - 1 = a.size * (k + 1) + (r - 1) := by rw [Nat.mul_add, Nat.mul_comm]; omega
      rw [e, Nat.mul_add_div hsp, Nat.div_eq_of_lt (by omega)]
    have hds : (ovAt a m prk info L out k).digestSize = UInt64.ofNat a.size := rfl
    have hoff : (ovAt a m prk info L out k).out = ⟨out.region, out.off + k * a.size⟩ := rfl
    have hTl := ovT_length a m prk info out k
    have hcall := ovHmac h k (by omega) (by omega) (List.replicate 64 0) blockAddr ⟨by decide, by decide⟩
      (by rw [show blockAddr.region = .block from rfl, Memory.set_same]; simp only [blockAddr, List.length_replicate]; omega)
    -- the memory in which the last block is copied
    have hblock : (((ovAt a m prk info L out k).mem.set .block (List.replicate 64 0)).write blockAddr (ovT a m prk info out (k + 1))) =
        (ovAt a m prk info L out k).mem.set .block (ovT a m prk info out (k + 1) ++ List.replicate (64 - a.size) 0) := by
      funext x
      simp only [Memory.write, Memory.set, blockAddr]
      by_cases hx : x = .block
      · subst hx
        simp only [if_true, List.take_zero, List.nil_append, Nat.zero_add, hTl]
        rw [List.drop_replicate]
      · simp [hx]
    have hout : ∀ b : Bytes, ((ovAt a m prk info L out k).mem.set .block b).tail ⟨out.region, out.off + k * a.size⟩ = (m out.region).drop (out.off + k * a.size) := by
      intro b
      rw [Memory.tail_set _ _ _ ⟨out.region, out.off + k * a.size⟩ h.outOutside.2.2.1, hmem, Memory.tail_set _ _ _ ⟨out.region, out.off + k * a.size⟩ h.outOutside.2.2.2]
      simp only [Memory.tail, Memory.write, if_true]
      have e1 : (List.take out.off (m out.region)).length = out.off := by rw [List.length_take]; omega
      rw [List.drop_append, List.drop_of_length_le (by rw [List.length_append, e1, hbl]; exact Nat.le_refl _), List.nil_append, List.length_append, e1, hbl, Nat.sub_self,
        List.drop_zero]
    have htb : ∀ b : Bytes, ((ovAt a m prk info L out k).mem.set .block b).tail blockAddr = b := by
      intro b
      exact (Memory.tail_zero _ _).trans (Memory.set_same _ _ _)
    simp only [Memory.withSecret, hds, hoff, expandLastAt, hcall, hblock, htb, hout, bind, Except.bind, if_true, memcpy, hkey]
    rw [if_neg (by rw [List.length_append, hTl]; omega), if_neg (by simp only [List.length_drop]; have : (0 : UInt64).toNat = 0 := rfl; omega), hN, ovB_succ]
    simp only [Except.ok.injEq, MReply.mk.injEq, true_and, and_true]
    have t0 : (0 : UInt64).toNat = 0 := rfl
    rw [t0, List.take_zero, List.nil_append, Nat.zero_add]
    have t2 : (ovT a m prk info out (k + 1) ++ List.replicate (64 - a.size) 0).take r = (ovT a m prk info out (k + 1)).take r :=
      List.take_append_of_le_length (by omega)
    have t4 : (ovB a m prk info out k ++ ovT a m prk info out (k + 1)).take L.toNat =
        ovB a m prk info out k ++ (ovT a m prk info out (k + 1)).take r := by
      rw [List.take_append, List.take_of_length_le (by omega), hbl]
      congr 2
      omega
    have hlen : ((ovT a m prk info out (k + 1)).take r).length = r := by rw [List.length_take, hTl]; omega
    rw [t2, t4]
    have hw := put_write ((ovAt a m prk info L out k).mem.set .block (ovT a m prk info out (k + 1) ++ List.replicate (64 - a.size) 0))
      ⟨out.region, out.off + k * a.size⟩ ((ovT a m prk info out (k + 1)).take r) r hlen
    rw [hout] at hw
    simp only [Memory.put] at hw
    rw [bury_wiped, wipe_set, hw, write_set _ ⟨out.region, out.off + k * a.size⟩ _ _ _ h.outOutside.2.2.1, Memory.set_set, hmem, write_set _ ⟨out.region, out.off + k * a.size⟩ _ _ _ h.outOutside.2.2.2]
    have hww := write_write m out (ovB a m prk info out k) ((ovT a m prk info out (k + 1)).take r) (by omega)
    rw [hbl] at hww
    rw [hww]
    rw [Memory.set_other _ .counter .block _ (by decide), write_other _ _ _ _ (Ne.symm h.outOutside.2.2.1), Memory.set_comm _ .counter .block _ _ (by decide), Memory.set_set]
    rw [← write_set _ _ _ _ _ h.outOutside.2.2.1, Memory.set_self, hrestore]

end

end Nat20
