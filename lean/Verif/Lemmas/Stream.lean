import Verif.Spec.Stream
/-!
# Lemmas about `Prepended` and `Prepends`
-/

namespace Nat20

theorem uint64_lt (x : UInt64) : x.toNat < 2 ^ 64 := x.toNat_lt

theorem Prepended.refl (s : Stream) (h : s.WF) : Prepended s s [] where
  size_eq := rfl
  same_buffer := rfl
  wpo_iff := by have := uint64_lt s.writePosition; simp; intro; omega
  bo_iff := by
    constructor
    · exact Or.inl
    · rintro (h1 | h1)
      · exact h1
      · cases hb : s.bufferOverflow with
        | true => rfl
        | false => obtain ⟨_, _, _, h3⟩ := h.good hb; simp at h1; omega
  count := by simp
  fits := by
    intro _ mem hm
    simp [hm, List.take_append_drop]
  keeps := by intro _ mem hm; exact ⟨mem, hm, rfl⟩
  dead := by intro; rfl

theorem Prepended.trans {s s1 s2 : Stream} {b1 b2 : Bytes} (hw : s.WF) (hw1 : s1.WF)
    (h1 : Prepended s s1 b1) (h2 : Prepended s1 s2 b2) : Prepended s s2 (b2 ++ b1) := by
  have hc1 := h1.count
  have hc2 := h2.count
  have hl := uint64_lt s.size
  have hw_bo := hw.wpo_bo
  have hw1_bo := hw1.wpo_bo
  constructor
  · rw [h2.size_eq, h1.size_eq]
  · rw [h2.same_buffer, h1.same_buffer]
  · rw [h2.wpo_iff, h1.wpo_iff, List.length_append]
    cases hwp : s1.writePositionOverflow with
    | true =>
      have := (h1.wpo_iff).1 hwp
      constructor
      · intro _
        rcases this with h | h
        · exact Or.inl h
        · right; omega
      · intro _; exact Or.inl this
    | false =>
      rw [hc1 hwp]
      have h3 := mt (h1.wpo_iff).2 (by simp [hwp])
      constructor
      · rintro ((h | h) | h)
        · exact Or.inl h
        · right; omega
        · right; omega
      · rintro (h | h)
        · exact Or.inl (Or.inl h)
        · right; omega
  · rw [h2.bo_iff, h1.bo_iff, List.length_append, h1.size_eq]
    cases hwp : s1.writePositionOverflow with
    | true =>
      have := (h1.wpo_iff).1 hwp
      have hb := h1.bo_iff.1 (hw1_bo hwp)
      constructor
      · intro _
        rcases hb with h | h
        · exact Or.inl h
        · right; omega
      · intro _; exact Or.inl hb
    | false =>
      rw [hc1 hwp]
      constructor
      · rintro ((h | h) | h)
        · exact Or.inl h
        · right; omega
        · right; omega
      · rintro (h | h)
        · exact Or.inl (Or.inl h)
        · right; omega
  · intro h
    have h3 : s1.writePositionOverflow = false := by
      cases hx : s1.writePositionOverflow with
      | false => rfl
      | true => rw [(h2.wpo_iff).2 (Or.inl hx)] at h; cases h
    rw [hc2 h, hc1 h3, List.length_append]; omega
  · intro h mem hm
    have h3 : s1.bufferOverflow = false := by
      cases hx : s1.bufferOverflow with
      | false => rfl
      | true => rw [(h2.bo_iff).2 (Or.inl hx)] at h; cases h
    have h4 : s.bufferOverflow = false := by
      cases hx : s.bufferOverflow with
      | false => rfl
      | true => rw [(h1.bo_iff).2 (Or.inl hx)] at h3; cases h3
    have h5 : s1.writePositionOverflow = false := by
      cases hx : s1.writePositionOverflow with
      | false => rfl
      | true => rw [hw1_bo hx] at h3; cases h3
    have hm1 := h1.fits h3 mem hm
    have hm2 := h2.fits h _ hm1
    rw [hm2, h1.size_eq, hc1 h5]
    obtain ⟨mem0, hm0, hsz, hps⟩ := hw.good h4
    obtain rfl : mem0 = mem := by rw [hm0] at hm; exact Option.some.inj hm
    have h6 := mt (h1.bo_iff).2 (by simp [h3])
    have h7 := mt (h2.bo_iff).2 (by simp [h])
    rw [hc1 h5, h1.size_eq] at h7
    have e1 : s.size.toNat - (s.writePosition.toNat + b1.length) - b2.length
        = s.size.toNat - s.writePosition.toNat - (b2 ++ b1).length := by simp; omega
    rw [e1]
    congr 1
    have e2 : s.size.toNat - s.writePosition.toNat - b1.length ≤ mem0.length := by omega
    have e3 : s.size.toNat - (s.writePosition.toNat + b1.length)
        = s.size.toNat - s.writePosition.toNat - b1.length := by omega
    rw [e3]
    have e4 : (mem0.take (s.size.toNat - s.writePosition.toNat - b1.length)).length
        = s.size.toNat - s.writePosition.toNat - b1.length := by simp; omega
    rw [List.append_assoc (mem0.take _), List.take_append_of_le_length (by rw [e4]; simp; omega),
      List.drop_append_of_le_length (by rw [e4]; exact Nat.le_refl _), List.drop_eq_nil_of_le (by rw [e4]; exact Nat.le_refl _),
      List.take_take]
    rw [Nat.min_eq_left (by simp; omega)]
    simp
  · intro h mem hm
    obtain ⟨mem1, hm1, hd1⟩ := h1.keeps h mem hm
    cases hx : s1.bufferOverflow with
    | true => exact ⟨mem1, by rw [h2.dead hx, hm1], hd1⟩
    | false =>
      obtain ⟨mem2, hm2, hd2⟩ := h2.keeps hx mem1 hm1
      refine ⟨mem2, hm2, ?_⟩
      have h5 : s1.writePositionOverflow = false := by
        cases hx' : s1.writePositionOverflow with
        | false => rfl
        | true => rw [hw1_bo hx'] at hx; cases hx
      rw [h1.size_eq, hc1 h5] at hd2
      rw [← hd1]
      have key : ∀ l : Bytes, l.drop (s.size.toNat - s.writePosition.toNat)
          = (l.drop (s.size.toNat - (s.writePosition.toNat + b1.length))).drop
            (s.size.toNat - s.writePosition.toNat - (s.size.toNat - (s.writePosition.toNat + b1.length))) := by
        intro l
        rw [List.drop_drop]
        congr 1; omega
      rw [key mem2, key mem1, hd2]
  · intro h
    have h3 := (h1.bo_iff).2 (Or.inl h)
    rw [h2.dead h3, h1.dead h]

theorem Prepends.pure : Prepends (Pure.pure ()) [] where
  null := rfl
  run s hs := ⟨s, rfl, hs, Prepended.refl s hs⟩

theorem Prepends.bind {w1 w2 : W Unit} {b1 b2 : Bytes} (h1 : Prepends w1 b1) (h2 : Prepends w2 b2) :
    Prepends (do w1; w2) (b2 ++ b1) where
  null := by
    show (w1 none >>= fun p => w2 p.2) = _
    rw [h1.null]; exact h2.null
  run s hs := by
    obtain ⟨s1, e1, hw1, p1⟩ := h1.run s hs
    obtain ⟨s2, e2, hw2, p2⟩ := h2.run s1 hw1
    refine ⟨s2, ?_, hw2, p1.trans hs hw1 p2⟩
    show (w1 (some s) >>= fun p => w2 p.2) = _
    rw [e1]; exact e2

theorem Prepends.congr {w : W Unit} {b b' : Bytes} (h : Prepends w b) (e : b = b') : Prepends w b' := e ▸ h

/-- Reading memory (successfully) before writing does not matter. -/
theorem Prepends.lift_bind {α : Type} {r : Except UB α} {v : α} {f : α → W Unit} {b : Bytes}
    (hr : r = .ok v) (h : Prepends (f v) b) : Prepends (do let x ← (liftM r : W α); f x) b := by
  subst hr; exact h

theorem prepends_streamPrepend {p : Ptr} {len : UInt64} (h : len.toNat ≤ p.data.length) :
    Prepends (streamPrepend (some p) len) (p.data.take len.toNat) where
  null := rfl
  run s hs := by
    have hl := uint64_lt s.writePosition
    have hl2 := uint64_lt len
    have hl3 := uint64_lt s.size
    have hlen : (p.data.take len.toNat).length = len.toNat := by simp; omega
    have hpos : (s.writePosition + len).toNat = (s.writePosition.toNat + len.toNat) % 2 ^ 64 := UInt64.toNat_add ..
    have hlt : decide (s.writePosition + len < s.writePosition) = decide (2 ^ 64 ≤ s.writePosition.toNat + len.toNat) := by
      rw [decide_eq_decide, UInt64.lt_iff_toNat_lt, hpos]
      omega
    have hgt : (s.size < s.writePosition + len) ↔ s.size.toNat < (s.writePosition.toNat + len.toNat) % 2 ^ 64 := by
      rw [UInt64.lt_iff_toNat_lt, hpos]
    unfold streamPrepend
    simp only [hlt]
    by_cases hbo : (s.writePositionOverflow || decide (2 ^ 64 ≤ s.writePosition.toNat + len.toNat)
        || s.bufferOverflow || decide (s.size < s.writePosition + len)) = true
    · rw [if_pos hbo]
      refine ⟨_, rfl, ⟨?_, ?_⟩, ?_⟩
      · intro _; exact hbo
      · intro h; simp only [hbo] at h; cases h
      · simp only [Bool.or_eq_true, decide_eq_true_eq, hgt] at hbo
        constructor
        · rfl
        · rfl
        · simp only [Bool.or_eq_true, decide_eq_true_eq, hlen]
        · simp only [Bool.or_eq_true, decide_eq_true_eq, hlen, hgt]
          constructor
          · intro _
            rcases hbo with ((h | h) | h) | h
            · exact Or.inl (hs.wpo_bo h)
            · right; omega
            · exact Or.inl h
            · right; omega
          · intro _; exact hbo
        · intro h; simp at h
          simp only [hlen, hpos]; omega
        · intro h; exfalso
          simp only [Bool.or_eq_false_iff, decide_eq_false_iff_not, hgt] at h
          obtain ⟨⟨⟨ha, hb⟩, hc⟩, hd⟩ := h
          simp [ha, hc] at hbo
          omega
        · intro _ mem hm; exact ⟨mem, hm, rfl⟩
        · intro _; rfl
    · rw [if_neg hbo]
      simp only [Bool.or_eq_true, decide_eq_true_eq, hgt, not_or, Bool.not_eq_true] at hbo
      obtain ⟨⟨⟨ha, hb⟩, hc⟩, hd⟩ := hbo
      obtain ⟨mem, hm, hsz, hps⟩ := hs.good hc
      have hsub : (s.size - (s.writePosition + len)).toNat = s.size.toNat - (s.writePosition.toNat + len.toNat) := by
        rw [UInt64.toNat_sub_of_le, hpos]
        · rw [Nat.mod_eq_of_lt (by omega)]
        · rw [UInt64.le_iff_toNat_le, hpos]; omega
      have hsum : (s.writePosition.toNat + len.toNat) % 2 ^ 64 = s.writePosition.toNat + len.toNat :=
        Nat.mod_eq_of_lt (by omega)
      rw [hsum] at hd hpos
      have hcpy : memcpy s.begin_ (s.size - (s.writePosition + len)) (some p) len
          = .ok (mem.take (s.size.toNat - s.writePosition.toNat - len.toNat) ++ p.data.take len.toNat
              ++ mem.drop (s.size.toNat - s.writePosition.toNat)) := by
        rw [hm]; simp only [memcpy, hsub]
        rw [if_neg (by omega), if_neg (by omega)]
        congr 3
        · congr 1; omega
        · omega
      rw [hcpy]
      refine ⟨_, rfl, ⟨?_, ?_⟩, ?_⟩
      · simp [ha]; omega
      · intro _
        refine ⟨_, rfl, ?_, ?_⟩
        · simp; omega
        · simp only [hpos]; omega
      · have hgt' : ¬ (s.size < s.writePosition + len) := by
          rw [UInt64.lt_iff_toNat_lt, hpos]; omega
        constructor
        · rfl
        · simp [hm]; omega
        · simp only [ha, hlen]; simp
        · simp [ha, hc]
          constructor
          · rintro (h | h)
            · omega
            · exact absurd h hgt'
          · intro h; omega
        · intro _; simp only [hpos, hlen]
        · intro _ mem' hm'
          rw [hm] at hm'; cases hm'
          simp only [hlen]
        · intro _ mem' hm'
          rw [hm] at hm'; cases hm'
          refine ⟨_, rfl, ?_⟩
          rw [List.drop_append_of_le_length (by simp; omega),
            List.drop_eq_nil_of_le (by simp; omega)]
          rfl
        · intro h; rw [hc] at h; cases h

theorem prepends_local (bs : Bytes) (h : bs.length < 2 ^ 64) : Prepends (prependLocal bs) bs := by
  have e : (UInt64.ofNat bs.length).toNat = bs.length := by
    rw [UInt64.toNat_ofNat_of_lt']; exact h
  have := prepends_streamPrepend (p := ⟨[], bs⟩) (len := UInt64.ofNat bs.length) (by rw [e]; exact Nat.le_refl _)
  rw [e, List.take_of_length_le (Nat.le_refl _)] at this
  exact this

theorem prepends_byte (c : UInt8) : Prepends (prependLocal [c]) [c] := prepends_local [c] (by simp)

theorem streamInit_wf (mem : Bytes) (size : UInt64) (h : size.toNat ≤ mem.length) :
    (streamInit (some mem) size).WF := by
  constructor
  · intro h; cases h
  · intro _; exact ⟨mem, rfl, by simpa [streamInit] using h, by simp [streamInit]⟩

theorem streamInit_null_wf (size : UInt64) : (streamInit none size).WF := by
  constructor
  · intro h; cases h
  · intro h; cases h

end Nat20
