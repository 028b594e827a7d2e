import Verif.Lemmas.Footprint
/-!
# Lemmas: the programs do what the functions of `Model/Arena` do
-/

namespace Nat20

/-! ## SHA-2 -/

section
variable {w : Nat} (P : ShaCode w)

theorem run_round (j : Nat) (t1 : BitVec w) (R : Vector (BitVec w) 8) (m : Memory) : (shaRoundP P j t1 R).run m = .ok (⟨shaRound P j t1 R, roundT1 P j t1 R⟩, m) := by
  unfold shaRoundP
  rw [run_bind (run_touch _ m)]
  rfl

theorem run_rounds16 (W : Vector (BitVec w) 16) (R : Vector (BitVec w) 8) (m : Memory) (n : Nat) (h : n ≤ 16) :
    ∃ t1, (shaRounds16P P W R n).run m = .ok (⟨shaRounds16 P W R n, t1⟩, m) := by
  induction n with
  | zero => exact ⟨_, rfl⟩
  | succ j ih =>
    obtain ⟨t1, ih⟩ := ih (by omega)
    rw [shaRounds16P, run_bind ih, run_branch, if_pos (by omega), run_bind (run_touch _ m), run_round]
    exact ⟨_, rfl⟩

theorem run_roundsExt (s : Vector (BitVec w) 16 × MainVars w) (m : Memory) (n : Nat) (h : n ≤ P.rounds - 16) :
    ∃ t1, (shaRoundsExtP P s n).run m = .ok (((shaRoundsExt P (s.1, s.2.R) n).1, ⟨(shaRoundsExt P (s.1, s.2.R) n).2, t1⟩), m) := by
  induction n with
  | zero => exact ⟨_, rfl⟩
  | succ n ih =>
    obtain ⟨t1, ih⟩ := ih (by omega)
    rw [shaRoundsExtP, run_bind ih, run_branch, if_pos (by omega), run_bind (run_touch _ m)]
    simp only
    rw [run_bind (run_round P _ _ _ m)]
    exact ⟨_, rfl⟩

theorem erase_octets (v : MainVars w) : ∀ b ∈ v.erase.octets, b = 0 := by
  have hz : ∀ b ∈ wordOctets (0 : BitVec w), b = 0 := by
    intro b hb
    unfold wordOctets at hb
    obtain ⟨i, -, rfl⟩ := List.mem_map.1 hb
    simp
  have hr : ∀ x ∈ (eraseR v.R 8).toList, x = 0 := by
    intro x hx
    obtain ⟨i, hi, rfl⟩ := List.getElem_of_mem hx
    have hi' : i < 8 := by simpa using hi
    have : i = 0 ∨ i = 1 ∨ i = 2 ∨ i = 3 ∨ i = 4 ∨ i = 5 ∨ i = 6 ∨ i = 7 := by omega
    rcases this with h | h | h | h | h | h | h | h <;> subst h <;> simp [eraseR, Vector.getElem_setIfInBounds]
  intro b hb
  unfold MainVars.erase MainVars.octets at hb
  rcases List.mem_append.1 hb with hb | hb
  · obtain ⟨x, hx, hb⟩ := List.mem_flatMap.1 hb
    rw [hr x hx] at hb
    exact hz b hb
  · exact hz b hb

theorem bury_zeros (m : Memory) (b : Bytes) (h : ∀ x ∈ b, x = 0) : m.bury b = m := by
  unfold Memory.bury
  rw [List.filter_eq_nil_iff.2 (fun x hx => by simp [h x hx]), List.append_nil]
  funext r
  unfold Memory.set
  split
  · next hr => rw [hr]
  · rfl

/-- The compression function leaves nothing of its variables. -/
theorem run_main (s : ShaState w) (m : Memory) : (shaMainP P s).run m = .ok (shaMain P s, m) := by
  obtain ⟨t1, h1⟩ := run_rounds16 P s.W s.H m 16 (Nat.le_refl _)
  obtain ⟨t2, h2⟩ := run_roundsExt P (s.W, ⟨shaRounds16 P s.W s.H 16, t1⟩) m _ (Nat.le_refl _)
  unfold shaMainP
  rw [run_bind (run_touch _ m), run_bind h1, run_bind h2, run_bind (run_touch _ m), run_bind (run_touch _ m)]
  simp only [Prog.run.eq_8]
  rw [bury_zeros _ _ (erase_octets _)]
  rfl

theorem run_shiftIn (s : ShaState w) (j : Nat) (b : UInt8) (m : Memory) : (shaShiftInP P s j b).run m = (shaShiftIn P s j b).map fun s => (s, m) := by
  unfold shaShiftInP shaShiftIn
  rw [run_bind (run_touch _ m)]
  split
  · rfl
  · rfl

theorem get_tail (m : Memory) (a : Addr) (b : UInt8) (l : Bytes) (h : m.tail a = b :: l) : m.get a = some b ∧ m.tail (a.plus 1) = l := by
  unfold Memory.tail at h
  unfold Memory.get Memory.tail Addr.plus
  constructor
  · rw [← Nat.add_zero a.off, ← List.getElem?_drop, h]
    rfl
  · show ((m a.region).drop (a.off + 1)) = l
    rw [← List.drop_drop, h]
    rfl

theorem plus_plus (a : Addr) (i j : Nat) : (a.plus i).plus j = a.plus (i + j) := by simp only [Addr.plus, Nat.add_assoc]

theorem plus_zero (a : Addr) : a.plus 0 = a := rfl

theorem fill_rest (l : Bytes) : ∀ (s : ShaState w) (j : Nat) (x : ShaState w × Nat × Bytes), shaFill P s j l = .ok x →
    x.2.2.length ≤ l.length ∧ x.2.2 = l.drop (l.length - x.2.2.length) := by
  induction l with
  | nil => intro s j x h; rw [shaFill] at h; cases h; exact ⟨Nat.le_refl _, rfl⟩
  | cons c l ih =>
    intro s j x h
    rw [shaFill] at h
    split at h
    · obtain ⟨s1, -, h2⟩ := ok_of_bind h
      obtain ⟨h3, h4⟩ := ih _ _ _ h2
      refine ⟨by simp only [List.length_cons]; omega, ?_⟩
      rw [List.length_cons, show l.length + 1 - x.2.2.length = (l.length - x.2.2.length) + 1 from by omega, List.drop_succ_cons]
      exact h4
    · cases h
      exact ⟨Nat.le_refl _, by simp⟩

theorem run_fill (m : Memory) (n : Nat) : ∀ (s : ShaState w) (j : Nat) (a : Addr), n ≤ (m.tail a).length →
    (shaFillP P s j a n).run m = (shaFill P s j ((m.tail a).take n)).map fun x => ((x.1, x.2.1, a.plus (n - x.2.2.length), x.2.2.length), m) := by
  induction n with
  | zero =>
    intro s j a _
    rw [shaFillP, run_branch, List.take_zero, shaFill]
    split <;> rfl
  | succ n ih =>
    intro s j a hn
    cases ht : m.tail a with
    | nil => rw [ht] at hn; simp at hn
    | cons b l =>
      obtain ⟨hg, hl⟩ := get_tail m a b l ht
      have hnl : n ≤ l.length := by rw [ht] at hn; simpa using hn
      rw [shaFillP, run_branch, List.take_succ_cons, shaFill]
      by_cases hj : j < P.block
      · rw [if_pos ⟨hj, by omega⟩, if_pos hj]
        simp only [Prog.run, hg]
        rw [bind_eq, run_seq, run_shiftIn]
        cases hs : shaShiftIn P s j b with
        | error u => rfl
        | ok s' =>
          simp only [Except.map, Except.bind, bind]
          rw [ih s' (j + 1) (a.plus 1) (by rw [hl]; exact hnl), hl]
          cases hf : shaFill P s' (j + 1) (l.take n) with
          | error u => rfl
          | ok x =>
            have h1 := (fill_rest P _ _ _ _ hf).1
            have h2 : (l.take n).length = n := by rw [List.length_take]; omega
            simp only [Except.map]
            rw [plus_plus, show 1 + (n - x.2.2.length) = n + 1 - x.2.2.length from by omega]
      · rw [if_neg (fun h => hj h.1), if_neg hj]
        simp only [Except.map, Prog.run]
        have : (b :: l.take n).length = n + 1 := by rw [List.length_cons, List.length_take]; omega
        rw [this, Nat.sub_self]
        rfl

theorem tail_plus (m : Memory) (a : Addr) (k : Nat) : m.tail (a.plus k) = (m.tail a).drop k := by
  unfold Memory.tail Addr.plus
  simp only [List.drop_drop]

theorem run_updateLoop (m : Memory) (fuel : Nat) : ∀ (s : ShaState w) (a : Addr) (n : Nat), n ≤ (m.tail a).length →
    (shaUpdateLoopP P fuel s a n).run m = (shaUpdateLoop P fuel s ((m.tail a).take n)).map fun s => (s, m) := by
  induction fuel with
  | zero => intro s a n _; rfl
  | succ fuel ih =>
    intro s a n hn
    have hlen : ((m.tail a).take n).length = n := by rw [List.length_take]; omega
    rw [shaUpdateLoopP, shaUpdateLoop, run_branch]
    by_cases h0 : n = 0
    · subst h0
      rw [if_neg (by omega), if_pos (by simp)]
      rfl
    · rw [if_pos (by omega), if_neg (fun h => h0 (by rw [h] at hlen; simpa using hlen.symm)), bind_eq, run_seq, run_fill P m n _ _ _ hn]
      cases hf : shaFill P s s.fill.toNat ((m.tail a).take n) with
      | error u => rfl
      | ok x =>
        obtain ⟨h1, h2⟩ := fill_rest P _ _ _ _ hf
        rw [hlen] at h1 h2
        simp only [Except.map, Except.bind, bind]
        rw [run_branch]
        split
        · rfl
        · rw [← bind_eq, run_bind (run_main P _ m), ih _ _ _ (by rw [tail_plus, List.length_drop]; omega), tail_plus]
          have h3 : ((m.tail a).drop (n - x.2.2.length)).take x.2.2.length = x.2.2 := by
            conv => rhs; rw [h2]
            rw [List.drop_take, show n - (n - x.2.2.length) = x.2.2.length from by omega]
          rw [h3]
          rfl

theorem run_update (m : Memory) (s s' : ShaState w) (x : MSlice) (h : shaUpdate P (some s) (x.fetch m) = .ok (some s')) :
    (shaUpdateP P s x).run m = .ok (s', m) := by
  unfold shaUpdateP
  simp only [Prog.run]
  cases ha : x.addr with
  | none =>
    simp only [shaUpdate, MSlice.fetch, ha, Option.map_none] at h
    cases h
    rfl
  | some a =>
    simp only [shaUpdate, MSlice.fetch, ha, Option.map_some] at h
    split at h
    · cases h
    · next hl =>
      obtain ⟨y, h1, h2⟩ := ok_of_bind h
      cases h2
      simp only
      rw [run_updateLoop P m _ _ a _ (by omega), h1]
      rfl

theorem run_shiftLoop (m : Memory) (f : Nat → UInt8) (n : Nat) : ∀ (i : Nat) (s : ShaState w),
    (shaShiftLoopP P f n i s).run m = (shaShiftLoop P f n i s).map fun s => (s, m) := by
  induction n with
  | zero => intro i s; rfl
  | succ n ih =>
    intro i s
    rw [shaShiftLoopP, shaShiftLoop]
    simp only [Prog.run]
    rw [bind_eq, run_seq, run_shiftIn]
    cases shaShiftIn P s i (f i) with
    | error u => rfl
    | ok s' => exact ih _ _

theorem run_finishBlock (m : Memory) (s : ShaState w) (i : Nat) : (shaFinishBlockP P s i).run m = (shaFinishBlock P s i).map fun x => (x, m) := by
  unfold shaFinishBlockP shaFinishBlock
  rw [run_branch]
  split
  · rw [bind_eq, run_seq, run_shiftLoop]
    cases shaShiftLoop P (fun _ => 0) (P.block - i) i s with
    | error u => rfl
    | ok s' =>
      simp only [Except.map, Except.bind, bind]
      rw [← bind_eq, run_bind (run_main P _ m)]
      rfl
  · rfl

/-! ## Writing -/

theorem write_cons (m : Memory) (a : Addr) (b : UInt8) (l : Bytes) (h : a.off < (m a.region).length) : m.write a (b :: l) = (m.poke a b).write (a.plus 1) l := by
  funext r
  unfold Memory.write Memory.poke Memory.set Addr.plus
  by_cases hr : r = a.region
  · subst hr
    simp only [if_true, List.length_cons]
    generalize m a.region = l0 at h
    have e1 : (l0.set a.off b).take (a.off + 1) = l0.take a.off ++ [b] := by
      rw [List.set_eq_take_append_cons_drop, if_pos h, List.take_append, List.length_take, Nat.min_eq_left (by omega), List.take_of_length_le (by simp; omega),
        Nat.add_sub_cancel_left]
      rfl
    have e2 : (l0.set a.off b).drop (a.off + 1 + l.length) = l0.drop (a.off + (l.length + 1)) := by
      rw [List.drop_set_of_lt (by omega)]
      congr 1
      omega
    rw [e1, e2]
    simp
  · simp [hr]

theorem get_isSome_of_lt (m : Memory) (a : Addr) (h : a.off < (m a.region).length) : ∃ b, m.get a = some b := ⟨_, List.getElem?_eq_getElem h⟩

theorem run_store {α : Type} (m : Memory) (a : Addr) (b : UInt8) (k : Prog α) (h : a.off < (m a.region).length) : (Prog.store a b k).run m = k.run (m.poke a b) := by
  obtain ⟨c, hc⟩ := get_isSome_of_lt m a h
  simp only [Prog.run, hc]

theorem run_load {α : Type} (m : Memory) (a : Addr) (b : UInt8) (k : UInt8 → Prog α) (h : m.get a = some b) : (Prog.load a k).run m = (k b).run m := by
  simp only [Prog.run, h]

theorem run_output (H : Vector (BitVec w) 8) (out : Addr) (n : Nat) : ∀ (i : Nat) (m : Memory), out.off + i + n ≤ (m out.region).length →
    (shaOutputP P H out n i).run m = .ok ((), m.write (out.plus i) ((List.range' i n).map (shaDigestByte P H))) := by
  induction n with
  | zero => intro i m _; simp only [shaOutputP, Prog.run, List.range'_zero, List.map_nil, write_nil]
  | succ n ih =>
    intro i m h
    rw [shaOutputP]
    simp only [Prog.run.eq_5]
    rw [run_store m (out.plus i) _ _ (by simp only [Addr.plus]; omega), ih (i + 1) _ (by rw [poke_length]; omega), List.range'_succ, List.map_cons,
      write_cons m (out.plus i) _ _ (by simp only [Addr.plus]; omega), plus_plus]

theorem run_finalize (m : Memory) (s : ShaState w) (out : Option Addr) (n : Nat) (r : Option (ShaState w) × Option Bytes)
    (h : shaFinalize P (some s) (out.map m.tail) n = .ok r) : ∃ s', r.1 = some s' ∧ (shaFinalizeP P s out n).run m = .ok (s', m.put out r.2) := by
  unfold shaFinalize at h
  simp only at h
  obtain ⟨s0, h0, h⟩ := ok_of_bind h
  obtain ⟨x, h1, h⟩ := ok_of_bind h
  obtain ⟨s2, h2, h⟩ := ok_of_bind h
  obtain ⟨s3, h3, h⟩ := ok_of_bind h
  unfold shaFinalizeP
  refine ⟨shaMain P s3, ?_⟩
  rw [run_bind (m' := m) (x := s0) (by rw [run_shiftIn, h0]; rfl), run_bind (m' := m) (x := x) (by rw [run_finishBlock, h1]; rfl),
    run_bind (m' := m) (x := s2) (by rw [run_shiftLoop, h2]; rfl), run_bind (m' := m) (x := s3) (by rw [run_shiftLoop, h3]; rfl),
    run_bind (run_main P _ m)]
  cases out with
  | none => simp at h
  | some a =>
    simp only [Option.map_some] at h
    split at h
    · cases h
    · next hl =>
      cases h
      refine ⟨rfl, ?_⟩
      have hl' : a.off + 0 + n ≤ (m a.region).length ∨ n = 0 := by
        simp only [Memory.tail, List.length_drop] at hl
        omega
      simp only
      rw [put_write m a _ n (by simp)]
      rcases hl' with hl' | h0
      · rw [run_bind (run_output P _ a n 0 m hl'), List.range_eq_range', plus_zero]
        rfl
      · subst h0
        rw [run_bind (m' := m) (x := ()) rfl, List.range_zero, List.map_nil, write_nil]
        rfl

end

theorem run_wipe (a : Addr) (n : Nat) : ∀ (i : Nat) (m : Memory), a.off + i + n ≤ (m a.region).length →
    (wipeP a n i).run m = .ok ((), m.write (a.plus i) (List.replicate n 0)) := by
  induction n with
  | zero => intro i m _; simp only [wipeP, Prog.run, List.replicate_zero, write_nil]
  | succ n ih =>
    intro i m h
    rw [wipeP, run_store m (a.plus i) _ _ (by simp only [Addr.plus]; omega), ih (i + 1) _ (by rw [poke_length]; omega), List.replicate_succ,
      write_cons m (a.plus i) _ _ (by simp only [Addr.plus]; omega), plus_plus]

/-- Erasing a whole local array. -/
theorem run_wipe_all (r : Region) (n : Nat) (m : Memory) (h : (m r).length = n) : (wipeP ⟨r, 0⟩ n 0).run m = .ok ((), m.wipe r) := by
  rw [run_wipe ⟨r, 0⟩ n 0 m (by simp only; omega)]
  congr 2
  funext x
  simp only [plus_zero, Memory.write, Memory.wipe, Memory.set, memzero, List.take_zero, List.nil_append, List.length_replicate, Nat.zero_add]
  split
  · next hx =>
    subst hx
    rw [List.drop_of_length_le (by omega), List.append_nil, h]
  · rfl

theorem tail_poke_other (m : Memory) (a x : Addr) (b : UInt8) (h : a.region ≠ x.region) : (m.poke x b).tail a = m.tail a := Memory.tail_set _ _ _ _ h

theorem run_copy (dst src : Addr) (hne : src.region ≠ dst.region) (n : Nat) : ∀ (i : Nat) (m : Memory), dst.off + i + n ≤ (m dst.region).length →
    i + n ≤ (m.tail src).length → (copyP dst src n i).run m = .ok ((), m.write (dst.plus i) (((m.tail src).drop i).take n)) := by
  induction n with
  | zero => intro i m _ _; simp only [copyP, Prog.run, List.take_zero, write_nil]
  | succ n ih =>
    intro i m h1 h2
    cases ht : (m.tail src).drop i with
    | nil => have := congrArg List.length ht; rw [List.length_drop, List.length_nil] at this; omega
    | cons b l =>
      rw [← tail_plus] at ht
      obtain ⟨hg, hl⟩ := get_tail m (src.plus i) b l ht
      rw [plus_plus, tail_plus] at hl
      rw [copyP, run_load m _ b _ hg, run_store m (dst.plus i) _ _ (by simp only [Addr.plus]; omega),
        ih (i + 1) _ (by rw [poke_length]; omega) (by rw [tail_poke_other m src (dst.plus i) b hne]; omega), tail_poke_other m src (dst.plus i) b hne, hl, List.take_succ_cons,
        write_cons m (dst.plus i) _ _ (by simp only [Addr.plus]; omega), plus_plus]

theorem tail_poke_later (m : Memory) (a : Addr) (b : UInt8) (i j : Nat) (h : i < j) : (m.poke (a.plus i) b).tail (a.plus j) = m.tail (a.plus j) := by
  unfold Memory.poke Memory.tail Addr.plus
  simp only [Memory.set_same]
  rw [List.drop_set_of_lt (by omega)]

theorem run_xor (a : Addr) (x : UInt8) (n : Nat) : ∀ (i : Nat) (m : Memory), i + n ≤ (m.tail a).length →
    (xorP a x n i).run m = .ok ((), m.write (a.plus i) ((((m.tail a).drop i).take n).map (· ^^^ x))) := by
  induction n with
  | zero => intro i m _; simp only [xorP, Prog.run, List.take_zero, List.map_nil, write_nil]
  | succ n ih =>
    intro i m h
    have hlen : a.off + i < (m a.region).length := by simp only [Memory.tail, List.length_drop] at h; omega
    cases ht : (m.tail a).drop i with
    | nil => have := congrArg List.length ht; rw [List.length_drop, List.length_nil] at this; omega
    | cons b l =>
      rw [← tail_plus] at ht
      obtain ⟨hg, hl⟩ := get_tail m (a.plus i) b l ht
      rw [plus_plus] at hl
      have hk : ((m.poke (a.plus i) (b ^^^ x)).tail a).drop (i + 1) = l := by
        rw [← tail_plus, tail_poke_later m a _ i (i + 1) (by omega), hl]
      rw [xorP]
      simp only [Prog.run.eq_5]
      rw [run_load m _ b _ hg, run_store m (a.plus i) _ _ hlen, ih (i + 1) _ (by
          simp only [Memory.tail, List.length_drop] at h ⊢
          rw [poke_length]
          omega), hk, List.take_succ_cons, List.map_cons, write_cons m (a.plus i) _ _ hlen, plus_plus]

/-! ## digest -/

theorem run_digestUpdate (m : Memory) (alg : UInt32) (st st' : DigestState) (x : MSlice) (h : digestUpdate alg st (x.fetch m) = .ok st') :
    (digestUpdateP alg st x).run m = .ok (st', m) := by
  have hsome : ∀ {w : Nat} (P : ShaCode w) (s : ShaState w) (y : Slice) (r : Option (ShaState w)), shaUpdate P (some s) y = .ok r → ∃ s', r = some s' := by
    intro w P s y r hr
    unfold shaUpdate at hr
    split at hr
    · next heq _ =>
      cases heq
      split at hr
      · cases hr
      · obtain ⟨z, -, h2⟩ := ok_of_bind hr
        cases h2
        exact ⟨_, rfl⟩
    · cases hr
      exact ⟨_, rfl⟩
  unfold digestUpdate at h
  unfold digestUpdateP
  rw [run_branch]
  split
  · next hc =>
    rw [if_pos hc] at h
    obtain ⟨r, h1, h2⟩ := ok_of_bind h
    obtain ⟨s', rfl⟩ := hsome _ _ _ _ h1
    cases h2
    rw [run_bind (run_update sha256Code m _ s' x h1)]
    rfl
  · next hc =>
    rw [if_neg hc] at h
    obtain ⟨r, h1, h2⟩ := ok_of_bind h
    obtain ⟨s', rfl⟩ := hsome _ _ _ _ h1
    cases h2
    rw [run_bind (run_update sha512Code m _ s' x h1)]
    rfl

theorem run_digestList (m : Memory) (alg : UInt32) (n : Nat) : ∀ (l : List MSlice) (st : DigestState) (x : N20Error × DigestState),
    digestListAt m alg n l st = .ok x → (digestListP alg n l st).run m = .ok (x, m) := by
  induction n with
  | zero => intro l st x h; rw [digestListAt] at h; cases h; rw [digestListP]; rfl
  | succ n ih =>
    intro l st x h
    cases l with
    | nil => rw [digestListAt] at h; cases h
    | cons s rest =>
      rw [digestListAt] at h
      rw [digestListP]
      simp only [Prog.run.eq_5]
      rw [run_branch]
      split
      · next h0 => rw [if_pos h0] at h; exact ih _ _ _ h
      · next h0 =>
        rw [if_neg h0] at h
        rw [run_branch]
        cases ha : s.addr with
        | none =>
          rw [ha] at h
          cases h
          rw [if_pos rfl]
          rfl
        | some a =>
          rw [ha] at h
          obtain ⟨st', h1, h2⟩ := ok_of_bind h
          rw [if_neg (by simp), run_bind (run_digestUpdate m alg st st' s h1)]
          exact ih _ _ _ h2

theorem run_digestGather (m : Memory) (alg : UInt32) (g : MList) (st : DigestState) (x : N20Error × DigestState) (h : digestGatherAt m alg g st = .ok x) :
    (digestGatherP alg g st).run m = .ok (x, m) := by
  unfold digestGatherAt at h
  unfold digestGatherP
  cases hl : g.list with
  | none =>
    rw [hl] at h
    simp only at h ⊢
    rw [run_branch]
    split
    · next h0 => rw [if_pos h0] at h; cases h; rfl
    · next h0 => rw [if_neg h0] at h; cases h
  | some l =>
    rw [hl] at h
    exact run_digestList m alg _ l st x h

theorem run_digestLists (m : Memory) (alg : UInt32) (n : Nat) : ∀ (l : List MList) (st : DigestState) (x : N20Error × DigestState),
    digestListsAt m alg n l st = .ok x → (digestListsP alg n l st).run m = .ok (x, m) := by
  induction n with
  | zero => intro l st x h; rw [digestListsAt] at h; cases h; rw [digestListsP]; rfl
  | succ n ih =>
    intro l st x h
    cases l with
    | nil => rw [digestListsAt] at h; cases h
    | cons g rest =>
      rw [digestListsAt] at h
      rw [digestListsP]
      simp only [Prog.run.eq_5]
      obtain ⟨r, h1, h2⟩ := ok_of_bind h
      rw [run_bind (run_digestGather m alg g st r h1), run_branch]
      split
      · next h0 => rw [if_pos h0] at h2; exact ih _ _ _ h2
      · next h0 => rw [if_neg h0] at h2; cases h2; rfl

theorem run_digestFinalize (m : Memory) (alg : UInt32) (st : DigestState) (out : Option Addr) (o : DigestState × Option Bytes)
    (h : digestFinalizeAt alg st (out.map m.tail) = .ok o) : (digestFinalizeP alg st out).run m = .ok (o.1, m.put out o.2) := by
  have h256 : ∀ (n : Nat) (r : Option (ShaState 32) × Option Bytes), shaFinalize sha256Code (some st.sha256) (out.map m.tail) n = .ok r →
      (digestFinalizeP.finalize256 st out n).run m = .ok ({ st with sha256 := r.1.getD st.sha256 }, m.put out r.2) := by
    intro n r hr
    obtain ⟨s', h1, h2⟩ := run_finalize _ m _ out n r hr
    unfold digestFinalizeP.finalize256
    rw [run_bind h2, h1]
    rfl
  have h512 : ∀ (n : Nat) (r : Option (ShaState 64) × Option Bytes), shaFinalize sha512Code (some st.sha512) (out.map m.tail) n = .ok r →
      (digestFinalizeP.finalize512 st out n).run m = .ok ({ st with sha512 := r.1.getD st.sha512 }, m.put out r.2) := by
    intro n r hr
    obtain ⟨s', h1, h2⟩ := run_finalize _ m _ out n r hr
    unfold digestFinalizeP.finalize512
    rw [run_bind h2, h1]
    rfl
  unfold digestFinalizeAt at h
  unfold digestFinalizeP
  rw [run_branch]
  split
  · next h0 =>
    rw [if_pos h0] at h
    obtain ⟨r, h1, h2⟩ := ok_of_bind h
    cases h2
    exact h256 28 r h1
  next h0 =>
  rw [if_neg h0] at h
  rw [run_branch]
  split
  · next h0 =>
    rw [if_pos h0] at h
    obtain ⟨r, h1, h2⟩ := ok_of_bind h
    cases h2
    exact h256 32 r h1
  next h0 =>
  rw [if_neg h0] at h
  rw [run_branch]
  split
  · next h0 =>
    rw [if_pos h0] at h
    obtain ⟨r, h1, h2⟩ := ok_of_bind h
    cases h2
    exact h512 48 r h1
  next h0 =>
  rw [if_neg h0] at h
  obtain ⟨r, h1, h2⟩ := ok_of_bind h
  cases h2
  exact h512 64 r h1

theorem run_digestMessage (m : Memory) (st : DigestState) (alg : UInt32) (msg : Option (List MList)) (count : UInt64) (out : Option Addr) (size : UInt64)
    (x : MReply × DigestState) (h : digestMessageAt m st alg msg count out size = .ok x) :
    (digestMessageP st alg msg count out size).run m = .ok ((⟨x.1.err, x.1.size⟩, x.2), x.1.mem) := by
  unfold digestMessageAt at h
  unfold digestMessageP
  match msg with
  | none => cases h; rfl
  | some [] => cases h
  | some (g :: gs) =>
    simp only at h
    simp only [Prog.run.eq_5]
    rw [run_branch]
    split
    · next h0 => rw [if_pos h0] at h; cases h; rfl
    · next h0 =>
      rw [if_neg h0] at h
      obtain ⟨r, h1, h2⟩ := ok_of_bind h
      rw [run_bind (run_digestLists m alg _ _ st r h1), run_branch]
      split
      · next h3 =>
        rw [if_pos h3] at h2
        obtain ⟨o, h4, h5⟩ := ok_of_bind h2
        cases h5
        rw [run_bind (run_digestFinalize m alg r.2 out o h4)]
        rfl
      · next h3 => rw [if_neg h3] at h2; cases h2; rfl

theorem run_digestInternal (m : Memory) (st : DigestState) (alg : UInt32) (msg : Option (List MList)) (count : UInt64) (out : Option Addr) (size : Option UInt64)
    (x : MReply × DigestState) (h : digestInternalAt m st alg msg count out size = .ok x) :
    (digestInternalP st alg msg count out size).run m = .ok ((⟨x.1.err, x.1.size⟩, x.2), x.1.mem) := by
  unfold digestInternalAt at h
  unfold digestInternalP
  simp only [Prog.run.eq_5]
  cases hi : digestInit st alg with
  | none => rw [hi] at h; cases h; rfl
  | some st =>
    rw [hi] at h
    simp only [Prog.run.eq_5]
    cases size with
    | none => cases h; rfl
    | some sz =>
      simp only at h ⊢
      rw [run_branch]
      split
      · next h0 => rw [if_pos h0] at h; cases h; rfl
      · next h0 => rw [if_neg h0] at h; exact run_digestMessage m st alg msg count out sz x h

/-- The program of `digest` does what `digestAt` does. -/
theorem run_digest (m : Memory) (alg : UInt32) (msg : Option (List MList)) (count : UInt64) (out : Option Addr) (size : Option UInt64) (x : MReply)
    (h : digestAt m alg msg count out size = .ok x) : (digestP alg msg count out size).run m = .ok (⟨x.err, x.size⟩, x.mem) := by
  unfold digestAt at h
  obtain ⟨r, h1, h2⟩ := ok_of_bind h
  cases h2
  unfold digestP
  rw [run_bind (run_digestInternal m DigestState.zero alg msg count out size r h1)]
  rfl

/-! ## hmac -/

theorem write_zero (m : Memory) (r : Region) (b : Bytes) : m.write ⟨r, 0⟩ b = m.set r (b ++ (m r).drop b.length) := by
  funext x
  unfold Memory.write Memory.set
  simp only [List.take_zero, List.nil_append, Nat.zero_add]
  split
  · next h => subst h; rfl
  · rfl

theorem run_withSecret (r : Region) (n : Nat) (body : Prog PReply) (f : Memory → Except UB MReply) (m : Memory) (hr : m r = [])
    (hb : ∀ y, f (m.set r (List.replicate n 0)) = .ok y → body.run (m.set r (List.replicate n 0)) = .ok (⟨y.err, y.size⟩, y.mem)) (x : MReply)
    (h : m.withSecret r (List.replicate n 0) f = .ok x) : (withSecretP r n body).run m = .ok (⟨x.err, x.size⟩, x.mem) := by
  unfold Memory.withSecret at h
  obtain ⟨y, h1, h2⟩ := ok_of_bind h
  cases h2
  unfold withSecretP
  simp only [Prog.run.eq_6]
  rw [run_bind (hb y h1), hr]
  rfl

/-- No accesses but to places that may be anything, and no local arrays. -/
theorem digest_length (alg : UInt32) (msg : Option (List MList)) (count : UInt64) (out : Option Addr) (size : Option UInt64) (m m' : Memory) (x : PReply)
    (h : (digestP alg msg count out size).run m = .ok (x, m')) (r : Region) (hr : r ≠ .stack) : (m' r).length = (m r).length :=
  within_length (L := fun _ => True) (S := fun _ => True) (A := fun _ => False) (within_digest alg msg count out size (fun _ _ => trivial) fun _ _ => trivial) m m' x h r id hr

theorem run_xorKey (m : Memory) (block : UInt64) (x : UInt8) (h : block.toNat ≤ (m .key).length) : (xorP keyAddr x block.toNat 0).run m = .ok ((), m.xorKey block x) := by
  rw [run_xor keyAddr x _ 0 m (by show 0 + _ ≤ (m.tail ⟨.key, 0⟩).length; rw [Memory.tail_zero]; omega), plus_zero]
  congr 2
  show m.write ⟨.key, 0⟩ _ = _
  rw [write_zero]
  unfold Memory.xorKey hmacXor
  rw [show m.tail keyAddr = m .key from Memory.tail_zero m .key, List.drop_zero, List.length_map, List.length_take, Nat.min_eq_left h]

theorem run_hmacKey (m : Memory) (alg : UInt32) (key : MSlice) (hk : key.NotHmac) (block ds : UInt64) (x : MReply) (h : hmacKeyAt m alg key block ds = .ok x) :
    (hmacKeyP alg key block ds).run m = .ok (⟨x.err, x.size⟩, x.mem) := by
  unfold hmacKeyAt at h
  unfold hmacKeyP
  rw [run_branch]
  split
  · next hc =>
    rw [if_pos hc] at h
    obtain ⟨r, h1, h2⟩ := ok_of_bind h
    cases h2
    rw [run_bind (run_digest m alg _ 1 _ _ r h1)]
    rfl
  · next hc =>
    rw [if_neg hc] at h
    obtain ⟨K, h1, h2⟩ := ok_of_bind h
    cases h2
    cases ha : key.addr with
    | none =>
      simp only [memcpy, MSlice.fetch, ha, Option.map_none] at h1
      cases h1
    | some a =>
      simp only [memcpy, MSlice.fetch, ha, Option.map_some, UInt64.toNat_zero] at h1
      split at h1
      · cases h1
      next hl =>
      split at h1
      · cases h1
      next hd =>
      cases h1
      simp only
      rw [run_bind (run_copy keyAddr a (hk a ha).1 _ 0 m (by show 0 + 0 + _ ≤ (m .key).length; omega) (by omega)), plus_zero]
      show Except.ok _ = _
      congr 2
      show m.write ⟨.key, 0⟩ _ = _
      rw [write_zero, List.drop_zero, List.length_take, Nat.min_eq_left (by omega), List.take_zero, List.nil_append, Nat.zero_add]

theorem hmacBlock_le (alg : UInt32) : (hmacBlock alg).toNat ≤ 128 := by
  unfold hmacBlock
  split <;> decide

theorem run_hmacBody (m : Memory) (hK : (m .key).length = 128) (alg : UInt32) (ds : UInt64) (msg : Option MList) (out : Option Addr) (size : UInt64)
    (x : MReply) (h : hmacBodyAt m alg (hmacBlock alg) ds msg out size = .ok x) : (hmacBodyP alg (hmacBlock alg) ds msg out size).run m = .ok (⟨x.err, x.size⟩, x.mem) := by
  have hb := hmacBlock_le alg
  unfold hmacBodyAt at h
  simp only at h
  unfold hmacBodyP
  rw [run_bind (run_xorKey m (hmacBlock alg) 0x36 (by omega))]
  unfold hmacMessageP
  cases msg with
  | none => cases h; rfl
  | some g =>
    simp only at h ⊢
    simp only [Prog.run.eq_5]
    rw [run_branch]
    split
    · next h0 => rw [if_pos h0] at h; cases h; rfl
    · next h0 =>
      rw [if_neg h0] at h
      obtain ⟨r, h1, h2⟩ := ok_of_bind h
      have hrun := run_digest _ alg _ 2 _ _ r h1
      rw [run_bind hrun, run_branch]
      have hlen : (r.mem .key).length = 128 := by
        rw [digest_length _ _ _ _ _ _ _ _ hrun .key (by simp)]
        unfold Memory.xorKey hmacXor
        rw [Memory.set_same, List.length_append, List.length_map, List.length_take, List.length_drop]
        omega
      split
      · next h3 =>
        rw [if_pos h3] at h2
        unfold hmacOuterP
        rw [run_bind (run_xorKey r.mem (hmacBlock alg) 0x6a (by omega))]
        exact run_digest _ alg _ 2 _ _ x h2
      · next h3 => rw [if_neg h3] at h2; cases h2; rfl

theorem run_hmacInternal (m : Memory) (hK : (m .key).length = 128) (alg : UInt32) (key : MSlice) (hk : key.NotHmac) (msg : Option MList) (out : Option Addr) (size : Option UInt64)
    (x : MReply) (h : hmacInternalAt m alg key msg out size = .ok x) : (hmacInternalP alg key msg out size).run m = .ok (⟨x.err, x.size⟩, x.mem) := by
  unfold hmacInternalAt at h
  unfold hmacInternalP
  rw [run_branch]
  split
  · next h0 => rw [if_pos h0] at h; cases h; rfl
  next h0 =>
  rw [if_neg h0] at h
  simp only [Prog.run.eq_5]
  cases size with
  | none => cases h; rfl
  | some sz =>
    simp only at h ⊢
    rw [run_branch]
    split
    · next h1 => rw [if_pos h1] at h; cases h; rfl
    next h1 =>
    rw [if_neg h1] at h
    rw [run_branch]
    split
    · next h2 => rw [if_pos h2] at h; cases h; rfl
    next h2 =>
    rw [if_neg h2] at h
    obtain ⟨r, h3, h4⟩ := ok_of_bind h
    have hrun := run_hmacKey m alg key hk _ _ r h3
    have hlen : (r.mem .key).length = 128 := by
      rw [within_length (L := fun _ => True) (S := fun _ => True) (A := fun _ => False) (within_hmacKey (fun _ => trivial) alg key (fun _ _ => trivial) _ _ rfl) m r.mem _ hrun .key id (by simp), hK]
    unfold hmacStartP
    rw [run_bind hrun, run_branch]
    split
    · next h5 => rw [if_pos h5] at h4; exact run_hmacBody r.mem hlen alg _ msg out sz x h4
    · next h5 => rw [if_neg h5] at h4; cases h4; rfl

/-- The program of `hmac` does what `hmacAt` does. -/
theorem run_hmac (m : Memory) (hK : m .key = []) (hI : m .inner = []) (alg : UInt32) (key : MSlice) (hk : key.NotHmac) (msg : Option MList) (out : Option Addr)
    (size : Option UInt64) (x : MReply) (h : hmacAt m alg key msg out size = .ok x) : (hmacP alg key msg out size).run m = .ok (⟨x.err, x.size⟩, x.mem) := by
  refine run_withSecret .key 128 _ _ m hK (fun y hy => ?_) x h
  refine run_withSecret .inner 64 _ _ _ (by rw [Memory.set_other _ _ _ _ (by simp), hI]) (fun z hz => ?_) y hy
  unfold hmacWiped at hz
  obtain ⟨r, h1, h2⟩ := ok_of_bind hz
  cases h2
  have hlen : (((m.set .key (List.replicate 128 0)).set .inner (List.replicate 64 0)) .key).length = 128 := by
    rw [Memory.set_other _ _ _ _ (by simp), Memory.set_same, List.length_replicate]
  have hrun := run_hmacInternal _ hlen alg key hk msg out size r h1
  have hw := fun (q : Region) (hq : q ≠ .stack) => within_length (L := fun _ => True) (S := fun _ => True) (A := fun _ => False)
    (within_hmacInternal (fun _ => trivial) (fun _ => trivial) (fun _ => trivial) (fun _ => trivial) alg key (fun _ _ => trivial) msg (fun _ _ => trivial) out (fun _ _ => trivial) size)
    _ r.mem _ hrun q id hq
  unfold hmacWipedP
  have hk1 : (wipeP keyAddr 128 0).run r.mem = .ok ((), r.mem.wipe .key) := run_wipe_all .key 128 r.mem ((hw .key (by simp)).trans hlen)
  have hk2 : (wipeP innerAddr 64 0).run (r.mem.wipe .key) = .ok ((), (r.mem.wipe .key).wipe .inner) := run_wipe_all .inner 64 _ (by
    rw [wipe_other _ _ _ (by simp), hw .inner (by simp), Memory.set_same, List.length_replicate])
  rw [run_bind hrun, run_bind hk1, run_bind hk2]
  rfl

/-- `hmac` leaves nothing in the place of its local arrays. -/
theorem hmacAt_key (m : Memory) (alg : UInt32) (key : MSlice) (msg : Option MList) (out : Option Addr) (size : Option UInt64) (x : MReply)
    (h : hmacAt m alg key msg out size = .ok x) : x.mem .key = m .key ∧ x.mem .inner = m .inner := by
  unfold hmacAt Memory.withSecret at h
  obtain ⟨y, h1, h2⟩ := ok_of_bind h
  cases h2
  obtain ⟨z, h3, h4⟩ := ok_of_bind h1
  cases h4
  simp only [Memory.bury]
  refine ⟨Memory.set_same _ _ _, ?_⟩
  rw [Memory.set_other _ _ _ _ (by simp), Memory.set_other _ _ _ _ (by simp), Memory.set_same, Memory.set_other _ _ _ _ (by simp)]

theorem hmac_length' (m m' : Memory) (alg : UInt32) (key : MSlice) (msg : Option MList) (out : Option Addr) (size : Option UInt64) (x : PReply)
    (h : (hmacP alg key msg out size).run m = .ok (x, m')) (r : Region) (hr : r ≠ .stack ∧ r ≠ .key ∧ r ≠ .inner) : (m' r).length = (m r).length :=
  within_length (L := fun _ => True) (S := fun _ => True) (A := fun r => r = .key ∨ r = .inner)
    (within_hmac (fun _ => trivial) (fun _ => trivial) (fun _ => trivial) (fun _ => trivial) (.inl rfl) (.inr rfl) alg key (fun _ _ => trivial) msg (fun _ _ => trivial) out (fun _ _ => trivial) size)
    m m' x h r (fun h => by rcases h with h | h <;> simp [h] at hr) hr.1

/-- The program of `hkdf_extract` does what `extractAt` does. -/
theorem run_extract (m : Memory) (hK : m .key = []) (hI : m .inner = []) (alg : UInt32) (ikm salt : MSlice) (hs : salt.NotHmac) (out : Option Addr) (size : Option UInt64)
    (x : MReply) (h : extractAt m alg ikm salt out size = .ok x) : (extractP alg ikm salt out size).run m = .ok (⟨x.err, x.size⟩, x.mem) := by
  unfold extractAt at h
  unfold extractP
  rw [run_branch]
  split
  · next h0 => rw [if_pos h0] at h; cases h; rfl
  next h0 =>
  rw [if_neg h0] at h
  rw [run_branch]
  split
  · next h0 => rw [if_pos h0] at h; cases h; rfl
  next h0 =>
  rw [if_neg h0] at h
  rw [run_branch]
  split
  · next h0 => rw [if_pos h0] at h; cases h; rfl
  next h0 =>
  rw [if_neg h0] at h
  simp only [Prog.run.eq_5]
  cases size with
  | none => cases h; rfl
  | some sz =>
    simp only at h ⊢
    rw [run_branch]
    split
    · next h0 => rw [if_pos h0] at h; cases h; rfl
    next h0 =>
    rw [if_neg h0] at h
    exact run_hmac m hK hI alg salt hs _ out _ x h

/-! ## expand and hkdf -/

/-- No call is active that has local arrays, except `expand` with its counter. -/
structure InExpand (m : Memory) : Prop where
  key : m .key = []
  inner : m .inner = []
  block : m .block = []
  counter : (m .counter).length = 1

theorem inExpand_start (m : Memory) (hK : m .key = []) (hI : m .inner = []) (hB : m .block = []) : InExpand (m.set .counter [1]) :=
  ⟨by rw [Memory.set_other _ _ _ _ (by simp), hK], by rw [Memory.set_other _ _ _ _ (by simp), hI], by rw [Memory.set_other _ _ _ _ (by simp), hB], by rw [Memory.set_same]; rfl⟩

/-- The local variables of the program. -/
def ExpandAt.vars (s : ExpandAt) : ExpandVars := ⟨s.keyOctets, s.digestSize, s.out, s.prev⟩

theorem run_count {α : Type} (m : Memory) (h : (m .counter).length = 1) (k : Prog α) :
    (Prog.load counterAddr fun c => .store counterAddr (c + 1) k).run m = k.run m.count := by
  obtain ⟨c, hc⟩ : ∃ c, m .counter = [c] := by
    match hm : m .counter, h with
    | [c], _ => exact ⟨c, rfl⟩
  rw [run_load m counterAddr c _ (by simp [Memory.get, counterAddr, hc]), run_store m counterAddr _ _ (by simp [counterAddr, hc])]
  congr 1
  simp [Memory.poke, Memory.count, counterAddr, hc]

theorem run_expandStep (alg : UInt32) (prk info : MSlice) (hp : prk.NotHmac) (s t : ExpandAt) (hs : InExpand s.mem) (h : expandStepAt alg prk info s = .ok t) :
    (expandStepP alg prk info s.vars).run s.mem = .ok (t.vars, t.mem) ∧ InExpand t.mem ∧ t.out.region = s.out.region := by
  unfold expandStepAt at h
  obtain ⟨r, h1, h2⟩ := ok_of_bind h
  cases h2
  have hrun := run_hmac s.mem hs.key hs.inner alg prk hp _ _ _ r h1
  have hloc := hmacAt_key _ _ _ _ _ _ _ h1
  have hlen := hmac_length' _ _ _ _ _ _ _ _ hrun
  have hc : (r.mem .counter).length = 1 := (hlen .counter (by simp)).trans hs.counter
  have hb : r.mem .block = [] := List.length_eq_zero_iff.1 (by rw [hlen .block (by simp), hs.block]; rfl)
  refine ⟨?_, ⟨?_, ?_, ?_, ?_⟩, rfl⟩
  · unfold expandStepP
    rw [show hmacP alg prk (some (expandInputAt s.vars.prev info)) (some s.vars.out) (some s.vars.digestSize) = hmacP alg prk (some (expandInputAt s.prev info)) (some s.out) (some s.digestSize) from rfl,
      run_bind hrun, run_count _ hc]
    rfl
  · simp only [Memory.count]; rw [Memory.set_other _ _ _ _ (by simp), hloc.1, hs.key]
  · simp only [Memory.count]; rw [Memory.set_other _ _ _ _ (by simp), hloc.2, hs.inner]
  · simp only [Memory.count]; rw [Memory.set_other _ _ _ _ (by simp), hb]
  · simp only [Memory.count]; rw [Memory.set_same, List.length_map, hc]

theorem run_expandLoop (alg : UInt32) (prk info : MSlice) (hp : prk.NotHmac) (fuel : Nat) : ∀ (s t : ExpandAt), InExpand s.mem → expandLoopAt alg prk info fuel s = .ok t →
    (expandLoopP alg prk info fuel s.vars).run s.mem = .ok (t.vars, t.mem) ∧ InExpand t.mem ∧ t.out.region = s.out.region := by
  induction fuel with
  | zero => intro s t _ h; rw [expandLoopAt] at h; cases h
  | succ fuel ih =>
    intro s t hs h
    rw [expandLoopAt] at h
    rw [expandLoopP, run_branch]
    simp only [show s.vars.keyOctets = s.keyOctets from rfl, show s.vars.digestSize = s.digestSize from rfl]
    split
    · next hc =>
      rw [if_pos hc] at h
      obtain ⟨u, h1, h2⟩ := ok_of_bind h
      obtain ⟨ha, hb, he⟩ := run_expandStep alg prk info hp s u hs h1
      obtain ⟨hx, hy, hz⟩ := ih u t hb h2
      rw [run_bind ha]
      exact ⟨hx, hy, hz.trans he⟩
    · next hc =>
      rw [if_neg hc] at h
      cases h
      exact ⟨rfl, hs, rfl⟩

theorem run_expandLast (alg : UInt32) (prk info prev : MSlice) (hp : prk.NotHmac) (ds n : UInt64) (hn : n > 0) (out : Addr) (ho : out.region ≠ .block) (m : Memory)
    (hk : m .key = []) (hi : m .inner = []) (hb : (m .block).length = 64) (x : MReply) (h : expandLastAt m alg prk info prev ds n out = .ok x) :
    (expandLastP alg prk info prev ds n out).run m = .ok (⟨x.err, x.size⟩, x.mem) := by
  unfold expandLastAt at h
  obtain ⟨r, h1, h2⟩ := ok_of_bind h
  have hrun := run_hmac m hk hi alg prk hp _ _ _ r h1
  have hlen : (r.mem .block).length = 64 := (hmac_length' _ _ _ _ _ _ _ _ hrun .block (by simp)).trans hb
  have hn' : 0 < n.toNat := UInt64.lt_iff_toNat_lt.1 hn
  unfold expandLastP
  rw [run_bind hrun, run_branch]
  split
  · next he =>
    rw [if_pos he] at h2
    obtain ⟨b, h3, h4⟩ := ok_of_bind h2
    cases h4
    simp only [memcpy, UInt64.toNat_zero] at h3
    split at h3
    · cases h3
    next hl =>
    split at h3
    · cases h3
    next hd =>
    cases h3
    have hto : (r.mem.tail out).length = (r.mem out.region).length - out.off := by simp [Memory.tail]
    have hst : r.mem.store out (List.take 0 (r.mem.tail out) ++ List.take n.toNat (r.mem.tail blockAddr) ++ List.drop (0 + n.toNat) (r.mem.tail out)) =
        r.mem.write out ((r.mem.tail blockAddr).take n.toNat) := by
      have := put_write r.mem out ((r.mem.tail blockAddr).take n.toNat) n.toNat (by rw [List.length_take, Nat.min_eq_left (by omega)])
      simp only [Memory.put] at this
      rw [← this, List.take_zero, List.nil_append, Nat.zero_add]
    rw [hst]
    rw [run_bind (run_copy out blockAddr (fun e => ho e.symm) n.toNat 0 r.mem (by omega) (by omega)), plus_zero, List.drop_zero]
    have hw : (wipeP blockAddr 64 0).run (r.mem.write out ((r.mem.tail blockAddr).take n.toNat)) = .ok ((), (r.mem.write out ((r.mem.tail blockAddr).take n.toNat)).wipe .block) :=
      run_wipe_all .block 64 _ (by rw [write_other _ _ _ _ (Ne.symm ho), hlen])
    rw [run_bind hw]
    rfl
  · next he =>
    rw [if_neg he] at h2
    cases h2
    have hw : (wipeP blockAddr 64 0).run r.mem = .ok ((), r.mem.wipe .block) := run_wipe_all .block 64 _ hlen
    rw [run_bind hw]
    rfl

theorem run_expandRest (alg : UInt32) (prk info : MSlice) (hp : prk.NotHmac) (s : ExpandAt) (hs : InExpand s.mem) (ho : s.out.region ≠ .block) (x : MReply)
    (h : expandRestAt alg prk info s = .ok x) : (expandRestP alg prk info s.vars).run s.mem = .ok (⟨x.err, x.size⟩, x.mem) := by
  unfold expandRestAt at h
  unfold expandRestP
  rw [run_branch]
  simp only [show s.vars.keyOctets = s.keyOctets from rfl]
  split
  · next hc =>
    rw [if_pos hc] at h
    refine run_withSecret .block 64 _ _ s.mem hs.block (fun y hy => ?_) x h
    exact run_expandLast alg prk info s.prev hp s.digestSize s.keyOctets hc s.out ho _ (by rw [Memory.set_other _ _ _ _ (by simp), hs.key])
      (by rw [Memory.set_other _ _ _ _ (by simp), hs.inner]) (by rw [Memory.set_same, List.length_replicate]) y hy
  · next hc => rw [if_neg hc] at h; cases h; rfl

/-- The program of `hkdf_expand` does what `hkdfExpandAt` does. -/
theorem run_expand (m : Memory) (hK : m .key = []) (hI : m .inner = []) (hB : m .block = []) (hC : m .counter = []) (alg : UInt32) (prk info : MSlice) (hp : prk.NotHmac) (n : UInt64)
    (out : Option Addr) (ho : ∀ a, out = some a → a.region ≠ .block) (x : MReply) (h : hkdfExpandAt m alg prk info n out = .ok x) :
    (hkdfExpandP alg prk info n out).run m = .ok (⟨x.err, x.size⟩, x.mem) := by
  unfold hkdfExpandAt at h
  unfold hkdfExpandP
  rw [run_branch]
  split
  · next h0 => rw [if_pos h0] at h; cases h; rfl
  next h0 =>
  rw [if_neg h0] at h
  rw [run_branch]
  split
  · next h0 => rw [if_pos h0] at h; cases h; rfl
  next h0 =>
  rw [if_neg h0] at h
  rw [run_branch]
  split
  · next h0 => rw [if_pos h0] at h; cases h; rfl
  next h0 =>
  rw [if_neg h0] at h
  rw [run_branch]
  split
  · next h0 => rw [if_pos h0] at h; cases h; rfl
  next h0 =>
  rw [if_neg h0] at h
  simp only [Prog.run.eq_5]
  cases out with
  | none => cases h; rfl
  | some a =>
    simp only at h ⊢
    unfold Memory.withLocal at h
    obtain ⟨y, h1, h2⟩ := ok_of_bind h
    cases h2
    obtain ⟨s, h3, h4⟩ := ok_of_bind h1
    obtain ⟨ha, hb, hc⟩ := run_expandLoop alg prk info hp _ ⟨n, digestEnumToSize alg, m.set .counter [1], a, ⟨0, none⟩⟩ s
      (inExpand_start m hK hI hB) h3
    have hr := run_expandRest alg prk info hp s hb (by rw [hc]; exact ho a rfl) y h4
    have hbody : (expandBodyP alg prk info n a).run (m.set .counter [1]) = .ok (⟨y.err, y.size⟩, y.mem) := by
      unfold expandBodyP
      rw [show (⟨n, digestEnumToSize alg, a, ⟨0, none⟩⟩ : ExpandVars) = ExpandAt.vars ⟨n, digestEnumToSize alg, m.set .counter [1], a, ⟨0, none⟩⟩ from rfl, run_bind ha]
      exact hr
    simp only [Prog.run.eq_6]
    rw [run_bind hbody, hC]
    rfl

theorem extractAt_key (m : Memory) (alg : UInt32) (ikm salt : MSlice) (out : Option Addr) (size : Option UInt64) (x : MReply)
    (h : extractAt m alg ikm salt out size = .ok x) : x.mem .key = m .key ∧ x.mem .inner = m .inner := by
  unfold extractAt at h
  split at h
  · cases h; exact ⟨rfl, rfl⟩
  split at h
  · cases h; exact ⟨rfl, rfl⟩
  split at h
  · cases h; exact ⟨rfl, rfl⟩
  split at h
  · cases h; exact ⟨rfl, rfl⟩
  split at h
  · cases h; exact ⟨rfl, rfl⟩
  exact hmacAt_key _ _ _ _ _ _ _ h

/-- The program of `hkdf` does what `hkdfAt` does. -/
theorem run_hkdf (m : Memory) (hK : m .key = []) (hI : m .inner = []) (hB : m .block = []) (hC : m .counter = []) (hP : m .prk = []) (alg : UInt32) (ikm salt info : MSlice)
    (hs : salt.NotHmac) (n : UInt64) (out : Option Addr) (ho : ∀ a, out = some a → a.region ≠ .block) (x : MReply) (h : hkdfAt m alg ikm salt info n out = .ok x) :
    (hkdfP alg ikm salt info n out).run m = .ok (⟨x.err, x.size⟩, x.mem) := by
  unfold hkdfAt at h
  unfold hkdfP
  rw [run_branch]
  split
  · next h0 => rw [if_pos h0] at h; cases h; rfl
  next h0 =>
  rw [if_neg h0] at h
  rw [run_branch]
  split
  · next h0 => rw [if_pos h0] at h; cases h; rfl
  next h0 =>
  rw [if_neg h0] at h
  rw [run_branch]
  split
  · next h0 => rw [if_pos h0] at h; cases h; rfl
  next h0 =>
  rw [if_neg h0] at h
  rw [run_branch]
  split
  · next h0 => rw [if_pos h0] at h; cases h; rfl
  next h0 =>
  rw [if_neg h0] at h
  refine run_withSecret .prk 64 _ _ m hP (fun y hy => ?_) x h
  unfold hkdfStepsAt at hy
  obtain ⟨r, h1, h2⟩ := ok_of_bind hy
  have hrun := run_extract _ (by rw [Memory.set_other _ _ _ _ (by simp), hK]) (by rw [Memory.set_other _ _ _ _ (by simp), hI]) alg ikm salt hs _ _ r h1
  have hlen := fun (q : Region) (hq : q ≠ .stack) (h1 : ¬(q = .key ∨ q = .inner)) => within_length (L := fun _ => True) (S := fun _ => True) (A := fun r => r = .key ∨ r = .inner)
    (within_extract (fun _ => trivial) (fun _ => trivial) (fun _ => trivial) (fun _ => trivial) (.inl rfl) (.inr rfl) alg ikm salt (fun _ _ => trivial) (fun _ _ => trivial) _ (fun _ _ => trivial) _)
    _ r.mem _ hrun q h1 hq
  have hkey := extractAt_key _ _ _ _ _ _ _ h1
  unfold hkdfStepsP
  rw [run_bind hrun, run_branch]
  split
  · next he =>
    rw [if_pos he] at h2
    obtain ⟨z, h3, h4⟩ := ok_of_bind h2
    cases h4
    have hrun2 := run_expand r.mem (by rw [hkey.1, Memory.set_other _ _ _ _ (by simp), hK]) (by rw [hkey.2, Memory.set_other _ _ _ _ (by simp), hI])
      (List.length_eq_zero_iff.1 (by rw [hlen .block (by simp) (by simp), Memory.set_other _ _ _ _ (by simp), hB]; rfl))
      (List.length_eq_zero_iff.1 (by rw [hlen .counter (by simp) (by simp), Memory.set_other _ _ _ _ (by simp), hC]; rfl))
      alg _ info (fun a ha => by cases ha; exact ⟨by simp [prkAddr], by simp [prkAddr]⟩) n out ho z h3
    have hlen2 : (z.mem .prk).length = 64 := by
      rw [within_length (L := fun _ => True) (S := fun _ => True) (A := fun r => r = .key ∨ r = .inner ∨ r = .block ∨ r = .counter)
        (within_expand ⟨fun _ _ _ => trivial, fun _ _ _ => trivial, fun _ h => h⟩ alg _ info (fun _ _ => trivial) (fun _ _ => trivial) n out (fun _ _ => trivial) (fun _ _ => trivial))
        _ z.mem _ hrun2 .prk (by simp) (by simp), hlen .prk (by simp) (by simp), Memory.set_same, List.length_replicate]
    have hw : (wipeP prkAddr 64 0).run z.mem = .ok ((), z.mem.wipe .prk) := run_wipe_all .prk 64 _ hlen2
    rw [run_bind hrun2, run_bind hw]
    rfl
  · next he =>
    rw [if_neg he] at h2
    cases h2
    have hw : (wipeP prkAddr 64 0).run r.mem = .ok ((), r.mem.wipe .prk) :=
      run_wipe_all .prk 64 _ (by rw [hlen .prk (by simp) (by simp), Memory.set_same, List.length_replicate])
    rw [run_bind hw]
    rfl

end Nat20
