import Verif.Spec.Cost
import Verif.Lemmas.Footprint
/-!
# Lemmas: how many steps programs make
-/

namespace Nat20

/-! ## Rules -/

section
variable {α β : Type} {Q : α → Nat → Prop}

theorem Prog.Ends.seq {R : β → Nat → Prop} {n : Nat} {p : Prog α} {f : α → Prog β} (h : p.Ends Q n) (hf : ∀ x k, Q x k → (f x).Ends R k) : (p >>= f).Ends R n := by
  rw [bind_eq]
  induction h with
  | done n x h => exact hf x n h
  | crash n u h => exact .crash n u h
  | load n a k hk ih => exact .load n a _ ih
  | store n a b k hk ih => exact .store n a b _ ih
  | note n e k hk ih => exact .note n e _ ih
  | alloc n r i k hk ih => exact .alloc n r i _ ih
  | free n r s k hk ih => exact .free n r s _ ih
  | leave n b k hk ih => exact .leave n b _ ih

theorem Prog.Ends.post {R : α → Nat → Prop} {n : Nat} {p : Prog α} (h : p.Ends Q n) (hQ : ∀ x k, Q x k → R x k) : p.Ends R n := by
  induction h with
  | done n x h => exact .done n x (hQ x n h)
  | crash n u h => exact .crash n u h
  | load n a k hk ih => exact .load n a _ ih
  | store n a b k hk ih => exact .store n a b _ ih
  | note n e k hk ih => exact .note n e _ ih
  | alloc n r i k hk ih => exact .alloc n r i _ ih
  | free n r s k hk ih => exact .free n r s _ ih
  | leave n b k hk ih => exact .leave n b _ ih

/-- Steps may be left over. -/
theorem Prog.Ends.more {n : Nat} {p : Prog α} (h : p.Ends (fun _ _ => True) n) : ∀ {m : Nat}, n ≤ m → p.Ends (fun _ _ => True) m := by
  induction h with
  | done n x h => intro m _; exact .done m x trivial
  | crash n u h => intro m _; exact .crash m u h
  | load n a k hk ih => intro m hm; obtain ⟨m, rfl⟩ : ∃ j, m = j + 1 := ⟨m - 1, by omega⟩; exact .load m a k fun b => ih b (by omega)
  | store n a b k hk ih => intro m hm; obtain ⟨m, rfl⟩ : ∃ j, m = j + 1 := ⟨m - 1, by omega⟩; exact .store m a b k (ih (by omega))
  | note n e k hk ih => intro m hm; obtain ⟨m, rfl⟩ : ∃ j, m = j + 1 := ⟨m - 1, by omega⟩; exact .note m e k (ih (by omega))
  | alloc n r i k hk ih => intro m hm; obtain ⟨m, rfl⟩ : ∃ j, m = j + 1 := ⟨m - 1, by omega⟩; exact .alloc m r i k (ih (by omega))
  | free n r s k hk ih => intro m hm; obtain ⟨m, rfl⟩ : ∃ j, m = j + 1 := ⟨m - 1, by omega⟩; exact .free m r s k (ih (by omega))
  | leave n b k hk ih => intro m hm; obtain ⟨m, rfl⟩ : ∃ j, m = j + 1 := ⟨m - 1, by omega⟩; exact .leave m b k (ih (by omega))

theorem ends_load {c : Nat} {a : Addr} {k : UInt8 → Prog α} (hc : 0 < c) (hk : ∀ b, (k b).Ends Q (c - 1)) : (Prog.load a k).Ends Q c := by
  obtain ⟨c, rfl⟩ : ∃ j, c = j + 1 := ⟨c - 1, by omega⟩
  exact .load c a k hk

theorem ends_store {c : Nat} {a : Addr} {b : UInt8} {k : Prog α} (hc : 0 < c) (hk : k.Ends Q (c - 1)) : (Prog.store a b k).Ends Q c := by
  obtain ⟨c, rfl⟩ : ∃ j, c = j + 1 := ⟨c - 1, by omega⟩
  exact .store c a b k hk

theorem ends_note {c : Nat} {e : Event} {k : Prog α} (hc : 0 < c) (hk : k.Ends Q (c - 1)) : (Prog.note e k).Ends Q c := by
  obtain ⟨c, rfl⟩ : ∃ j, c = j + 1 := ⟨c - 1, by omega⟩
  exact .note c e k hk

theorem ends_alloc {c : Nat} {r : Region} {i : Bytes} {k : Prog α} (hc : 0 < c) (hk : k.Ends Q (c - 1)) : (Prog.alloc r i k).Ends Q c := by
  obtain ⟨c, rfl⟩ : ∃ j, c = j + 1 := ⟨c - 1, by omega⟩
  exact .alloc c r i k hk

theorem ends_free {c : Nat} {r : Region} {s : Bool} {k : Prog α} (hc : 0 < c) (hk : k.Ends Q (c - 1)) : (Prog.free r s k).Ends Q c := by
  obtain ⟨c, rfl⟩ : ∃ j, c = j + 1 := ⟨c - 1, by omega⟩
  exact .free c r s k hk

theorem ends_leave {c : Nat} {b : Bytes} {k : Prog α} (hc : 0 < c) (hk : k.Ends Q (c - 1)) : (Prog.leave b k).Ends Q c := by
  obtain ⟨c, rfl⟩ : ∃ j, c = j + 1 := ⟨c - 1, by omega⟩
  exact .leave c b k hk

theorem ends_branch {c : Nat} (b : Prop) [Decidable b] {y n : Prog α} (hc : 0 < c) (hy : b → y.Ends Q (c - 1)) (hn : ¬ b → n.Ends Q (c - 1)) : (branch b y n).Ends Q c := by
  refine ends_note hc ?_
  split
  · next h => exact hy h
  · next h => exact hn h

end

theorem ends_touch (l : List (WordArray × Nat)) : ∀ c, l.length ≤ c → (touch l).Ends (fun _ k => c ≤ k + l.length) c := by
  induction l with
  | nil => intro c _; exact .done c _ (by simp)
  | cons x l ih =>
    intro c h
    rw [List.length_cons] at h
    exact ends_note (by omega) ((ih (c - 1) (by omega)).post fun _ k hk => by rw [List.length_cons]; omega)

/-! ## SHA-2 -/

section
variable {w : Nat} (P : ShaCode w)

theorem ends_round (j : Nat) (t1 : BitVec w) (R : Vector (BitVec w) 8) (c : Nat) (h : 12 ≤ c) : (shaRoundP P j t1 R).Ends (fun _ k => c ≤ k + 12) c :=
  (ends_touch (roundWords j) c h).seq fun _ k hk => .done k _ hk

theorem ends_rounds16 (W : Vector (BitVec w) 16) (R : Vector (BitVec w) 8) (n : Nat) : ∀ c, 14 * n ≤ c → (shaRounds16P P W R n).Ends (fun _ k => c ≤ k + 14 * n) c := by
  induction n with
  | zero => intro c _; exact .done c _ (by omega)
  | succ j ih =>
    intro c h
    refine (ih c (by omega)).seq fun _ k hk => ends_branch _ (by omega) (fun _ => (ends_touch _ _ (by simp only [List.length_cons, List.length_nil]; omega)).seq fun _ k' hk' => ?_)
      fun _ => .done _ _ (by omega)
    simp only [List.length_cons, List.length_nil] at hk'
    exact (ends_round P _ _ _ k' (by omega)).post fun _ k'' hk'' => by omega

theorem ends_roundsExt (s : Vector (BitVec w) 16 × MainVars w) (n : Nat) : ∀ c, 18 * n ≤ c → (shaRoundsExtP P s n).Ends (fun _ k => c ≤ k + 18 * n) c := by
  induction n with
  | zero => intro c _; exact .done c _ (by omega)
  | succ j ih =>
    intro c h
    refine (ih c (by omega)).seq fun _ k hk => ends_branch _ (by omega) (fun _ => (ends_touch _ _ (by simp only [List.length_cons, List.length_nil]; omega)).seq fun _ k' hk' => ?_)
      fun _ => .done _ _ (by omega)
    simp only [List.length_cons, List.length_nil] at hk'
    exact (ends_round P _ _ _ k' (by omega)).seq fun _ k'' hk'' => .done _ _ (by omega)

/-- Steps of the compression function. -/
def mainSteps : Nat := 265 + 18 * (P.rounds - 16)

theorem ends_main (s : ShaState w) (c : Nat) (h : mainSteps P ≤ c) : (shaMainP P s).Ends (fun x k => c ≤ k + mainSteps P ∧ x.fill = 0) c := by
  unfold mainSteps at *
  have hw : hashWords.length = 16 := rfl
  refine (ends_touch _ c (by omega)).seq fun _ k1 h1 => ?_
  refine (ends_rounds16 P _ _ _ k1 (by omega)).seq fun _ k2 h2 => ?_
  refine (ends_roundsExt P _ _ k2 (by omega)).seq fun _ k3 h3 => ?_
  refine (ends_touch _ k3 (by omega)).seq fun _ k4 h4 => ?_
  have hr : ((List.range 8).map fun j => (WordArray.R, j)).length = 8 := rfl
  refine (ends_touch _ k4 (by omega)).seq fun _ k5 h5 => ?_
  exact ends_leave (by omega) (.done _ _ ⟨by omega, rfl⟩)

theorem ends_shiftIn (s : ShaState w) (j : Nat) (b : UInt8) (c : Nat) (h : 2 ≤ c) : (shaShiftInP P s j b).Ends (fun x k => c ≤ k + 2 ∧ x.fill = s.fill) c := by
  unfold shaShiftInP
  refine (ends_touch _ c (by simpa using h)).seq fun _ k hk => ?_
  simp only [List.length_cons, List.length_nil] at hk
  split
  · exact .done _ _ ⟨by omega, rfl⟩
  · exact .crash _ _ (by decide)

theorem ends_fill (n : Nat) : ∀ (s : ShaState w) (j : Nat) (a : Addr) (c : Nat), j ≤ P.block → 4 * n + 1 ≤ c →
    (shaFillP P s j a n).Ends (fun x k => c ≤ k + 4 * (n - x.2.2.2) + 1 ∧ x.2.2.2 ≤ n ∧ x.2.1 + x.2.2.2 = j + n ∧ x.2.1 ≤ P.block ∧ (x.2.1 < P.block → x.2.2.2 = 0)) c := by
  induction n with
  | zero => intro s j a c hj hc; exact ends_branch _ (by omega) (fun h => absurd h.2 (Nat.lt_irrefl 0)) fun _ => .done _ _ ⟨by dsimp only; omega, Nat.le_refl _, rfl, hj, fun _ => rfl⟩
  | succ n ih =>
    intro s j a c hj hc
    refine ends_branch _ (by omega) (fun h => ends_load (by omega) fun b => (ends_shiftIn P s j b _ (by omega)).seq fun s' k hk =>
      (ih s' (j + 1) (a.plus 1) k (by omega) (by omega)).post fun x k' hx => ⟨by omega, by omega, by omega, hx.2.2.2.1, hx.2.2.2.2⟩) fun h =>
        .done _ _ ⟨by dsimp only; omega, Nat.le_refl _, rfl, hj, fun hlt => absurd ⟨hlt, Nat.succ_pos n⟩ h⟩

theorem ends_updateLoop (hB : P.block ≤ 128) (hM : mainSteps P + 3 ≤ 18 * P.block) (fuel : Nat) : ∀ (s : ShaState w) (a : Addr) (n c : Nat), s.fill.toNat < P.block →
    22 * n + 18 * s.fill.toNat + 3 ≤ c →
    (shaUpdateLoopP P fuel s a n).Ends (fun x k => c + 18 * x.fill.toNat ≤ k + 22 * n + 18 * s.fill.toNat + 3 ∧ x.fill.toNat < P.block) c := by
  induction fuel with
  | zero => intro s a n c hf hc; exact .done _ _ ⟨by omega, hf⟩
  | succ fuel ih =>
    intro s a n c hf hc
    refine ends_branch _ (by omega) (fun hn => (ends_fill P n s s.fill.toNat a _ (by omega) (by omega)).seq fun x k hx => ?_) fun _ => .done _ _ ⟨by omega, hf⟩
    obtain ⟨h1, h2, h3, h4, h5⟩ := hx
    refine ends_branch _ (by omega) (fun hlt => .done _ _ ?_) fun hge => ?_
    · have := h5 hlt
      have hu : (UInt32.ofNat x.2.1).toNat = x.2.1 := by
        rw [UInt32.toNat_ofNat']
        exact Nat.mod_eq_of_lt (by omega)
      dsimp only
      rw [hu]
      exact ⟨by omega, hlt⟩
    · refine (ends_main P x.1 _ (by omega)).seq fun s' k' hs' => ?_
      have h0 : s'.fill.toNat = 0 := by rw [hs'.2]; rfl
      exact (ih s' _ _ k' (by omega) (by omega)).post fun y k'' hy => ⟨by omega, hy.2⟩

theorem ends_update (hB : P.block ≤ 128) (hM : mainSteps P + 3 ≤ 18 * P.block) (s : ShaState w) (x : MSlice) (c : Nat) (hf : s.fill.toNat < P.block)
    (hc : 22 * x.size.toNat + 18 * s.fill.toNat + 4 ≤ c) :
    (shaUpdateP P s x).Ends (fun y k => c + 18 * y.fill.toNat ≤ k + 22 * x.size.toNat + 18 * s.fill.toNat + 4 ∧ y.fill.toNat < P.block) c := by
  unfold shaUpdateP
  refine ends_note (by omega) ?_
  split
  · exact .done _ _ ⟨by omega, hf⟩
  · next a _ =>
    exact (ends_updateLoop P hB hM (x.size.toNat + 1) { s with total := s.total + x.size } a x.size.toNat (c - 1) hf (by dsimp only; omega)).post fun y k hy => by
      dsimp only at hy
      exact ⟨by omega, hy.2⟩

theorem ends_shiftLoop (f : Nat → UInt8) (n : Nat) : ∀ (i : Nat) (s : ShaState w) (c : Nat), 3 * n + 1 ≤ c → (shaShiftLoopP P f n i s).Ends (fun _ k => c ≤ k + 3 * n + 1) c := by
  induction n with
  | zero => intro i s c hc; exact ends_note (by omega) (.done _ _ (by omega))
  | succ n ih =>
    intro i s c hc
    exact ends_note (by omega) ((ends_shiftIn P _ _ _ _ (by omega)).seq fun _ k hk => (ih _ _ k (by omega)).post fun _ k' hk' => by omega)

theorem ends_finishBlock (s : ShaState w) (i : Nat) (c : Nat) (hc : 3 * P.block + mainSteps P + 2 ≤ c) :
    (shaFinishBlockP P s i).Ends (fun _ k => c ≤ k + 3 * P.block + mainSteps P + 2) c := by
  refine ends_branch _ (by omega) (fun _ => (ends_shiftLoop P _ _ _ _ _ (by omega)).seq fun _ k hk => (ends_main P _ k (by omega)).seq fun _ k' hk' => .done _ _ (by omega))
    fun _ => .done _ _ (by omega)

theorem ends_output (H : Vector (BitVec w) 8) (out : Addr) (n : Nat) : ∀ (i c : Nat), 3 * n + 1 ≤ c → (shaOutputP P H out n i).Ends (fun _ k => c ≤ k + 3 * n + 1) c := by
  induction n with
  | zero => intro i c hc; exact ends_note (by omega) (.done _ _ (by omega))
  | succ n ih =>
    intro i c hc
    exact ends_note (by omega) (ends_note (by omega) (ends_store (by omega) ((ih (i + 1) _ (by omega)).post fun _ k hk => by omega)))

theorem ends_finalize (hB : P.block ≤ 128) (hl : P.lengthAt ≤ P.block) (hM : mainSteps P ≤ 1417) (s : ShaState w) (out : Option Addr) (n : Nat) (hn : n ≤ 64) (c : Nat) (hc : 3805 ≤ c) :
    (shaFinalizeP P s out n).Ends (fun _ k => c ≤ k + 3805) c := by
  unfold shaFinalizeP
  refine (ends_shiftIn P _ _ _ c (by omega)).seq fun _ k1 h1 => (ends_finishBlock P _ _ k1 (by omega)).seq fun _ k2 h2 => (ends_shiftLoop P _ _ _ _ k2 (by omega)).seq fun _ k3 h3 =>
    (ends_shiftLoop P _ _ _ _ k3 (by omega)).seq fun _ k4 h4 => (ends_main P _ k4 (by omega)).seq fun _ k5 h5 => ?_
  split
  · exact .crash _ _ (by decide)
  · exact (ends_output P _ _ n 0 k5 (by omega)).seq fun _ k6 h6 => .done _ _ (by omega)

end

/-! ## digest -/

/-- The number of octets of the block that is being filled. -/
def fillOf (alg : UInt32) (st : DigestState) : Nat := if alg = 0 ∨ alg = 1 then st.sha256.fill.toNat else st.sha512.fill.toNat

/-- The number of octets of a block. -/
def blockOf (alg : UInt32) : Nat := if alg = 0 ∨ alg = 1 then 64 else 128

theorem ends_digestUpdate (alg : UInt32) (st : DigestState) (x : MSlice) (c : Nat) (hf : fillOf alg st < blockOf alg) (hc : 22 * x.size.toNat + 18 * fillOf alg st + 5 ≤ c) :
    (digestUpdateP alg st x).Ends (fun y k => c + 18 * fillOf alg y ≤ k + 22 * x.size.toNat + 18 * fillOf alg st + 5 ∧ fillOf alg y < blockOf alg) c := by
  unfold fillOf blockOf at *
  refine ends_branch _ (by omega) (fun h => ?_) fun h => ?_
  · simp only [if_pos h] at *
    exact (ends_update sha256Code (by decide) (by decide) _ x _ hf (by omega)).seq fun y k hy => .done _ _ ⟨by dsimp only; omega, hy.2⟩
  · simp only [if_neg h] at *
    exact (ends_update sha512Code (by decide) (by decide) _ x _ hf (by omega)).seq fun y k hy => .done _ _ ⟨by dsimp only; omega, hy.2⟩

/-- Steps for the slices of a list. -/
def slicesCost (l : List MSlice) : Nat := 8 * l.length + 22 * (l.map fun s => s.size.toNat).sum

theorem ends_digestList (alg : UInt32) (n : Nat) : ∀ (l : List MSlice) (st : DigestState) (c : Nat), fillOf alg st < blockOf alg → slicesCost (l.take n) + 18 * fillOf alg st + 1 ≤ c →
    (digestListP alg n l st).Ends (fun x k => c + 18 * fillOf alg x.2 ≤ k + slicesCost (l.take n) + 18 * fillOf alg st + 1 ∧ fillOf alg x.2 < blockOf alg) c := by
  induction n with
  | zero => intro l st c hf hc; rw [digestListP]; exact ends_note (by omega) (.done _ _ ⟨by dsimp only; omega, hf⟩)
  | succ n ih =>
    intro l st c hf hc
    cases l with
    | nil => exact .crash _ _ (by decide)
    | cons s rest =>
      rw [digestListP]
      have hs : slicesCost ((s :: rest).take (n + 1)) = slicesCost (rest.take n) + 8 + 22 * s.size.toNat := by
        simp only [slicesCost, List.take_succ_cons, List.length_cons, List.map_cons, List.sum_cons]; omega
      rw [hs] at hc ⊢
      refine ends_note (by omega) (ends_branch _ (by omega) (fun _ => (ih rest st _ hf (by omega)).post fun x k hx => ⟨by omega, hx.2⟩) fun _ =>
        ends_branch _ (by omega) (fun _ => .done _ _ ⟨by dsimp only; omega, hf⟩) fun _ => (ends_digestUpdate alg st s _ hf (by omega)).seq fun st' k hk =>
          (ih rest st' k hk.2 (by omega)).post fun x k' hx => ⟨by omega, hx.2⟩)

theorem slices_some (g : MList) (l : List MSlice) (h : g.list = some l) : l.take g.count.toNat = g.slices := by rw [MList.slices, h]; rfl

theorem ends_digestGather (alg : UInt32) (g : MList) (st : DigestState) (c : Nat) (hf : fillOf alg st < blockOf alg) (hc : slicesCost g.slices + 18 * fillOf alg st + 1 ≤ c) :
    (digestGatherP alg g st).Ends (fun x k => c + 18 * fillOf alg x.2 ≤ k + slicesCost g.slices + 18 * fillOf alg st + 1 ∧ fillOf alg x.2 < blockOf alg) c := by
  unfold digestGatherP
  split
  · exact ends_branch _ (by omega) (fun _ => .done _ _ ⟨by dsimp only; omega, hf⟩) fun _ => .crash _ _ (by decide)
  · next l hl =>
    rw [← slices_some g l hl] at hc ⊢
    exact ends_digestList alg _ l st c hf hc

/-- Steps for lists. -/
def listsCost (l : List MList) : Nat := 3 * l.length + 8 * (l.map fun g => g.slices.length).sum + 22 * (l.map MList.octets).sum

theorem ends_digestLists (alg : UInt32) (n : Nat) : ∀ (l : List MList) (st : DigestState) (c : Nat), fillOf alg st < blockOf alg → listsCost (l.take n) + 18 * fillOf alg st + 1 ≤ c →
    (digestListsP alg n l st).Ends (fun x k => c + 18 * fillOf alg x.2 ≤ k + listsCost (l.take n) + 18 * fillOf alg st + 1 ∧ fillOf alg x.2 < blockOf alg) c := by
  induction n with
  | zero => intro l st c hf hc; rw [digestListsP]; exact ends_note (by omega) (.done _ _ ⟨by dsimp only; omega, hf⟩)
  | succ n ih =>
    intro l st c hf hc
    cases l with
    | nil => exact .crash _ _ (by decide)
    | cons g rest =>
      rw [digestListsP]
      have hs : listsCost ((g :: rest).take (n + 1)) = listsCost (rest.take n) + 3 + slicesCost g.slices := by
        simp only [listsCost, slicesCost, MList.octets, List.take_succ_cons, List.length_cons, List.map_cons, List.sum_cons]; omega
      rw [hs] at hc ⊢
      refine ends_note (by omega) ((ends_digestGather alg g st _ hf (by omega)).seq fun r k hr => ends_branch _ (by omega) (fun _ => (ih rest r.2 _ hr.2 (by omega)).post fun x k' hx =>
        ⟨by omega, hx.2⟩) fun _ => .done _ _ ⟨by omega, hr.2⟩)

theorem ends_digestFinalize (alg : UInt32) (st : DigestState) (out : Option Addr) (c : Nat) (hc : 3808 ≤ c) : (digestFinalizeP alg st out).Ends (fun _ k => c ≤ k + 3808) c := by
  refine ends_branch _ (by omega) (fun _ => ?_) fun _ => ends_branch _ (by omega) (fun _ => ?_) fun _ => ends_branch _ (by omega) (fun _ => ?_) fun _ => ?_
  · exact (ends_finalize sha256Code (by decide) (by decide) (by decide) _ out 28 (by decide) _ (by omega)).seq fun _ k hk => .done _ _ (by omega)
  · exact (ends_finalize sha256Code (by decide) (by decide) (by decide) _ out 32 (by decide) _ (by omega)).seq fun _ k hk => .done _ _ (by omega)
  · exact (ends_finalize sha512Code (by decide) (by decide) (by decide) _ out 48 (by decide) _ (by omega)).seq fun _ k hk => .done _ _ (by omega)
  · exact (ends_finalize sha512Code (by decide) (by decide) (by decide) _ out 64 (by decide) _ (by omega)).seq fun _ k hk => .done _ _ (by omega)

theorem fillOf_init (alg : UInt32) (st : DigestState) (h : digestInit DigestState.zero alg = some st) : fillOf alg st = 0 := by
  unfold digestInit at h
  unfold fillOf
  split at h
  · next h0 => subst h0; cases h; rfl
  split at h
  · next h0 => subst h0; cases h; rfl
  split at h
  · next h0 => subst h0; cases h; rfl
  split at h
  · next h0 => subst h0; cases h; rfl
  · cases h

theorem blockOf_pos (alg : UInt32) : 0 < blockOf alg := by
  unfold blockOf; split <;> decide

theorem ends_digest (alg : UInt32) (msg : Option (List MList)) (count : UInt64) (out : Option Addr) (size : Option UInt64) (c : Nat) (hc : listsCost (listsOf msg count) + 3900 ≤ c) :
    (digestP alg msg count out size).Ends (fun r k => c ≤ k + listsCost (listsOf msg count) + 3900 ∧ SizeReply alg size r) c := by
  refine Prog.Ends.seq (Q := fun r k => c ≤ k + listsCost (listsOf msg count) + 3899 ∧ SizeReply alg size r.1) ?_ fun r k hr => ends_leave (by omega) (.done _ _ ⟨by omega, hr.2⟩)
  unfold digestInternalP
  refine ends_note (by omega) ?_
  split
  · exact .done _ _ ⟨by omega, .inl rfl⟩
  next st hst =>
  refine ends_note (by omega) ?_
  split
  · exact .done _ _ ⟨by omega, .inl rfl⟩
  refine ends_branch _ (by omega) (fun _ => .done _ _ ⟨by omega, .inr rfl⟩) fun _ => ?_
  unfold digestMessageP
  split
  · exact ends_note (by omega) (.done _ _ ⟨by omega, .inl rfl⟩)
  · exact .crash _ _ (by decide)
  next g gs =>
  have h0 := fillOf_init alg st hst
  have hl : listsOf (some (g :: gs)) count = (g :: gs).take count.toNat := rfl
  have hb := blockOf_pos alg
  rw [hl] at hc ⊢
  refine ends_note (by omega) (ends_branch _ (by omega) (fun _ => .done _ _ ⟨by omega, .inl rfl⟩) fun _ =>
    (ends_digestLists alg count.toNat (g :: gs) st _ (by omega) (by omega)).seq fun r k hr => ends_branch _ (by omega)
      (fun _ => (ends_digestFinalize alg r.2 out _ (by omega)).seq fun _ k' hk' => .done _ _ ⟨by omega, .inr rfl⟩) fun _ => .done _ _ ⟨by omega, .inl rfl⟩)

/-! ## hmac -/

theorem ends_wipe (a : Addr) (n : Nat) : ∀ (i c : Nat), n ≤ c → (wipeP a n i).Ends (fun _ k => c ≤ k + n) c := by
  induction n with
  | zero => intro i c _; exact .done _ _ (by omega)
  | succ n ih => intro i c h; exact ends_store (by omega) ((ih (i + 1) _ (by omega)).post fun _ k hk => by omega)

theorem ends_copy (dst src : Addr) (n : Nat) : ∀ (i c : Nat), 2 * n ≤ c → (copyP dst src n i).Ends (fun _ k => c ≤ k + 2 * n) c := by
  induction n with
  | zero => intro i c _; exact .done _ _ (by omega)
  | succ n ih => intro i c h; exact ends_load (by omega) fun b => ends_store (by omega) ((ih (i + 1) _ (by omega)).post fun _ k hk => by omega)

theorem ends_xor (a : Addr) (x : UInt8) (n : Nat) : ∀ (i c : Nat), 3 * n + 1 ≤ c → (xorP a x n i).Ends (fun _ k => c ≤ k + 3 * n + 1) c := by
  induction n with
  | zero => intro i c h; exact ends_note (by omega) (.done _ _ (by omega))
  | succ n ih => intro i c h; exact ends_note (by omega) (ends_load (by omega) fun b => ends_store (by omega) ((ih (i + 1) _ (by omega)).post fun _ k hk => by omega))

theorem listsCost_two (g g' : MList) : listsCost (listsOf (some [g, g']) 2) = 6 + slicesCost g.slices + slicesCost g'.slices := by
  have : listsOf (some [g, g']) 2 = [g, g'] := rfl
  rw [this]
  simp only [listsCost, slicesCost, MList.octets, List.length_cons, List.length_nil, List.map_cons, List.map_nil, List.sum_cons, List.sum_nil]
  omega

theorem listsCost_one (g : MList) : listsCost (listsOf (some [g]) 1) = 3 + slicesCost g.slices := by
  have : listsOf (some [g]) 1 = [g] := rfl
  rw [this]
  simp only [listsCost, slicesCost, MList.octets, List.length_cons, List.length_nil, List.map_cons, List.map_nil, List.sum_cons, List.sum_nil]
  omega

theorem slicesCost_one (s : MSlice) : slicesCost (⟨1, some [s]⟩ : MList).slices = 8 + 22 * s.size.toNat := by
  have : (⟨1, some [s]⟩ : MList).slices = [s] := rfl
  rw [this]
  simp only [slicesCost, List.length_cons, List.length_nil, List.map_cons, List.map_nil, List.sum_cons, List.sum_nil]
  omega

theorem enumSize_le (alg : UInt32) : (digestEnumToSize alg).toNat ≤ 64 := by
  unfold digestEnumToSize
  repeat' split
  all_goals decide

theorem hmacBlock_le_128 (alg : UInt32) : (hmacBlock alg).toNat ≤ 128 := by
  unfold hmacBlock
  split <;> decide

theorem SizeReply.getD {alg : UInt32} {ds : UInt64} {r : PReply} (h : SizeReply alg (some ds) r) (hd : ds = digestEnumToSize alg) : r.size.getD ds = digestEnumToSize alg := by
  rcases h with h | h
  · rw [h]; exact hd
  · rw [h]; rfl

theorem ends_hmacKey (alg : UInt32) (key : MSlice) (c : Nat) (hc : 22 * key.size.toNat + 3912 ≤ c) :
    (hmacKeyP alg key (hmacBlock alg) (digestEnumToSize alg)).Ends (fun r k => c ≤ k + 22 * key.size.toNat + 3912 ∧ r.size = some (digestEnumToSize alg)) c := by
  have hl := listsCost_one (⟨1, some [key]⟩ : MList)
  rw [slicesCost_one] at hl
  refine ends_branch _ (by omega) (fun _ => (ends_digest alg _ 1 _ _ _ (by omega)).seq fun r k hr => .done _ _ ⟨by omega, ?_⟩) fun _ => ?_
  · rw [hr.2.getD rfl]
  · split
    · exact .crash _ _ (by decide)
    · exact (ends_copy _ _ _ 0 _ (by omega)).seq fun _ k hk => .done _ _ ⟨by omega, rfl⟩

theorem ends_hmacOuter (alg : UInt32) (block ds : UInt64) (hb : block.toNat ≤ 128) (hd : ds.toNat ≤ 64) (out : Option Addr) (size : UInt64) (c : Nat) (hc : 8531 ≤ c) :
    (hmacOuterP alg block ds out size).Ends (fun r k => c ≤ k + 8531 ∧ SizeReply alg (some size) r) c := by
  have hl := listsCost_two (⟨1, some [⟨block, some keyAddr⟩]⟩ : MList) (⟨1, some [⟨ds, some innerAddr⟩]⟩ : MList)
  rw [slicesCost_one, slicesCost_one] at hl
  dsimp only at hl
  exact (ends_xor _ _ _ 0 c (by omega)).seq fun _ k hk => (ends_digest alg _ 2 _ _ k (by omega)).post fun r k' hr => ⟨by omega, hr.2⟩

theorem ends_hmacMessage (alg : UInt32) (block ds : UInt64) (hb : block.toNat ≤ 128) (hd : ds = digestEnumToSize alg) (msg : Option MList) (out : Option Addr) (size : UInt64) (c : Nat)
    (hc : msg.elim 0 (fun g => slicesCost g.slices) + 15264 ≤ c) :
    (hmacMessageP alg block ds msg out size).Ends (fun r k => c ≤ k + msg.elim 0 (fun g => slicesCost g.slices) + 15264 ∧ SizeReply alg (some size) r) c := by
  unfold hmacMessageP
  split
  · exact ends_note (by omega) (.done _ _ ⟨by omega, .inl rfl⟩)
  next g =>
  simp only [Option.elim_some] at hc ⊢
  have hl := listsCost_two (⟨1, some [⟨block, some keyAddr⟩]⟩ : MList) g
  rw [slicesCost_one] at hl
  dsimp only at hl
  refine ends_note (by omega) (ends_branch _ (by omega) (fun _ => .done _ _ ⟨by omega, .inl rfl⟩) fun _ => (ends_digest alg _ 2 _ _ _ (by omega)).seq fun r k hr =>
    ends_branch _ (by omega) (fun _ => (ends_hmacOuter alg block _ hb (by rw [hr.2.getD hd]; exact enumSize_le alg) out size _ (by omega)).post fun r' k' hr' => ⟨by omega, hr'.2⟩) fun _ =>
      .done _ _ ⟨by omega, .inl rfl⟩)

/-- Steps of hmac. -/
def hmacCost (key : MSlice) (msg : Option MList) : Nat := 22 * key.size.toNat + msg.elim 0 (fun g => slicesCost g.slices) + 20000

theorem ends_hmac (alg : UInt32) (key : MSlice) (msg : Option MList) (out : Option Addr) (size : Option UInt64) (c : Nat) (hc : hmacCost key msg ≤ c) :
    (hmacP alg key msg out size).Ends (fun r k => c ≤ k + hmacCost key msg ∧ SizeReply alg size r) c := by
  unfold hmacCost at *
  generalize hM : msg.elim 0 (fun g => slicesCost g.slices) = M at *
  refine ends_alloc (by omega) (Prog.Ends.seq (Q := fun r k => c ≤ k + 22 * key.size.toNat + M + 19990 ∧ SizeReply alg size r) ?_ fun x k hx => ends_free (by omega) (.done _ _ ⟨by omega, hx.2⟩))
  refine ends_alloc (by omega) (Prog.Ends.seq (Q := fun r k => c ≤ k + 22 * key.size.toNat + M + 19985 ∧ SizeReply alg size r) ?_ fun x k hx => ends_free (by omega) (.done _ _ ⟨by omega, hx.2⟩))
  refine Prog.Ends.seq (Q := fun r k => c ≤ k + 22 * key.size.toNat + M + 19700 ∧ SizeReply alg size r) ?_ fun r k hr =>
    (ends_wipe _ _ 0 k (by omega)).seq fun _ k1 h1 => (ends_wipe _ _ 0 k1 (by omega)).seq fun _ k2 h2 => .done _ _ ⟨by omega, hr.2⟩
  refine ends_branch _ (by omega) (fun _ => .done _ _ ⟨by omega, .inl rfl⟩) fun _ => ends_note (by omega) ?_
  split
  · exact .done _ _ ⟨by omega, .inl rfl⟩
  next sz =>
  refine ends_branch _ (by omega) (fun _ => .done _ _ ⟨by omega, .inl rfl⟩) fun _ => ends_branch _ (by omega) (fun _ => .done _ _ ⟨by omega, .inr rfl⟩) fun _ =>
    (ends_hmacKey alg key _ (by omega)).seq fun r k hr => ends_branch _ (by omega) (fun _ => ?_) fun _ => .done _ _ ⟨by omega, .inl rfl⟩
  have hb := hmacBlock_le_128 alg
  refine (ends_xor _ _ _ 0 _ (by omega)).seq fun _ k1 h1 => (ends_hmacMessage alg _ _ hb (by rw [hr.2]; rfl) msg out sz k1 (by omega)).post fun r k2 h2 => ⟨by omega, h2.2⟩

theorem hmacCost_one (key s : MSlice) : hmacCost key (some ⟨1, some [s]⟩) = hmacBudget key.size.toNat 1 s.size.toNat := by
  rw [hmacCost, Option.elim_some, slicesCost_one, hmacBudget]
  omega

theorem ends_extract (alg : UInt32) (ikm salt : MSlice) (out : Option Addr) (size : Option UInt64) (c : Nat) (hc : 10 + hmacBudget salt.size.toNat 1 ikm.size.toNat ≤ c) :
    (extractP alg ikm salt out size).Ends (fun r k => c ≤ k + 10 + hmacBudget salt.size.toNat 1 ikm.size.toNat ∧ SizeReply alg size r) c := by
  have hl := hmacCost_one salt ikm
  refine ends_branch _ (by omega) (fun _ => .done _ _ ⟨by omega, .inl rfl⟩) fun _ => ends_branch _ (by omega) (fun _ => .done _ _ ⟨by omega, .inl rfl⟩) fun _ =>
    ends_branch _ (by omega) (fun _ => .done _ _ ⟨by omega, .inl rfl⟩) fun _ => ends_note (by omega) ?_
  split
  · exact .done _ _ ⟨by omega, .inl rfl⟩
  exact ends_branch _ (by omega) (fun _ => .done _ _ ⟨by omega, .inr rfl⟩) fun _ => (ends_hmac alg salt _ out _ _ (by omega)).post fun r k hr => ⟨by omega, hr.2⟩

/-! ## hkdf -/

/-- Steps for a block of the key. -/
def blockBudget (prk info : Nat) : Nat := hmacBudget prk 3 (64 + info + 1) + 3

theorem hmacCost_expand (prk prev info : MSlice) (h : prev.size.toNat ≤ 64) :
    hmacCost prk (some (expandInputAt prev info)) ≤ hmacBudget prk.size.toNat 3 (64 + info.size.toNat + 1) := by
  have : (expandInputAt prev info).slices = [prev, info, ⟨1, some counterAddr⟩] := rfl
  rw [hmacCost, Option.elim_some, this, hmacBudget]
  simp only [slicesCost, List.length_cons, List.length_nil, List.map_cons, List.map_nil, List.sum_cons, List.sum_nil, UInt64.reduceToNat]
  omega

theorem ends_expandLoop (alg : UInt32) (hd : digestEnumToSize alg ≠ 0) (prk info : MSlice) (fuel : Nat) : ∀ (s : ExpandVars) (c : Nat), s.digestSize = digestEnumToSize alg →
    s.prev.size.toNat ≤ 64 → s.keyOctets.toNat < fuel → s.keyOctets.toNat / (digestEnumToSize alg).toNat * blockBudget prk.size.toNat info.size.toNat + 1 ≤ c →
    (expandLoopP alg prk info fuel s).Ends (fun x k => c ≤ k + s.keyOctets.toNat / (digestEnumToSize alg).toNat * blockBudget prk.size.toNat info.size.toNat + 1 ∧
      x.digestSize = digestEnumToSize alg ∧ x.prev.size.toNat ≤ 64 ∧ x.keyOctets.toNat ≤ 64) c := by
  have hpos : 0 < (digestEnumToSize alg).toNat := by
    refine Nat.pos_of_ne_zero fun h => hd ?_
    exact UInt64.toNat.inj h
  have h64 := enumSize_le alg
  induction fuel with
  | zero => intro s c _ _ h; omega
  | succ fuel ih =>
    intro s c hs hp hf hc
    rw [expandLoopP]
    refine ends_branch _ (by omega) (fun hge => ?_) fun hlt => .done _ _ ⟨by omega, hs, hp, ?_⟩
    · have hle : (digestEnumToSize alg).toNat ≤ s.keyOctets.toNat := by rw [hs] at hge; exact UInt64.le_iff_toNat_le.1 hge
      have hdiv : s.keyOctets.toNat / (digestEnumToSize alg).toNat = (s.keyOctets.toNat - (digestEnumToSize alg).toNat) / (digestEnumToSize alg).toNat + 1 := by
        rw [Nat.div_eq_sub_div hpos hle]
      rw [hdiv, Nat.add_mul, Nat.one_mul] at hc ⊢
      have hm := hmacCost_expand prk s.prev info hp
      have hb : blockBudget prk.size.toNat info.size.toNat = hmacBudget prk.size.toNat 3 (64 + info.size.toNat + 1) + 3 := rfl
      refine Prog.Ends.seq (Q := fun x k => c ≤ k + blockBudget prk.size.toNat info.size.toNat ∧ x.digestSize = digestEnumToSize alg ∧ x.prev.size.toNat ≤ 64 ∧
        x.keyOctets.toNat = s.keyOctets.toNat - (digestEnumToSize alg).toNat) ?_ fun x k hx => ?_
      · refine (ends_hmac alg prk _ _ _ _ (by omega)).seq fun r k hr => ends_load (by omega) fun b => ends_store (by omega) (.done _ _ ?_)
        have hsz := hr.2.getD hs
        dsimp only
        rw [hsz]
        exact ⟨by omega, rfl, h64, UInt64.toNat_sub_of_le _ _ (UInt64.le_iff_toNat_le.2 hle)⟩
      · obtain ⟨h1, h2, h3, h4⟩ := hx
        refine (ih x k h2 h3 (by omega) (by rw [h4]; omega)).post fun y k' hy => ⟨?_, hy.2⟩
        have := hy.1
        rw [h4] at this
        omega
    · rw [hs] at hlt
      have : ¬ (digestEnumToSize alg).toNat ≤ s.keyOctets.toNat := fun h => hlt (UInt64.le_iff_toNat_le.2 h)
      omega

theorem ends_expandRest (alg : UInt32) (prk info : MSlice) (s : ExpandVars) (hp : s.prev.size.toNat ≤ 64) (hk : s.keyOctets.toNat ≤ 64) (c : Nat)
    (hc : blockBudget prk.size.toNat info.size.toNat + 200 ≤ c) :
    (expandRestP alg prk info s).Ends (fun _ k => c ≤ k + blockBudget prk.size.toNat info.size.toNat + 200) c := by
  have hm := hmacCost_expand prk s.prev info hp
  have hb : blockBudget prk.size.toNat info.size.toNat = hmacBudget prk.size.toNat 3 (64 + info.size.toNat + 1) + 3 := rfl
  refine ends_branch _ (by omega) (fun _ => ?_) fun _ => .done _ _ (by omega)
  refine ends_alloc (by omega) (Prog.Ends.seq (Q := fun _ k => c ≤ k + blockBudget prk.size.toNat info.size.toNat + 199) ?_ fun x k hx => ends_free (by omega) (.done _ _ (by omega)))
  refine (ends_hmac alg prk _ _ _ _ (by omega)).seq fun r k hr => ends_branch _ (by omega)
    (fun _ => (ends_copy _ _ _ 0 _ (by omega)).seq fun _ k1 h1 => (ends_wipe _ _ 0 k1 (by omega)).seq fun _ k2 h2 => .done _ _ (by omega))
    fun _ => (ends_wipe _ _ 0 _ (by omega)).seq fun _ k2 h2 => .done _ _ (by omega)

theorem ends_expand (alg : UInt32) (prk info : MSlice) (n : UInt64) (out : Option Addr) (c : Nat)
    (hc : expandBudget (digestEnumToSize alg).toNat prk.size.toNat info.size.toNat n.toNat ≤ c) :
    (hkdfExpandP alg prk info n out).Ends (fun _ k => c ≤ k + expandBudget (digestEnumToSize alg).toNat prk.size.toNat info.size.toNat n.toNat) c := by
  have he : expandBudget (digestEnumToSize alg).toNat prk.size.toNat info.size.toNat n.toNat =
      300 + (n.toNat / (digestEnumToSize alg).toNat * blockBudget prk.size.toNat info.size.toNat + blockBudget prk.size.toNat info.size.toNat) := by
    rw [expandBudget, Nat.add_mul, Nat.one_mul]; rfl
  rw [he] at hc ⊢
  refine ends_branch _ (by omega) (fun _ => .done _ _ (by omega)) fun hd => ends_branch _ (by omega) (fun _ => .done _ _ (by omega)) fun _ =>
    ends_branch _ (by omega) (fun _ => .done _ _ (by omega)) fun _ => ends_branch _ (by omega) (fun _ => .done _ _ (by omega)) fun _ => ends_note (by omega) ?_
  split
  · exact .done _ _ (by omega)
  next a =>
  refine ends_alloc (by omega) (Prog.Ends.seq (Q := fun _ k => c ≤ k + 299 +
    (n.toNat / (digestEnumToSize alg).toNat * blockBudget prk.size.toNat info.size.toNat + blockBudget prk.size.toNat info.size.toNat)) ?_ fun x k hx => ends_free (by omega) (.done _ _ (by omega)))
  exact (ends_expandLoop alg hd prk info (n.toNat + 1) ⟨n, digestEnumToSize alg, a, ⟨0, none⟩⟩ _ rfl (Nat.zero_le _) (Nat.lt_succ_self _) (by dsimp only; omega)).seq fun s k hs => by
    dsimp only at hs
    exact (ends_expandRest alg prk info s hs.2.2.1 hs.2.2.2 k (by omega)).post fun _ k' hk' => by omega

theorem expandBudget_mono (d p p' i n : Nat) (h : p ≤ p') : expandBudget d p i n ≤ expandBudget d p' i n := by
  unfold expandBudget hmacBudget
  exact Nat.add_le_add_left (Nat.mul_le_mul_left _ (by omega)) _

theorem ends_hkdf (alg : UInt32) (ikm salt info : MSlice) (n : UInt64) (out : Option Addr) (c : Nat)
    (hc : 100 + hmacBudget salt.size.toNat 1 ikm.size.toNat + expandBudget (digestEnumToSize alg).toNat 64 info.size.toNat n.toNat ≤ c) :
    (hkdfP alg ikm salt info n out).Ends (fun _ _ => True) c := by
  refine ends_branch _ (by omega) (fun _ => .done _ _ trivial) fun _ => ends_branch _ (by omega) (fun _ => .done _ _ trivial) fun _ =>
    ends_branch _ (by omega) (fun _ => .done _ _ trivial) fun _ => ends_branch _ (by omega) (fun _ => .done _ _ trivial) fun _ => ?_
  refine ends_alloc (by omega) (Prog.Ends.seq (Q := fun _ k => 0 < k) ?_ fun x k hx => ends_free hx (.done _ _ trivial))
  refine (ends_extract alg ikm salt _ _ _ (by omega)).seq fun r k hr => ends_branch _ (by omega) (fun _ => ?_) fun _ => (ends_wipe _ _ 0 _ (by omega)).seq fun _ k1 h1 => .done _ _ (by omega)
  have hm := expandBudget_mono (digestEnumToSize alg).toNat (r.size.getD (digestEnumToSize alg)).toNat 64 info.size.toNat n.toNat (by rw [hr.2.getD rfl]; exact enumSize_le alg)
  exact (ends_expand alg ⟨r.size.getD (digestEnumToSize alg), some prkAddr⟩ info n out _ (by dsimp only; omega)).seq fun _ k1 h1 => by
    dsimp only at h1
    exact (ends_wipe _ _ 0 _ (by omega)).seq fun _ k2 h2 => .done _ _ (by omega)

end Nat20
