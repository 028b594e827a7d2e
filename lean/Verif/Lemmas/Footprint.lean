import Verif.Lemmas.Prog
/-!
# Lemmas: which memory the programs use
-/

namespace Nat20

variable {L S : Addr → Prop} {A : Region → Prop}

theorem within_true {α : Type} {Q : α → Prop} {p : Prog α} (h : p.Within L S A Q) : p.Within L S A fun _ => True := h.mono (fun _ h => h) (fun _ h => h) (fun _ h => h) fun _ _ => trivial

/-! ## SHA-2 -/

section
variable {w : Nat} (P : ShaCode w)

theorem within_round (j : Nat) (t1 : BitVec w) (R : Vector (BitVec w) 8) : (shaRoundP P j t1 R).Within L S A fun _ => True :=
  (within_touch _).seq fun _ _ => .done _ trivial

theorem within_rounds16 (W : Vector (BitVec w) 16) (R : Vector (BitVec w) 8) (n : Nat) : (shaRounds16P P W R n).Within L S A fun _ => True := by
  induction n with
  | zero => exact .done _ trivial
  | succ j ih => exact ih.seq fun _ _ => within_branch _ (fun _ => (within_touch _).seq fun _ _ => within_round P _ _ _) fun _ => .done _ trivial

theorem within_roundsExt (s : Vector (BitVec w) 16 × MainVars w) (n : Nat) : (shaRoundsExtP P s n).Within L S A fun _ => True := by
  induction n with
  | zero => exact .done _ trivial
  | succ j ih =>
    exact ih.seq fun _ _ => within_branch _ (fun _ => (within_touch _).seq fun _ _ => (within_round P _ _ _).seq fun _ _ => .done _ trivial) fun _ => .done _ trivial

theorem within_main (s : ShaState w) : (shaMainP P s).Within L S A fun _ => True :=
  (within_touch _).seq fun _ _ => (within_rounds16 P _ _ _).seq fun _ _ => (within_roundsExt P _ _).seq fun _ _ => (within_touch _).seq fun _ _ =>
    (within_touch _).seq fun _ _ => .leave _ _ (.done _ trivial)

theorem within_shiftIn (s : ShaState w) (j : Nat) (b : UInt8) : (shaShiftInP P s j b).Within L S A fun _ => True := by
  unfold shaShiftInP
  refine (within_touch _).seq fun _ _ => ?_
  split
  · exact .done _ trivial
  · exact .crash _

theorem within_fill (n : Nat) : ∀ (s : ShaState w) (j : Nat) (a : Addr), (∀ i, i < n → L (a.plus i)) →
    (shaFillP P s j a n).Within L S A fun x => x.2.2.2 ≤ n ∧ x.2.2.1 = a.plus (n - x.2.2.2) := by
  induction n with
  | zero => intro s j a _; exact within_branch _ (fun _ => .done _ ⟨Nat.le_refl _, rfl⟩) fun _ => .done _ ⟨Nat.le_refl _, rfl⟩
  | succ n ih =>
    intro s j a h
    refine within_branch _ (fun _ => .load _ _ (h 0 (by omega)) fun b => (within_shiftIn P s j b).seq fun s' _ =>
      (ih s' (j + 1) (a.plus 1) (fun i hi => by
        have := h (1 + i) (by omega)
        simpa only [Addr.plus, Nat.add_assoc] using this)).mono (fun _ h => h) (fun _ h => h) (fun _ h => h) fun x hx => ⟨by omega, ?_⟩)
      fun _ => .done _ ⟨Nat.le_refl _, by simp [Addr.plus]⟩
    rw [hx.2]
    simp only [Addr.plus, Nat.add_assoc, Addr.mk.injEq, true_and]
    omega

theorem within_updateLoop (fuel : Nat) : ∀ (s : ShaState w) (a : Addr) (n : Nat), (∀ i, i < n → L (a.plus i)) →
    (shaUpdateLoopP P fuel s a n).Within L S A fun _ => True := by
  induction fuel with
  | zero => intro s a n _; exact .done _ trivial
  | succ fuel ih =>
    intro s a n h
    refine within_branch _ (fun _ => (within_fill P n _ _ _ h).seq fun x hx => within_branch _ (fun _ => .done _ trivial) fun _ => (within_main P _).seq fun s' _ =>
      ih s' _ _ fun i hi => ?_) fun _ => .done _ trivial
    rw [hx.2]
    have := h (n - x.2.2.2 + i) (by omega)
    simpa only [Addr.plus, Nat.add_assoc] using this

theorem within_update (s : ShaState w) (x : MSlice) (h : ∀ a, x.Has a → L a) : (shaUpdateP P s x).Within L S A fun _ => True := by
  unfold shaUpdateP
  refine .note _ _ ?_
  split
  · exact .done _ trivial
  · next a ha => exact within_updateLoop P _ _ a _ fun i hi => h _ ⟨a, ha, rfl, by simp only [Addr.plus]; omega, by simp only [Addr.plus]; omega⟩

theorem within_shiftLoop (f : Nat → UInt8) (n : Nat) : ∀ (i : Nat) (s : ShaState w), (shaShiftLoopP P f n i s).Within L S A fun _ => True := by
  induction n with
  | zero => intro i s; exact .note _ _ (.done _ trivial)
  | succ n ih => intro i s; exact .note _ _ ((within_shiftIn P _ _ _).seq fun _ _ => ih _ _)

theorem within_finishBlock (s : ShaState w) (i : Nat) : (shaFinishBlockP P s i).Within L S A fun _ => True :=
  within_branch _ (fun _ => (within_shiftLoop P _ _ _ _).seq fun _ _ => (within_main P _).seq fun _ _ => .done _ trivial) fun _ => .done _ trivial

theorem within_output (H : Vector (BitVec w) 8) (out : Addr) (n : Nat) : ∀ (i : Nat), (∀ j, i ≤ j → j < i + n → S (out.plus j)) →
    (shaOutputP P H out n i).Within L S A fun _ => True := by
  induction n with
  | zero => intro i _; exact .note _ _ (.done _ trivial)
  | succ n ih => intro i h; exact .note _ _ (.note _ _ (.store _ _ _ (h i (by omega) (by omega)) (ih (i + 1) fun j h1 h2 => h j (by omega) (by omega))))

theorem within_finalize (s : ShaState w) (out : Option Addr) (n : Nat) (h : ∀ a, OutHas out n a → S a) : (shaFinalizeP P s out n).Within L S A fun _ => True := by
  unfold shaFinalizeP
  refine (within_shiftIn P _ _ _).seq fun _ _ => (within_finishBlock P _ _).seq fun _ _ => (within_shiftLoop P _ _ _ _).seq fun _ _ =>
    (within_shiftLoop P _ _ _ _).seq fun _ _ => (within_main P _).seq fun _ _ => ?_
  split
  · exact .crash _
  · next a =>
    exact (within_output P _ a n 0 fun j _ hj => h _ ⟨a, rfl, rfl, by simp only [Addr.plus]; omega, by simp only [Addr.plus]; omega⟩).seq fun _ _ => .done _ trivial

end

/-! ## digest -/

theorem within_digestUpdate (alg : UInt32) (st : DigestState) (x : MSlice) (h : ∀ a, x.Has a → L a) : (digestUpdateP alg st x).Within L S A fun _ => True :=
  within_branch _ (fun _ => (within_update _ _ x h).seq fun _ _ => .done _ trivial) fun _ => (within_update _ _ x h).seq fun _ _ => .done _ trivial

theorem within_digestList (alg : UInt32) (n : Nat) : ∀ (l : List MSlice) (st : DigestState), (∀ s ∈ l.take n, ∀ a, s.Has a → L a) →
    (digestListP alg n l st).Within L S A fun _ => True := by
  induction n with
  | zero => intro l st _; rw [digestListP]; exact .note _ _ (.done _ trivial)
  | succ n ih =>
    intro l st h
    cases l with
    | nil => exact .crash _
    | cons s rest =>
      rw [digestListP]
      have hr : ∀ s ∈ rest.take n, ∀ a, s.Has a → L a := fun x hx => h x (by rw [List.take_succ_cons]; exact List.mem_cons_of_mem _ hx)
      exact .note _ _ (within_branch _ (fun _ => ih rest st hr) fun _ => within_branch _ (fun _ => .done _ trivial) fun _ =>
        (within_digestUpdate alg st s (h s (by rw [List.take_succ_cons]; exact List.mem_cons_self))).seq fun _ _ => ih rest _ hr)

theorem within_digestGather (alg : UInt32) (g : MList) (st : DigestState) (h : ∀ s ∈ g.slices, ∀ a, s.Has a → L a) :
    (digestGatherP alg g st).Within L S A fun _ => True := by
  unfold digestGatherP
  split
  · exact within_branch _ (fun _ => .done _ trivial) fun _ => .crash _
  · next l hl => exact within_digestList alg _ l st (by simpa only [MList.slices, hl, Option.getD_some] using h)

theorem within_digestLists (alg : UInt32) (n : Nat) : ∀ (l : List MList) (st : DigestState), (∀ g ∈ l.take n, ∀ s ∈ g.slices, ∀ a, s.Has a → L a) →
    (digestListsP alg n l st).Within L S A fun _ => True := by
  induction n with
  | zero => intro l st _; rw [digestListsP]; exact .note _ _ (.done _ trivial)
  | succ n ih =>
    intro l st h
    cases l with
    | nil => exact .crash _
    | cons g rest =>
      rw [digestListsP]
      exact .note _ _ ((within_digestGather alg g st (h g (by rw [List.take_succ_cons]; exact List.mem_cons_self))).seq fun r _ =>
        within_branch _ (fun _ => ih rest _ fun x hx => h x (by rw [List.take_succ_cons]; exact List.mem_cons_of_mem _ hx)) fun _ => .done _ trivial)

theorem within_digestFinalize (alg : UInt32) (st : DigestState) (out : Option Addr) (ha : digestInit DigestState.zero alg ≠ none)
    (h : ∀ a, OutHas out (digestEnumToSize alg).toNat a → S a) : (digestFinalizeP alg st out).Within L S A fun _ => True := by
  refine within_branch _ (fun h0 => ?_) fun h0 => within_branch _ (fun h1 => ?_) fun h1 => within_branch _ (fun h2 => ?_) fun h2 => ?_
  · subst h0; exact (within_finalize _ _ out 28 h).seq fun _ _ => .done _ trivial
  · subst h1; exact (within_finalize _ _ out 32 h).seq fun _ _ => .done _ trivial
  · subst h2; exact (within_finalize _ _ out 48 h).seq fun _ _ => .done _ trivial
  · have h3 : alg = 3 := by
      unfold digestInit at ha
      rw [if_neg h0, if_neg h1, if_neg h2] at ha
      by_cases h3 : alg = 3
      · exact h3
      · rw [if_neg h3] at ha; exact absurd rfl ha
    subst h3
    exact (within_finalize _ _ out 64 h).seq fun _ _ => .done _ trivial

/-- What a call says about the size. -/
def SizeReply (alg : UInt32) (size : Option UInt64) (r : PReply) : Prop := r.size = size ∨ r.size = some (digestEnumToSize alg)

/-- `digest` reads the octets of the message and writes the octets of the digest. -/
theorem within_digest (alg : UInt32) (msg : Option (List MList)) (count : UInt64) (out : Option Addr) (size : Option UInt64)
    (hL : ∀ a, MessageHas msg count a → L a) (hS : ∀ a, OutHas out (digestEnumToSize alg).toNat a → S a) :
    (digestP alg msg count out size).Within L S A (SizeReply alg size) := by
  refine Prog.Within.seq (Q := fun r => SizeReply alg size r.1) ?_ fun r hr => .leave _ _ (.done _ hr)
  unfold digestInternalP
  refine .note _ _ ?_
  split
  · exact .done _ (.inl rfl)
  next st hst =>
  refine .note _ _ ?_
  split
  · exact .done _ (.inl rfl)
  refine within_branch _ (fun _ => .done _ (.inr rfl)) fun _ => ?_
  unfold digestMessageP
  split
  · exact .note _ _ (.done _ (.inl rfl))
  · exact .crash _
  next g gs =>
  refine .note _ _ (within_branch _ (fun _ => .done _ (.inl rfl)) fun _ =>
    (within_digestLists alg _ _ st fun g' hg s hs a ha => hL a ⟨g', hg, s, hs, ha⟩).seq fun r _ =>
      within_branch _ (fun _ => (within_digestFinalize alg r.2 out (by rw [hst]; simp) hS).seq fun _ _ => .done _ (.inr rfl)) fun _ => .done _ (.inl rfl))

/-! ## hmac -/

theorem within_wipe (a : Addr) (n : Nat) : ∀ (i : Nat), (∀ j, i ≤ j → j < i + n → S (a.plus j)) → (wipeP a n i).Within L S A fun _ => True := by
  induction n with
  | zero => intro i _; exact .done _ trivial
  | succ n ih => intro i h; exact .store _ _ _ (h i (by omega) (by omega)) (ih (i + 1) fun j h1 h2 => h j (by omega) (by omega))

theorem within_copy (dst src : Addr) (n : Nat) : ∀ (i : Nat), (∀ j, i ≤ j → j < i + n → L (src.plus j) ∧ S (dst.plus j)) → (copyP dst src n i).Within L S A fun _ => True := by
  induction n with
  | zero => intro i _; exact .done _ trivial
  | succ n ih =>
    intro i h
    exact .load _ _ (h i (by omega) (by omega)).1 fun b => .store _ _ _ (h i (by omega) (by omega)).2 (ih (i + 1) fun j h1 h2 => h j (by omega) (by omega))

theorem within_xor (a : Addr) (x : UInt8) (n : Nat) : ∀ (i : Nat), (∀ j, i ≤ j → j < i + n → L (a.plus j) ∧ S (a.plus j)) → (xorP a x n i).Within L S A fun _ => True := by
  induction n with
  | zero => intro i _; exact .note _ _ (.done _ trivial)
  | succ n ih =>
    intro i h
    exact .note _ _ (.load _ _ (h i (by omega) (by omega)).1 fun b => .store _ _ _ (h i (by omega) (by omega)).2 (ih (i + 1) fun j h1 h2 => h j (by omega) (by omega)))

/-- Addresses in a region. -/
def InRegion (r : Region) (P : Addr → Prop) : Prop := ∀ i, P ⟨r, i⟩

theorem inRegion_plus {r : Region} {P : Addr → Prop} (h : InRegion r P) (i j : Nat) : P ((⟨r, i⟩ : Addr).plus j) := h _

theorem slice_region {r : Region} {P : Addr → Prop} (h : InRegion r P) (n : UInt64) (i : Nat) (a : Addr) (ha : (⟨n, some ⟨r, i⟩⟩ : MSlice).Has a) : P a := by
  obtain ⟨x, hx, hc⟩ := ha
  simp only [Option.some.injEq] at hx
  subst hx
  obtain ⟨ra, ia⟩ := a
  have := hc.1
  simp only at this
  subst this
  exact h _

theorem out_region {r : Region} {P : Addr → Prop} (h : InRegion r P) (n : Nat) (i : Nat) (a : Addr) (ha : OutHas (some ⟨r, i⟩) n a) : P a := by
  obtain ⟨x, hx, hc⟩ := ha
  simp only [Option.some.injEq] at hx
  subst hx
  obtain ⟨ra, ia⟩ := a
  have := hc.1
  simp only at this
  subst this
  exact h _

section
variable (hLk : InRegion .key L) (hSk : InRegion .key S) (hLi : InRegion .inner L) (hSi : InRegion .inner S)
include hSk

theorem within_hmacKey (alg : UInt32) (key : MSlice) (hk : ∀ a, key.Has a → L a) (block ds : UInt64) (hds : ds = digestEnumToSize alg) :
    (hmacKeyP alg key block ds).Within L S A fun r => r.size = some (digestEnumToSize alg) := by
  refine within_branch _ (fun _ => (within_digest alg _ 1 _ _ (fun a ha => ?_) (fun a ha => ?_)).seq fun r hr => .done _ ?_) fun _ => ?_
  · obtain ⟨g, hg, s, hs, hsa⟩ := ha
    simp only [Option.getD_some, UInt64.reduceToNat, List.take_succ_cons, List.take_nil, List.take_zero, List.mem_singleton] at hg
    subst hg
    simp only [MList.slices, Option.getD_some, UInt64.reduceToNat, List.take_succ_cons, List.take_zero, List.mem_singleton] at hs
    subst hs
    exact hk a hsa
  · exact out_region hSk _ _ a ha
  · rcases hr with h | h
    · rw [h]; simp [hds]
    · rw [h]; rfl
  · split
    · exact .crash _
    · next x hx =>
      exact (within_copy keyAddr x _ 0 fun j _ hj => ⟨hk _ ⟨x, hx, rfl, by simp only [Addr.plus]; omega, by simp only [Addr.plus]; omega⟩, hSk _⟩).seq fun _ _ =>
        .done _ (by rw [hds])

include hLk hLi

theorem within_hmacOuter (alg : UInt32) (block ds : UInt64) (out : Option Addr) (ho : ∀ a, OutHas out (digestEnumToSize alg).toNat a → S a) (size : UInt64) :
    (hmacOuterP alg block ds out size).Within L S A (SizeReply alg (some size)) := by
  refine (within_xor keyAddr _ _ 0 fun j _ _ => ⟨hLk _, hSk _⟩).seq fun _ _ => within_digest alg _ 2 _ _ (fun a ha => ?_) ho
  obtain ⟨g, hg, s, hs, hsa⟩ := ha
  simp only [Option.getD_some, UInt64.reduceToNat, List.take_succ_cons, List.take_nil, List.take_zero, List.mem_cons, List.not_mem_nil, or_false] at hg
  rcases hg with rfl | rfl
  · simp only [MList.slices, Option.getD_some, UInt64.reduceToNat, List.take_succ_cons, List.take_zero, List.mem_singleton] at hs
    subst hs
    exact slice_region hLk _ _ a hsa
  · simp only [MList.slices, Option.getD_some, UInt64.reduceToNat, List.take_succ_cons, List.take_zero, List.mem_singleton] at hs
    subst hs
    exact slice_region hLi _ _ a hsa

include hSi

theorem within_hmacMessage (alg : UInt32) (block ds : UInt64) (msg : Option MList) (hm : ∀ a, MList.Has msg a → L a) (out : Option Addr)
    (ho : ∀ a, OutHas out (digestEnumToSize alg).toNat a → S a) (size : UInt64) :
    (hmacMessageP alg block ds msg out size).Within L S A (SizeReply alg (some size)) := by
  unfold hmacMessageP
  split
  · exact .note _ _ (.done _ (.inl rfl))
  next g =>
  refine .note _ _ (within_branch _ (fun _ => .done _ (.inl rfl)) fun _ => (within_digest alg _ 2 _ _ (fun a ha => ?_) fun a ha => out_region hSi _ _ a ha).seq fun r _ =>
    within_branch _ (fun _ => within_hmacOuter hLk hSk hLi alg block _ out ho size) fun _ => .done _ (.inl rfl))
  obtain ⟨x, hx, s, hs, hsa⟩ := ha
  simp only [Option.getD_some, UInt64.reduceToNat, List.take_succ_cons, List.take_nil, List.take_zero, List.mem_cons, List.not_mem_nil, or_false] at hx
  rcases hx with rfl | rfl
  · simp only [MList.slices, Option.getD_some, UInt64.reduceToNat, List.take_succ_cons, List.take_zero, List.mem_singleton] at hs
    subst hs
    exact slice_region hLk _ _ a hsa
  · exact hm a ⟨x, rfl, s, hs, hsa⟩

theorem within_hmacInternal (alg : UInt32) (key : MSlice) (hk : ∀ a, key.Has a → L a) (msg : Option MList) (hm : ∀ a, MList.Has msg a → L a) (out : Option Addr)
    (ho : ∀ a, OutHas out (digestEnumToSize alg).toNat a → S a) (size : Option UInt64) :
    (hmacInternalP alg key msg out size).Within L S A (SizeReply alg size) := by
  refine within_branch _ (fun _ => .done _ (.inl rfl)) fun _ => .note _ _ ?_
  split
  · exact .done _ (.inl rfl)
  next sz =>
  refine within_branch _ (fun _ => .done _ (.inl rfl)) fun _ => within_branch _ (fun _ => .done _ (.inr rfl)) fun _ =>
    (within_hmacKey hSk alg key hk _ _ rfl).seq fun r _ => within_branch _ (fun _ => ?_) fun _ => .done _ (.inl rfl)
  exact (within_xor keyAddr _ _ 0 fun j _ _ => ⟨hLk _, hSk _⟩).seq fun _ _ => within_hmacMessage hLk hSk hLi hSi alg _ _ msg hm out ho sz

/-- `hmac` reads the octets of the key and the message and writes the octets of the result. -/
theorem within_hmac (hAk : A .key) (hAi : A .inner) (alg : UInt32) (key : MSlice) (hk : ∀ a, key.Has a → L a) (msg : Option MList) (hm : ∀ a, MList.Has msg a → L a)
    (out : Option Addr) (ho : ∀ a, OutHas out (digestEnumToSize alg).toNat a → S a) (size : Option UInt64) :
    (hmacP alg key msg out size).Within L S A (SizeReply alg size) := by
  refine .alloc _ _ _ hAk (Prog.Within.seq (Q := SizeReply alg size) ?_ fun x hx => .free _ _ _ hAk (.done _ hx))
  refine .alloc _ _ _ hAi (Prog.Within.seq (Q := SizeReply alg size) ?_ fun x hx => .free _ _ _ hAi (.done _ hx))
  exact (within_hmacInternal hLk hSk hLi hSi alg key hk msg hm out ho size).seq fun r hr =>
    (within_wipe keyAddr _ 0 fun j _ _ => hSk _).seq fun _ _ => (within_wipe innerAddr _ 0 fun j _ _ => hSi _).seq fun _ _ => .done _ hr

/-- `extract` reads the octets of its arguments and writes the octets of the result. -/
theorem within_extract (hAk : A .key) (hAi : A .inner) (alg : UInt32) (ikm salt : MSlice) (hi : ∀ a, ikm.Has a → L a) (hs : ∀ a, salt.Has a → L a)
    (out : Option Addr) (ho : ∀ a, OutHas out (digestEnumToSize alg).toNat a → S a) (size : Option UInt64) :
    (extractP alg ikm salt out size).Within L S A (SizeReply alg size) := by
  refine within_branch _ (fun _ => .done _ (.inl rfl)) fun _ => within_branch _ (fun _ => .done _ (.inl rfl)) fun _ => within_branch _ (fun _ => .done _ (.inl rfl)) fun _ =>
    .note _ _ ?_
  split
  · exact .done _ (.inl rfl)
  refine within_branch _ (fun _ => .done _ (.inr rfl)) fun _ => within_hmac hLk hSk hLi hSi hAk hAi alg salt hs _ (fun a ha => ?_) out ho _
  obtain ⟨l, hl, s, hss, hsa⟩ := ha
  simp only [Option.some.injEq] at hl
  subst hl
  simp only [MList.slices, Option.getD_some, UInt64.reduceToNat, List.take_succ_cons, List.take_zero, List.mem_singleton] at hss
  subst hss
  exact hi a hsa

end

/-! ## hkdf -/

/-- The variables of the loop in `hkdf_expand`. -/
structure ExpandInv (alg : UInt32) (out : Addr) (n : Nat) (s : ExpandVars) : Prop where
  size : s.digestSize = digestEnumToSize alg
  pos : ∃ k, s.out = out.plus k ∧ k + s.keyOctets.toNat = n
  prev : ∀ a, s.prev.Has a → OutHas (some out) n a

theorem outHas_part (out : Addr) (n k j : Nat) (h : k + j ≤ n) (a : Addr) (ha : OutHas (some (out.plus k)) j a) : OutHas (some out) n a := by
  obtain ⟨x, hx, h1, h2, h3⟩ := ha
  simp only [Option.some.injEq] at hx
  subst hx
  simp only [Addr.plus] at h1 h2 h3
  exact ⟨out, rfl, h1, by omega, by omega⟩

/-- The regions of the local arrays may be used freely. -/
structure FreeLocals (L S : Addr → Prop) (A : Region → Prop) : Prop where
  load : ∀ r i, r = .key ∨ r = .inner ∨ r = .prk ∨ r = .block ∨ r = .counter → L ⟨r, i⟩
  store : ∀ r i, r = .key ∨ r = .inner ∨ r = .prk ∨ r = .block ∨ r = .counter → S ⟨r, i⟩
  make : ∀ r, r = .key ∨ r = .inner ∨ r = .block ∨ r = .counter → A r

section
variable (hf : FreeLocals L S A)
include hf

theorem within_hmac' (alg : UInt32) (key : MSlice) (hk : ∀ a, key.Has a → L a) (msg : Option MList) (hm : ∀ a, MList.Has msg a → L a)
    (out : Option Addr) (ho : ∀ a, OutHas out (digestEnumToSize alg).toNat a → S a) (size : Option UInt64) :
    (hmacP alg key msg out size).Within L S A (SizeReply alg size) :=
  within_hmac (fun i => hf.load _ i (by simp)) (fun i => hf.store _ i (by simp)) (fun i => hf.load _ i (by simp)) (fun i => hf.store _ i (by simp)) (hf.make _ (by simp))
    (hf.make _ (by simp)) alg key hk msg hm out ho size

theorem within_extract' (alg : UInt32) (ikm salt : MSlice) (hi : ∀ a, ikm.Has a → L a) (hs : ∀ a, salt.Has a → L a)
    (out : Option Addr) (ho : ∀ a, OutHas out (digestEnumToSize alg).toNat a → S a) (size : Option UInt64) :
    (extractP alg ikm salt out size).Within L S A (SizeReply alg size) :=
  within_extract (fun i => hf.load _ i (by simp)) (fun i => hf.store _ i (by simp)) (fun i => hf.load _ i (by simp)) (fun i => hf.store _ i (by simp)) (hf.make _ (by simp))
    (hf.make _ (by simp)) alg ikm salt hi hs out ho size

theorem expandInput_has (prev info : MSlice) (hp : ∀ a, prev.Has a → L a) (hi : ∀ a, info.Has a → L a) (a : Addr) (h : MList.Has (some (expandInputAt prev info)) a) : L a := by
  obtain ⟨l, hl, s, hs, hsa⟩ := h
  simp only [Option.some.injEq] at hl
  subst hl
  simp only [MList.slices, expandInputAt, Option.getD_some, UInt64.reduceToNat, List.take_succ_cons, List.take_zero, List.mem_cons, List.not_mem_nil, or_false] at hs
  rcases hs with rfl | rfl | rfl
  · exact hp a hsa
  · exact hi a hsa
  · exact slice_region (fun i => hf.load _ i (by simp)) _ _ a hsa

theorem within_expandLoop (alg : UInt32) (prk info : MSlice) (hp : ∀ a, prk.Has a → L a) (hi : ∀ a, info.Has a → L a) (out : Addr) (n : Nat)
    (hoL : ∀ a, OutHas (some out) n a → L a) (hoS : ∀ a, OutHas (some out) n a → S a) (fuel : Nat) : ∀ (s : ExpandVars), ExpandInv alg out n s →
    (expandLoopP alg prk info fuel s).Within L S A (ExpandInv alg out n) := by
  induction fuel with
  | zero => intro s _; exact .crash _
  | succ fuel ih =>
    intro s hs
    rw [expandLoopP]
    refine within_branch _ (fun hc => ?_) fun _ => .done _ hs
    obtain ⟨k, hk, hsum⟩ := hs.pos
    have hle : (digestEnumToSize alg).toNat ≤ s.keyOctets.toNat := by rw [hs.size] at hc; exact UInt64.le_iff_toNat_le.1 hc
    refine Prog.Within.seq (Q := ExpandInv alg out n) ?_ ih
    refine (within_hmac' hf alg prk hp _ (expandInput_has hf _ _ (fun a ha => hoL a (hs.prev a ha)) hi) _ (fun a ha => hoS a ?_) _).seq fun r hr =>
      .load _ _ (hf.load _ _ (by simp)) fun c => .store _ _ _ (hf.store _ _ (by simp)) (.done _ ?_)
    · rw [hk] at ha
      exact outHas_part out n k _ (by omega) a ha
    · have hsz : r.size.getD s.digestSize = digestEnumToSize alg := by
        rcases hr with h | h
        · rw [h]; exact hs.size
        · rw [h]; rfl
      rw [hsz]
      refine ⟨rfl, ⟨k + (digestEnumToSize alg).toNat, ?_, ?_⟩, fun a ha => ?_⟩
      · rw [hk]
        simp only [Addr.plus, Nat.add_assoc]
      · rw [UInt64.toNat_sub_of_le _ _ (UInt64.le_iff_toNat_le.2 hle)]
        omega
      · obtain ⟨x, hx, hcov⟩ := ha
        simp only [Option.some.injEq] at hx
        subst hx
        exact outHas_part out n k (digestEnumToSize alg).toNat (by omega) a ⟨out.plus k, rfl, by rw [← hk]; exact hcov⟩

theorem within_expandRest (alg : UInt32) (prk info : MSlice) (hp : ∀ a, prk.Has a → L a) (hi : ∀ a, info.Has a → L a) (out : Addr) (n : Nat)
    (hoL : ∀ a, OutHas (some out) n a → L a) (hoS : ∀ a, OutHas (some out) n a → S a) (s : ExpandVars) (hs : ExpandInv alg out n s) :
    (expandRestP alg prk info s).Within L S A fun r => r.size = none := by
  refine within_branch _ (fun hc => ?_) fun _ => .done _ rfl
  obtain ⟨k, hk, hsum⟩ := hs.pos
  refine .alloc _ _ _ (hf.make _ (by simp)) (Prog.Within.seq (Q := fun r => r.size = none) ?_ fun x hx => .free _ _ _ (hf.make _ (by simp)) (.done _ hx))
  refine (within_hmac' hf alg prk hp _ (expandInput_has hf _ _ (fun a ha => hoL a (hs.prev a ha)) hi) _ (fun a ha => out_region (fun i => hf.store _ i (by simp)) _ _ a ha) _).seq fun r hr => ?_
  have hwipe : (wipeP blockAddr 64 0).Within L S A fun _ => True := within_wipe blockAddr _ 0 fun j _ _ => hf.store .block _ (by simp)
  refine within_branch _ (fun _ => (within_copy s.out blockAddr _ 0 fun j _ hj => ⟨hf.load .block _ (by simp), hoS _ ?_⟩).seq fun _ _ => hwipe.seq fun _ _ => .done _ rfl)
    fun _ => hwipe.seq fun _ _ => .done _ rfl
  rw [hk]
  exact outHas_part out n k s.keyOctets.toNat (by omega) _ ⟨_, rfl, rfl, by simp only [Addr.plus]; omega, by simp only [Addr.plus]; omega⟩

/-- `expand` reads the octets of its arguments and of the output and writes the octets of the output. -/
theorem within_expand (alg : UInt32) (prk info : MSlice) (hp : ∀ a, prk.Has a → L a) (hi : ∀ a, info.Has a → L a) (n : UInt64) (out : Option Addr)
    (hoL : ∀ a, OutHas out n.toNat a → L a) (hoS : ∀ a, OutHas out n.toNat a → S a) : (hkdfExpandP alg prk info n out).Within L S A fun r => r.size = none := by
  refine within_branch _ (fun _ => .done _ rfl) fun _ => within_branch _ (fun _ => .done _ rfl) fun _ => within_branch _ (fun _ => .done _ rfl) fun _ =>
    within_branch _ (fun _ => .done _ rfl) fun _ => .note _ _ ?_
  split
  · exact .done _ rfl
  next a =>
  refine .alloc _ _ _ (hf.make _ (by simp)) (Prog.Within.seq (Q := fun r => r.size = none) ?_ fun x hx => .free _ _ _ (hf.make _ (by simp)) (.done _ hx))
  refine (within_expandLoop hf alg prk info hp hi a n.toNat hoL hoS _ _ ⟨rfl, ⟨0, rfl, by simp⟩, fun x hx => ?_⟩).seq fun s hs =>
    within_expandRest hf alg prk info hp hi a n.toNat hoL hoS s hs
  obtain ⟨y, hy, -⟩ := hx
  cases hy

/-- `hkdf` reads the octets of its arguments and of the output and writes the octets of the output. -/
theorem within_hkdf (hprk : A .prk) (alg : UInt32) (ikm salt info : MSlice) (hk : ∀ a, ikm.Has a → L a) (hs : ∀ a, salt.Has a → L a) (hi : ∀ a, info.Has a → L a) (n : UInt64)
    (out : Option Addr) (hoL : ∀ a, OutHas out n.toNat a → L a) (hoS : ∀ a, OutHas out n.toNat a → S a) :
    (hkdfP alg ikm salt info n out).Within L S A fun r => r.size = none := by
  refine within_branch _ (fun _ => .done _ rfl) fun _ => within_branch _ (fun _ => .done _ rfl) fun _ => within_branch _ (fun _ => .done _ rfl) fun _ =>
    within_branch _ (fun _ => .done _ rfl) fun _ => ?_
  refine .alloc _ _ _ hprk (Prog.Within.seq (Q := fun r => r.size = none) ?_ fun x hx => .free _ _ _ hprk (.done _ hx))
  have hwipe : (wipeP prkAddr 64 0).Within L S A fun _ => True := within_wipe prkAddr _ 0 fun j _ _ => hf.store .prk _ (by simp)
  refine (within_extract' hf alg ikm salt hk hs _ (fun a ha => out_region (fun i => hf.store _ i (by simp)) _ _ a ha) _).seq fun r _ => within_branch _ (fun _ => ?_)
    fun _ => hwipe.seq fun _ _ => .done _ rfl
  exact (within_expand hf alg _ info (fun a ha => slice_region (fun i => hf.load _ i (by simp)) _ _ a ha) hi n out hoL hoS).seq fun _ _ => hwipe.seq fun _ _ => .done _ rfl

end

end Nat20
