import Verif.Spec.Defined
import Verif.Lemmas.Footprint
/-!
# Lemmas: which octets the programs rely on
-/

namespace Nat20

variable {α β : Type}

theorem Prog.Defined.seq {Q : (Addr → Prop) → α → Prop} {Q' : (Addr → Prop) → β → Prop} {K : Addr → Prop} {p : Prog α} {f : α → Prog β} (h : p.Defined Q K)
    (hf : ∀ K' x, Q K' x → (f x).Defined Q' K') : (p >>= f).Defined Q' K := by
  rw [bind_eq]
  induction h with
  | done K x h => exact hf K x h
  | crash K u => exact .crash K u
  | load K a k h hk ih => exact .load K a _ h ih
  | store K a b k hk ih => exact .store K a b _ ih
  | note K e k hk ih => exact .note K e _ ih
  | alloc K r i k hk ih => exact .alloc K r i _ ih
  | free K r s k hk ih => exact .free K r s _ ih
  | leave K b k hk ih => exact .leave K b _ ih

theorem Prog.Defined.post {Q Q' : (Addr → Prop) → α → Prop} {K : Addr → Prop} {p : Prog α} (h : p.Defined Q K) (hQ : ∀ K' x, Q K' x → Q' K' x) : p.Defined Q' K := by
  induction h with
  | done K x h => exact .done K x (hQ _ _ h)
  | crash K u => exact .crash K u
  | load K a k h hk ih => exact .load K a _ h ih
  | store K a b k hk ih => exact .store K a b _ ih
  | note K e k hk ih => exact .note K e _ ih
  | alloc K r i k hk ih => exact .alloc K r i _ ih
  | free K r s k hk ih => exact .free K r s _ ih
  | leave K b k hk ih => exact .leave K b _ ih

/-- Everything that is known stays known. -/
def Keeps (K K' : Addr → Prop) : Prop := ∀ a, K a → K' a

theorem Keeps.refl (K : Addr → Prop) : Keeps K K := fun _ h => h

theorem Keeps.trans {K K' K'' : Addr → Prop} (h : Keeps K K') (h' : Keeps K' K'') : Keeps K K'' := fun a ha => h' a (h a ha)

/-- A program that reads only known octets anyway. -/
theorem Prog.Within.defined {L S : Addr → Prop} {A : Region → Prop} {Q : α → Prop} {p : Prog α} (h : p.Within L S A Q) : ∀ K : Addr → Prop, Keeps L K →
    p.Defined (fun K' x => Keeps K K' ∧ Q x) K := by
  induction h with
  | done x h => intro K hK; exact .done _ _ ⟨Keeps.refl _, h⟩
  | crash u => intro K hK; exact .crash _ _
  | load a k h hk ih => intro K hK; exact .load _ _ _ (hK a h) fun b => ih b K hK
  | store a b k h hk ih =>
    intro K hK
    exact .store _ _ _ _ ((ih _ fun x hx => .inl (hK x hx)).post fun K' x hx => ⟨fun y hy => hx.1 y (.inl hy), hx.2⟩)
  | note e k hk ih => intro K hK; exact .note _ _ _ (ih K hK)
  | alloc r i k h hk ih =>
    intro K hK
    exact .alloc _ _ _ _ ((ih _ fun x hx => .inl (hK x hx)).post fun K' x hx => ⟨fun y hy => hx.1 y (.inl hy), hx.2⟩)
  | free r s k h hk ih =>
    intro K hK
    exact .free _ _ _ _ ((ih _ fun x hx => .inl (hK x hx)).post fun K' x hx => ⟨fun y hy => hx.1 y (.inl hy), hx.2⟩)
  | leave b k hk ih => intro K hK; exact .leave _ _ _ (ih K hK)

theorem defined_branch {Q : (Addr → Prop) → α → Prop} {K : Addr → Prop} (c : Prop) [Decidable c] {p q : Prog α} (hp : c → p.Defined Q K) (hq : ¬ c → q.Defined Q K) :
    (branch c p q).Defined Q K := by
  refine .note _ _ _ ?_
  split
  · next h => exact hp h
  · next h => exact hq h

/-! ## digest -/

section
variable {w : Nat} (P : ShaCode w)

theorem defined_output (H : Vector (BitVec w) 8) (out : Addr) (n : Nat) : ∀ (i : Nat) (K : Addr → Prop),
    (shaOutputP P H out n i).Defined (fun K' _ => Keeps K K' ∧ ∀ j, i ≤ j → j < i + n → K' (out.plus j)) K := by
  induction n with
  | zero => intro i K; exact .note _ _ _ (.done _ _ ⟨Keeps.refl _, fun j h1 h2 => by omega⟩)
  | succ n ih =>
    intro i K
    refine .note _ _ _ (.note _ _ _ (.store _ _ _ _ ((ih (i + 1) _).post fun K' x hx => ⟨fun a ha => hx.1 a (.inl ha), fun j h1 h2 => ?_⟩)))
    by_cases e : j = i
    · subst e; exact hx.1 _ (.inr rfl)
    · exact hx.2 j (by omega) (by omega)

theorem outHas_of (out : Addr) (n : Nat) (K : Addr → Prop) (h : ∀ j, j < n → K (out.plus j)) (a : Addr) (ha : OutHas (some out) n a) : K a := by
  obtain ⟨o, ho, h1, h2, h3⟩ := ha
  cases ho
  obtain ⟨r, i⟩ := a
  simp only at h1 h2 h3
  subst h1
  have := h (i - out.off) (by omega)
  simp only [Addr.plus] at this
  rwa [show out.off + (i - out.off) = i by omega] at this

theorem defined_finalize (s : ShaState w) (out : Option Addr) (n : Nat) (K : Addr → Prop) :
    (shaFinalizeP P s out n).Defined (fun K' _ => Keeps K K' ∧ ∀ a, OutHas out n a → K' a) K := by
  have nothing : ∀ K : Addr → Prop, Keeps (fun _ => False) K := fun K a h => h.elim
  unfold shaFinalizeP
  refine Prog.Defined.seq ((within_shiftIn (L := fun _ => False) (S := fun _ => False) (A := fun _ => False) P _ _ _).defined K (nothing _)) fun K1 s0 h1 => ?_
  refine Prog.Defined.seq ((within_finishBlock (L := fun _ => False) (S := fun _ => False) (A := fun _ => False) P _ _).defined K1 (nothing _)) fun K2 x h2 => ?_
  refine Prog.Defined.seq ((within_shiftLoop (L := fun _ => False) (S := fun _ => False) (A := fun _ => False) P _ _ _ _).defined K2 (nothing _)) fun K3 s1 h3 => ?_
  refine Prog.Defined.seq ((within_shiftLoop (L := fun _ => False) (S := fun _ => False) (A := fun _ => False) P _ _ _ _).defined K3 (nothing _)) fun K4 s2 h4 => ?_
  refine Prog.Defined.seq ((within_main (L := fun _ => False) (S := fun _ => False) (A := fun _ => False) P _).defined K4 (nothing _)) fun K5 s3 h5 => ?_
  split
  · exact .crash _ _
  · next a =>
    refine Prog.Defined.seq (defined_output P _ a n 0 K5) fun K6 _ h6 => .done _ _ ⟨?_, fun x hx => outHas_of a n K6 (fun j hj => h6.2 j (by omega) (by omega)) x hx⟩
    exact h1.1.trans (h2.1.trans (h3.1.trans (h4.1.trans (h5.1.trans h6.1))))

end

theorem defined_digestFinalize (alg : UInt32) (st : DigestState) (out : Option Addr) (ha : digestInit DigestState.zero alg ≠ none) (K : Addr → Prop) :
    (digestFinalizeP alg st out).Defined (fun K' _ => Keeps K K' ∧ ∀ a, OutHas out (digestEnumToSize alg).toNat a → K' a) K := by
  refine defined_branch _ (fun h0 => ?_) fun h0 => defined_branch _ (fun h1 => ?_) fun h1 => defined_branch _ (fun h2 => ?_) fun h2 => ?_
  · subst h0; exact (defined_finalize _ _ out 28 K).seq fun _ _ h => .done _ _ h
  · subst h1; exact (defined_finalize _ _ out 32 K).seq fun _ _ h => .done _ _ h
  · subst h2; exact (defined_finalize _ _ out 48 K).seq fun _ _ h => .done _ _ h
  · have h3 : alg = 3 := by
      unfold digestInit at ha
      rw [if_neg h0, if_neg h1, if_neg h2] at ha
      by_cases h3 : alg = 3
      · exact h3
      · rw [if_neg h3] at ha; exact absurd rfl ha
    subst h3
    exact (defined_finalize _ _ out 64 K).seq fun _ _ h => .done _ _ h

/-- A slice that is not an error. -/
def MSlice.Sound (s : MSlice) : Prop := s.addr = none → s.size = 0

section
variable {L S : Addr → Prop} {A : Region → Prop}

theorem within_digestList_ok (alg : UInt32) (n : Nat) : ∀ (l : List MSlice) (st : DigestState), (∀ s ∈ l.take n, ∀ a, s.Has a → L a) →
    (digestListP alg n l st).Within L S A fun r => (∀ s ∈ l.take n, s.Sound) → r.1 = .ok := by
  induction n with
  | zero => intro l st _; rw [digestListP]; exact .note _ _ (.done _ fun _ => rfl)
  | succ n ih =>
    intro l st h
    cases l with
    | nil => exact .crash _
    | cons s rest =>
      rw [digestListP]
      have hr : ∀ s ∈ rest.take n, ∀ a, s.Has a → L a := fun x hx => h x (by rw [List.take_succ_cons]; exact List.mem_cons_of_mem _ hx)
      have hnext : ∀ st, (digestListP alg n rest st).Within L S A fun r => (∀ x ∈ (s :: rest).take (n + 1), x.Sound) → r.1 = .ok := fun st =>
        (ih rest st hr).mono (fun _ h => h) (fun _ h => h) (fun _ h => h) fun r hok hs => hok fun x hx => hs x (by rw [List.take_succ_cons]; exact List.mem_cons_of_mem _ hx)
      refine .note _ _ (within_branch _ (fun _ => hnext st) fun hz => within_branch _ (fun hn => .done _ fun hs => ?_) fun _ =>
        (within_digestUpdate alg st s (h s (by rw [List.take_succ_cons]; exact List.mem_cons_self))).seq fun _ _ => hnext _)
      exact absurd (hs s (by rw [List.take_succ_cons]; exact List.mem_cons_self) hn) hz

theorem within_digestGather_ok (alg : UInt32) (g : MList) (st : DigestState) (h : ∀ s ∈ g.slices, ∀ a, s.Has a → L a) :
    (digestGatherP alg g st).Within L S A fun r => (∀ s ∈ g.slices, s.Sound) → r.1 = .ok := by
  unfold digestGatherP
  split
  · exact within_branch _ (fun _ => .done _ fun _ => rfl) fun _ => .crash _
  · next l hl =>
    have := within_digestList_ok (L := L) (S := S) (A := A) alg g.count.toNat l st (by simpa only [MList.slices, hl, Option.getD_some] using h)
    simpa only [MList.slices, hl, Option.getD_some] using this

theorem within_digestLists_ok (alg : UInt32) (n : Nat) : ∀ (l : List MList) (st : DigestState), (∀ g ∈ l.take n, ∀ s ∈ g.slices, ∀ a, s.Has a → L a) →
    (digestListsP alg n l st).Within L S A fun r => (∀ g ∈ l.take n, ∀ s ∈ g.slices, s.Sound) → r.1 = .ok := by
  induction n with
  | zero => intro l st _; rw [digestListsP]; exact .note _ _ (.done _ fun _ => rfl)
  | succ n ih =>
    intro l st h
    cases l with
    | nil => exact .crash _
    | cons g rest =>
      rw [digestListsP]
      refine .note _ _ ((within_digestGather_ok alg g st (h g (by rw [List.take_succ_cons]; exact List.mem_cons_self))).seq fun r hg =>
        within_branch _ (fun _ => (ih rest _ fun x hx => h x (by rw [List.take_succ_cons]; exact List.mem_cons_of_mem _ hx)).mono (fun _ h => h) (fun _ h => h) (fun _ h => h)
          fun r hok hs => hok fun x hx => hs x (by rw [List.take_succ_cons]; exact List.mem_cons_of_mem _ hx)) fun hr => .done _ fun hs => ?_)
      exact absurd (hg (hs g (by rw [List.take_succ_cons]; exact List.mem_cons_self))) hr

end

/-- Arguments of `digest` that are not an error. -/
structure DigestGood (alg : UInt32) (msg : Option (List MList)) (count : UInt64) (out : Option Addr) (size : Option UInt64) : Prop where
  known : digestInit DigestState.zero alg ≠ none
  room : ∃ sz, size = some sz ∧ digestEnumToSize alg ≤ sz
  dest : out ≠ none
  first : ∃ g gs, msg = some (g :: gs) ∧ (g.list = none → g.count = 0)
  slices : ∀ g ∈ (msg.getD []).take count.toNat, ∀ s ∈ g.slices, s.Sound

/-- What is known of a reply, and which octets are known. -/
structure DefReply (alg : UInt32) (out : Option Addr) (size : Option UInt64) (good : Prop) (K K' : Addr → Prop) (r : PReply) : Prop where
  keeps : Keeps K K'
  written : SizeReply alg size r
  output : r.err = .ok → ∀ a, OutHas out (digestEnumToSize alg).toNat a → K' a
  sound : good → r.err = .ok

theorem defined_digest (alg : UInt32) (msg : Option (List MList)) (count : UInt64) (out : Option Addr) (size : Option UInt64) (K : Addr → Prop)
    (hK : ∀ a, MessageHas msg count a → K a) :
    (digestP alg msg count out size).Defined (DefReply alg out size (DigestGood alg msg count out size) K) K := by
  refine Prog.Defined.seq (Q := fun K' r => DefReply alg out size (DigestGood alg msg count out size) K K' r.1) ?_ fun K' r hr => .leave _ _ _ (.done _ _ hr)
  unfold digestInternalP
  refine .note _ _ _ ?_
  split
  · next h => exact .done _ _ ⟨Keeps.refl _, .inl rfl, by simp, fun hg => absurd h hg.known⟩
  next st hst =>
  refine .note _ _ _ ?_
  split
  · exact .done _ _ ⟨Keeps.refl _, .inl rfl, by simp, fun hg => by obtain ⟨_, h, _⟩ := hg.room; cases h⟩
  next sz =>
  refine defined_branch _ (fun h => .done _ _ ⟨Keeps.refl _, .inr rfl, by simp, fun hg => ?_⟩) fun _ => ?_
  · obtain ⟨z, hz, hle⟩ := hg.room
    cases hz
    rcases h with h | h
    · rw [gt_iff_lt, UInt64.lt_iff_toNat_lt] at h
      rw [UInt64.le_iff_toNat_le] at hle
      omega
    · exact absurd h hg.dest
  unfold digestMessageP
  split
  · exact .note _ _ _ (.done _ _ ⟨Keeps.refl _, .inl rfl, by simp, fun hg => by obtain ⟨_, _, h, _⟩ := hg.first; cases h⟩)
  · exact .crash _ _
  next g gs =>
  refine .note _ _ _ (defined_branch _ (fun h => .done _ _ ⟨Keeps.refl _, .inl rfl, by simp, fun hg => ?_⟩) fun _ => ?_)
  · obtain ⟨g', gs', he, hn⟩ := hg.first
    cases he
    exact absurd (hn h.2) h.1
  refine Prog.Defined.seq ((within_digestLists_ok (L := K) (S := fun _ => False) (A := fun _ => False) alg _ _ st fun g' hg s hs a ha => hK a ⟨g', hg, s, hs, ha⟩).defined K (Keeps.refl K))
    fun K1 r hr => defined_branch _ (fun _ => ?_) fun h => .done _ _ ⟨hr.1, .inl rfl, fun e => absurd e h, fun hg => hr.2 hg.slices⟩
  exact (defined_digestFinalize alg r.2 out (by rw [hst]; simp) K1).seq fun K2 _ h => .done _ _ ⟨hr.1.trans h.1, .inr rfl, fun _ => h.2, fun _ => rfl⟩

theorem init_of_size (alg : UInt32) (h : digestEnumToSize alg ≠ 0) : digestInit DigestState.zero alg ≠ none := by
  unfold digestInit
  unfold digestEnumToSize at h
  by_cases h0 : alg = 0
  · rw [if_pos h0]; simp
  by_cases h1 : alg = 1
  · rw [if_neg h0, if_pos h1]; simp
  by_cases h2 : alg = 2
  · rw [if_neg h0, if_neg h1, if_pos h2]; simp
  by_cases h3 : alg = 3
  · rw [if_neg h0, if_neg h1, if_neg h2, if_pos h3]; simp
  · rw [if_neg h0, if_neg h1, if_neg h2, if_neg h3] at h
    exact absurd rfl h

/-! ## hmac -/

/-- Arguments of `hmac` that are not an error. -/
structure HmacGood (alg : UInt32) (key : MSlice) (msg : Option MList) (out : Option Addr) (size : Option UInt64) : Prop where
  known : digestEnumToSize alg ≠ 0
  room : ∃ sz, size = some sz ∧ digestEnumToSize alg ≤ sz
  key : key.Sound
  dest : out ≠ none
  first : ∃ g, msg = some g ∧ (g.list = none → g.count = 0) ∧ ∀ s ∈ g.slices, s.Sound

theorem one_slices (s : MSlice) : (⟨1, some [s]⟩ : MList).slices = [s] := rfl

theorem defined_wipe (a : Addr) (n i : Nat) (K : Addr → Prop) : (wipeP a n i).Defined (fun K' _ => Keeps K K') K :=
  ((within_wipe (L := fun _ => False) (S := fun _ => True) (A := fun _ => False) a n i fun _ _ _ => trivial).defined K fun _ h => h.elim).post fun _ _ h => h.1

theorem defined_copy (dst src : Addr) (n : Nat) : ∀ (i : Nat) (K : Addr → Prop), (∀ j, i ≤ j → j < i + n → K (src.plus j)) →
    (copyP dst src n i).Defined (fun K' _ => Keeps K K' ∧ ∀ j, i ≤ j → j < i + n → K' (dst.plus j)) K := by
  induction n with
  | zero => intro i K _; exact .done _ _ ⟨Keeps.refl _, fun j h1 h2 => by omega⟩
  | succ n ih =>
    intro i K h
    refine .load _ _ _ (h i (by omega) (by omega)) fun b => .store _ _ _ _ ((ih (i + 1) _ fun j h1 h2 => .inl (h j (by omega) (by omega))).post
      fun K' x hx => ⟨fun a ha => hx.1 a (.inl ha), fun j h1 h2 => ?_⟩)
    by_cases e : j = i
    · subst e; exact hx.1 _ (.inr rfl)
    · exact hx.2 j (by omega) (by omega)

theorem defined_xor (a : Addr) (x : UInt8) (n i : Nat) (K : Addr → Prop) (h : ∀ j, K (a.plus j)) : (xorP a x n i).Defined (fun K' _ => Keeps K K') K :=
  ((within_xor (L := K) (S := fun _ => True) (A := fun _ => False) a x n i fun j _ _ => ⟨h j, trivial⟩).defined K (Keeps.refl K)).post fun _ _ h => h.1

theorem defined_hmacKey (alg : UInt32) (key : MSlice) (block ds : UInt64) (hds : ds = digestEnumToSize alg) (K : Addr → Prop) (hk : ∀ a, key.Has a → K a) :
    (hmacKeyP alg key block ds).Defined (fun K' r => Keeps K K' ∧ r.size = some (digestEnumToSize alg) ∧ (digestEnumToSize alg ≠ 0 → key.Sound → r.err = .ok)) K := by
  refine defined_branch _ (fun _ => Prog.Defined.seq (defined_digest alg _ 1 _ _ K fun a ha => ?_) fun K1 r hr => .done _ _ ⟨hr.keeps, ?_, fun hz hs => hr.sound ?_⟩) fun _ => ?_
  · obtain ⟨g, hg, s, hs, hsa⟩ := ha
    simp only [Option.getD_some, UInt64.reduceToNat, List.take_succ_cons, List.take_nil, List.take_zero, List.mem_singleton] at hg
    subst hg
    rw [one_slices, List.mem_singleton] at hs
    subst hs
    exact hk a hsa
  · rcases hr.written with h | h
    · rw [h]; simp [hds]
    · rw [h]; rfl
  · refine ⟨init_of_size alg hz, ⟨ds, rfl, by rw [hds]; exact UInt64.le_refl _⟩, by simp, ⟨_, _, rfl, by simp⟩, fun g hg s hs' => ?_⟩
    simp only [Option.getD_some, UInt64.reduceToNat, List.take_succ_cons, List.take_nil, List.take_zero, List.mem_singleton] at hg
    subst hg
    rw [one_slices, List.mem_singleton] at hs'
    subst hs'
    exact hs
  · split
    · exact .crash _ _
    · next x hx =>
      refine Prog.Defined.seq (defined_copy keyAddr x _ 0 K fun j _ hj => hk _ ⟨x, hx, rfl, by simp only [Addr.plus]; omega, by simp only [Addr.plus]; omega⟩) fun K1 _ h =>
        .done _ _ ⟨h.1, by rw [hds], fun _ _ => rfl⟩

section
variable {K : Addr → Prop} (hKk : InRegion .key K) (hKi : InRegion .inner K)
include hKk hKi

theorem defined_hmacOuter (alg : UInt32) (block ds : UInt64) (out : Option Addr) (size : UInt64) :
    (hmacOuterP alg block ds out size).Defined (DefReply alg out (some size) (digestEnumToSize alg ≠ 0 ∧ digestEnumToSize alg ≤ size ∧ out ≠ none) K) K := by
  refine Prog.Defined.seq (defined_xor keyAddr _ _ 0 K fun j => hKk _) fun K1 _ h1 => (defined_digest alg _ 2 _ _ K1 fun a ha => ?_).post fun K2 r hr =>
    ⟨h1.trans hr.keeps, hr.written, hr.output, fun hg => hr.sound ⟨init_of_size alg hg.1, ⟨size, rfl, hg.2.1⟩, hg.2.2, ⟨_, _, rfl, by simp⟩, fun g hgm s hs => ?_⟩⟩
  · obtain ⟨g, hg, s, hs, hsa⟩ := ha
    simp only [Option.getD_some, UInt64.reduceToNat, List.take_succ_cons, List.take_nil, List.take_zero, List.mem_cons, List.not_mem_nil, or_false] at hg
    rcases hg with rfl | rfl
    · rw [one_slices, List.mem_singleton] at hs
      subst hs
      exact h1 a (slice_region hKk _ _ a hsa)
    · rw [one_slices, List.mem_singleton] at hs
      subst hs
      exact h1 a (slice_region hKi _ _ a hsa)
  · simp only [Option.getD_some, UInt64.reduceToNat, List.take_succ_cons, List.take_nil, List.take_zero, List.mem_cons, List.not_mem_nil, or_false] at hgm
    rcases hgm with rfl | rfl
    · rw [one_slices, List.mem_singleton] at hs
      subst hs
      intro h; cases h
    · rw [one_slices, List.mem_singleton] at hs
      subst hs
      intro h; cases h

theorem defined_hmacMessage (alg : UInt32) (block : UInt64) (msg : Option MList) (hm : ∀ a, MList.Has msg a → K a) (out : Option Addr) (size : UInt64) :
    (hmacMessageP alg block (digestEnumToSize alg) msg out size).Defined (DefReply alg out (some size) (digestEnumToSize alg ≠ 0 ∧ digestEnumToSize alg ≤ size ∧ out ≠ none ∧
      ∃ g, msg = some g ∧ (g.list = none → g.count = 0) ∧ ∀ s ∈ g.slices, s.Sound) K) K := by
  unfold hmacMessageP
  split
  · exact .note _ _ _ (.done _ _ ⟨Keeps.refl _, .inl rfl, by simp, fun hg => by obtain ⟨_, h, _⟩ := hg.2.2.2; cases h⟩)
  next g =>
  refine .note _ _ _ (defined_branch _ (fun h => .done _ _ ⟨Keeps.refl _, .inl rfl, by simp, fun hg => ?_⟩) fun _ =>
    Prog.Defined.seq (defined_digest alg _ 2 _ _ K fun a ha => ?_) fun K1 r hr => defined_branch _ (fun _ => ?_) fun he =>
      .done _ _ ⟨hr.keeps, .inl rfl, fun e => absurd e he, fun hg => absurd (hr.sound ?_) he⟩)
  · obtain ⟨_, e, h1, _⟩ := hg.2.2.2
    cases e
    exact absurd (h1 h.2) h.1
  · obtain ⟨x, hx, s, hs, hsa⟩ := ha
    simp only [Option.getD_some, UInt64.reduceToNat, List.take_succ_cons, List.take_nil, List.take_zero, List.mem_cons, List.not_mem_nil, or_false] at hx
    rcases hx with rfl | rfl
    · rw [one_slices, List.mem_singleton] at hs
      subst hs
      exact slice_region hKk _ _ a hsa
    · exact hm a ⟨x, rfl, s, hs, hsa⟩
  · exact (defined_hmacOuter (K := K1) (fun i => hr.keeps _ (hKk i)) (fun i => hr.keeps _ (hKi i)) alg block _ out size).post fun K2 x hx =>
      ⟨hr.keeps.trans hx.keeps, hx.written, hx.output, fun hg => hx.sound ⟨hg.1, hg.2.1, hg.2.2.1⟩⟩
  · refine ⟨init_of_size alg hg.1, ⟨_, rfl, UInt64.le_refl _⟩, by simp, ⟨_, _, rfl, by simp⟩, fun x hx s hs => ?_⟩
    obtain ⟨_, e, _, h2⟩ := hg.2.2.2
    cases e
    simp only [Option.getD_some, UInt64.reduceToNat, List.take_succ_cons, List.take_nil, List.take_zero, List.mem_cons, List.not_mem_nil, or_false] at hx
    rcases hx with rfl | rfl
    · rw [one_slices, List.mem_singleton] at hs
      subst hs
      intro h; cases h
    · exact h2 s hs

theorem defined_hmacInternal (alg : UInt32) (key : MSlice) (hk : ∀ a, key.Has a → K a) (msg : Option MList) (hm : ∀ a, MList.Has msg a → K a) (out : Option Addr)
    (size : Option UInt64) : (hmacInternalP alg key msg out size).Defined (DefReply alg out size (HmacGood alg key msg out size) K) K := by
  refine defined_branch _ (fun h => .done _ _ ⟨Keeps.refl _, .inl rfl, by simp, fun hg => absurd h hg.known⟩) fun _ => .note _ _ _ ?_
  split
  · exact .done _ _ ⟨Keeps.refl _, .inl rfl, by simp, fun hg => by obtain ⟨_, h, _⟩ := hg.room; cases h⟩
  next sz =>
  refine defined_branch _ (fun h => .done _ _ ⟨Keeps.refl _, .inl rfl, by simp, fun hg => absurd (hg.key h.1) h.2⟩) fun _ =>
    defined_branch _ (fun h => .done _ _ ⟨Keeps.refl _, .inr rfl, by simp, fun hg => ?_⟩) fun _ => ?_
  · obtain ⟨z, hz, hle⟩ := hg.room
    cases hz
    rcases h with h | h
    · exact absurd h hg.dest
    · rw [UInt64.lt_iff_toNat_lt] at h
      rw [UInt64.le_iff_toNat_le] at hle
      omega
  refine Prog.Defined.seq (defined_hmacKey alg key _ _ rfl K hk) fun K1 r hr => defined_branch _ (fun _ => ?_) fun he =>
    .done _ _ ⟨hr.1, .inl rfl, fun e => absurd e he, fun hg => absurd (hr.2.2 hg.known hg.key) he⟩
  have e : r.size.getD (digestEnumToSize alg) = digestEnumToSize alg := by rw [hr.2.1]; rfl
  rw [e]
  refine Prog.Defined.seq (defined_xor keyAddr _ _ 0 K1 fun j => hr.1 _ (hKk _)) fun K2 _ h2 => ?_
  have h12 := hr.1.trans h2
  exact (defined_hmacMessage (K := K2) (fun i => h12 _ (hKk i)) (fun i => h12 _ (hKi i)) alg _ msg (fun a ha => h12 a (hm a ha)) out sz).post fun K3 x hx =>
    ⟨h12.trans hx.keeps, hx.written, hx.output, fun hg => hx.sound ⟨hg.known, by obtain ⟨z, hz, hle⟩ := hg.room; cases hz; exact hle, hg.dest, hg.first⟩⟩

end

theorem defined_withSecret {Q : (Addr → Prop) → α → Prop} (r : Region) (n : Nat) (body : Prog α) (K : Addr → Prop) (h : body.Defined Q (fun x => K x ∨ x.region = r))
    (hQ : ∀ K' x, Q K' x → Q (fun a => K' a ∨ a.region = r) x) : (withSecretP r n body).Defined Q K :=
  .alloc _ _ _ _ (h.seq fun K' x hx => .free _ _ _ _ (.done _ _ (hQ K' x hx)))

theorem DefReply.more {alg : UInt32} {out : Option Addr} {size : Option UInt64} {good : Prop} {K K' K'' : Addr → Prop} {r : PReply} (h : DefReply alg out size good K K' r)
    (h' : Keeps K' K'') : DefReply alg out size good K K'' r := ⟨h.keeps.trans h', h.written, fun e a ha => h' a (h.output e a ha), h.sound⟩

theorem DefReply.less {alg : UInt32} {out : Option Addr} {size : Option UInt64} {good : Prop} {K0 K K' : Addr → Prop} {r : PReply} (h : DefReply alg out size good K K' r)
    (h' : Keeps K0 K) : DefReply alg out size good K0 K' r := ⟨h'.trans h.keeps, h.written, h.output, h.sound⟩

theorem defined_hmac (alg : UInt32) (key : MSlice) (msg : Option MList) (out : Option Addr) (size : Option UInt64) (K : Addr → Prop) (hk : ∀ a, key.Has a → K a)
    (hm : ∀ a, MList.Has msg a → K a) : (hmacP alg key msg out size).Defined (DefReply alg out size (HmacGood alg key msg out size) K) K := by
  refine defined_withSecret .key _ _ K (defined_withSecret .inner _ _ _ ?_ fun K' x hx => hx.more fun a ha => .inl ha) fun K' x hx => hx.more fun a ha => .inl ha
  refine Prog.Defined.seq (defined_hmacInternal (fun i => .inl (.inr rfl)) (fun i => .inr rfl) alg key (fun a ha => .inl (.inl (hk a ha))) msg (fun a ha => .inl (.inl (hm a ha))) out size)
    fun K1 r hr => Prog.Defined.seq (defined_wipe _ _ _ K1) fun K2 _ h2 => Prog.Defined.seq (defined_wipe _ _ _ K2) fun K3 _ h3 =>
      .done _ _ ((hr.less fun a ha => .inl (.inl ha)).more (h2.trans h3))

theorem defined_extract (alg : UInt32) (ikm salt : MSlice) (out : Option Addr) (size : Option UInt64) (K : Addr → Prop) (hi : ∀ a, ikm.Has a → K a)
    (hs : ∀ a, salt.Has a → K a) : (extractP alg ikm salt out size).Defined (DefReply alg out size False K) K := by
  refine defined_branch _ (fun _ => .done _ _ ⟨Keeps.refl _, .inl rfl, by simp, False.elim⟩) fun _ => defined_branch _
    (fun _ => .done _ _ ⟨Keeps.refl _, .inl rfl, by simp, False.elim⟩) fun _ => defined_branch _ (fun _ => .done _ _ ⟨Keeps.refl _, .inl rfl, by simp, False.elim⟩) fun _ =>
    .note _ _ _ ?_
  split
  · exact .done _ _ ⟨Keeps.refl _, .inl rfl, by simp, False.elim⟩
  refine defined_branch _ (fun _ => .done _ _ ⟨Keeps.refl _, .inr rfl, by simp, False.elim⟩) fun _ =>
    (defined_hmac alg salt _ out _ K hs fun a ha => ?_).post fun K' r hr => ⟨hr.keeps, hr.written, hr.output, False.elim⟩
  obtain ⟨l, hl, s, hss, hsa⟩ := ha
  simp only [Option.some.injEq] at hl
  subst hl
  rw [one_slices, List.mem_singleton] at hss
  subst hss
  exact hi a hsa

/-! ## hkdf -/

/-- The variables of the loop in `hkdf_expand`, and what is known of the output. -/
structure ExpandKnown (alg : UInt32) (out : Addr) (n : Nat) (K K' : Addr → Prop) (s : ExpandVars) : Prop where
  keeps : Keeps K K'
  size : s.digestSize = digestEnumToSize alg
  pos : ∃ k, s.out = out.plus k ∧ k + s.keyOctets.toNat = n ∧ ∀ j, j < k → K' (out.plus j)
  prev : ∀ a, s.prev.Has a → K' a
  sound : s.prev.Sound

theorem expandInput_known (prev info : MSlice) (K : Addr → Prop) (hc : InRegion .counter K) (hp : ∀ a, prev.Has a → K a) (hi : ∀ a, info.Has a → K a) (a : Addr)
    (h : MList.Has (some (expandInputAt prev info)) a) : K a := by
  obtain ⟨l, hl, s, hs, hsa⟩ := h
  simp only [Option.some.injEq] at hl
  subst hl
  simp only [MList.slices, expandInputAt, Option.getD_some, UInt64.reduceToNat, List.take_succ_cons, List.take_zero, List.mem_cons, List.not_mem_nil, or_false] at hs
  rcases hs with rfl | rfl | rfl
  · exact hp a hsa
  · exact hi a hsa
  · exact slice_region hc _ _ a hsa

theorem expand_good (alg : UInt32) (prk info prev : MSlice) (out : Addr) (size : UInt64) (ha : digestEnumToSize alg ≠ 0) (hs : size = digestEnumToSize alg) (hp : prk.Sound)
    (hi : info.Sound) (hv : prev.Sound) : HmacGood alg prk (some (expandInputAt prev info)) (some out) (some size) := by
  refine ⟨ha, ⟨size, rfl, by rw [hs]; exact UInt64.le_refl _⟩, hp, by simp, ⟨_, rfl, by simp [expandInputAt], fun s hs => ?_⟩⟩
  simp only [MList.slices, expandInputAt, Option.getD_some, UInt64.reduceToNat, List.take_succ_cons, List.take_zero, List.mem_cons, List.not_mem_nil, or_false] at hs
  rcases hs with rfl | rfl | rfl
  · exact hv
  · exact hi
  · intro h; cases h

section
variable (alg : UInt32) (prk info : MSlice) (out : Addr) (n : Nat) (K : Addr → Prop) (ha : digestEnumToSize alg ≠ 0) (hp : ∀ a, prk.Has a → K a) (hi : ∀ a, info.Has a → K a)
  (hps : prk.Sound) (his : info.Sound) (hc : InRegion .counter K)
include ha hp hi hps his hc

theorem defined_expandLoop (fuel : Nat) : ∀ (s : ExpandVars) (K' : Addr → Prop), ExpandKnown alg out n K K' s →
    (expandLoopP alg prk info fuel s).Defined (ExpandKnown alg out n K) K' := by
  induction fuel with
  | zero => intro s K' _; exact .crash _ _
  | succ fuel ih =>
    intro s K' hs
    rw [expandLoopP]
    refine defined_branch _ (fun hcc => ?_) fun _ => .done _ _ hs
    obtain ⟨k, hk, hsum, hkn⟩ := hs.pos
    have hle : (digestEnumToSize alg).toNat ≤ s.keyOctets.toNat := by rw [hs.size] at hcc; exact UInt64.le_iff_toNat_le.1 hcc
    refine Prog.Defined.seq (Q := fun K'' s => ExpandKnown alg out n K K'' s) ?_ fun K'' s' h => ih s' K'' h
    refine Prog.Defined.seq (defined_hmac alg prk _ _ _ K' (fun a h => hs.keeps a (hp a h)) (expandInput_known _ _ K' (fun i => hs.keeps _ (hc i)) hs.prev
      fun a h => hs.keeps a (hi a h))) fun K1 r hr => .load _ _ _ (hr.keeps _ (hs.keeps _ (hc 0))) fun c => .store _ _ _ _ (.done _ _ ?_)
    have hok := hr.sound (expand_good alg prk info s.prev s.out s.digestSize ha hs.size hps his hs.sound)
    have hout := hr.output hok
    have hsz : r.size.getD s.digestSize = digestEnumToSize alg := by
      rcases hr.written with h | h
      · rw [h]; exact hs.size
      · rw [h]; rfl
    rw [hsz]
    refine ⟨fun a ha => .inl (hr.keeps _ (hs.keeps a ha)), rfl, ⟨k + (digestEnumToSize alg).toNat, ?_, ?_, fun j hj => .inl ?_⟩, fun a ha => .inl ?_, fun h => by cases h⟩
    · show s.out.plus _ = _
      rw [hk]
      simp only [Addr.plus, Nat.add_assoc]
    · show _ + (s.keyOctets - digestEnumToSize alg).toNat = n
      rw [UInt64.toNat_sub_of_le _ _ (UInt64.le_iff_toNat_le.2 hle)]
      omega
    · by_cases h : j < k
      · exact hr.keeps _ (hkn j h)
      · refine hout _ ⟨s.out, rfl, ?_⟩
        rw [hk]
        exact ⟨rfl, by simp only [Addr.plus]; omega, by simp only [Addr.plus]; omega⟩
    · obtain ⟨x, hx, hcov⟩ := ha
      cases hx
      exact hout a ⟨s.out, rfl, hcov⟩

theorem defined_expandRest (s : ExpandVars) (K' : Addr → Prop) (hs : ExpandKnown alg out n K K' s) :
    (expandRestP alg prk info s).Defined (fun K'' r => Keeps K K'' ∧ (r.err = .ok → ∀ j, j < n → K'' (out.plus j))) K' := by
  obtain ⟨k, hk, hsum, hkn⟩ := hs.pos
  refine defined_branch _ (fun hcc => ?_) fun h => .done _ _ ⟨hs.keeps, fun _ j hj => hkn j ?_⟩
  · refine defined_withSecret .block _ _ _ ?_ fun K'' x hx => ⟨fun a ha => .inl (hx.1 a ha), fun e j hj => .inl (hx.2 e j hj)⟩
    refine Prog.Defined.seq (defined_hmac alg prk _ _ _ _ (fun a h => .inl (hs.keeps a (hp a h))) (expandInput_known _ _ _ (fun i => .inl (hs.keeps _ (hc i)))
      (fun a h => .inl (hs.prev a h)) fun a h => .inl (hs.keeps a (hi a h)))) fun K1 r hr => defined_branch _ (fun _ => ?_) fun he => ?_
    · refine Prog.Defined.seq (defined_copy s.out blockAddr _ 0 K1 fun j _ _ => hr.keeps _ (.inr rfl)) fun K2 _ h2 => Prog.Defined.seq (defined_wipe _ _ _ K2) fun K3 _ h3 =>
        .done _ _ ⟨fun a ha => h3 a (h2.1 a (hr.keeps a (.inl (hs.keeps a ha)))), fun _ j hj => h3 _ ?_⟩
      by_cases h : j < k
      · exact h2.1 _ (hr.keeps _ (.inl (hkn j h)))
      · have := h2.2 (j - k) (by omega) (by omega)
        rw [hk] at this
        simp only [Addr.plus] at this
        rw [show out.off + k + (j - k) = out.off + j by omega] at this
        exact this
    · exact Prog.Defined.seq (defined_wipe _ _ _ K1) fun K2 _ h2 => .done _ _ ⟨fun a ha => h2 a (hr.keeps a (.inl (hs.keeps a ha))), fun e => absurd e he⟩
  · have : ¬ (0 : UInt64).toNat < s.keyOctets.toNat := fun h' => h (UInt64.lt_iff_toNat_lt.2 h')
    simp only [UInt64.toNat_zero] at this
    omega

end

theorem defined_expand (alg : UInt32) (prk info : MSlice) (n : UInt64) (out : Option Addr) (K : Addr → Prop) (hp : ∀ a, prk.Has a → K a) (hi : ∀ a, info.Has a → K a) :
    (hkdfExpandP alg prk info n out).Defined (fun K' r => Keeps K K' ∧ (r.err = .ok → ∀ a, OutHas out n.toNat a → K' a)) K := by
  refine defined_branch _ (fun _ => .done _ _ ⟨Keeps.refl _, by simp⟩) fun hz => defined_branch _ (fun _ => .done _ _ ⟨Keeps.refl _, by simp⟩) fun hps => defined_branch _
    (fun _ => .done _ _ ⟨Keeps.refl _, by simp⟩) fun his => defined_branch _ (fun h0 => .done _ _ ⟨Keeps.refl _, fun _ a ha => ?_⟩) fun _ => .note _ _ _ ?_
  · subst h0
    obtain ⟨_, _, _, h1, h2⟩ := ha
    simp only [UInt64.toNat_zero] at h2
    omega
  split
  · exact .done _ _ ⟨Keeps.refl _, by simp⟩
  next o =>
  have sound : ∀ s : MSlice, ¬(s.addr = none ∧ s.size ≠ 0) → s.Sound := fun s h e => Classical.byContradiction fun hn => h ⟨e, hn⟩
  refine .alloc _ _ _ _ (Prog.Defined.seq (Q := fun K' r => Keeps K K' ∧ (r.err = .ok → ∀ j, j < n.toNat → K' (o.plus j))) ?_ fun K' x hx => .free _ _ _ _ (.done _ _
    ⟨fun a ha => .inl (hx.1 a ha), fun e a ha => .inl (outHas_of o n.toNat K' (hx.2 e) a ha)⟩))
  refine Prog.Defined.seq (defined_expandLoop alg prk info o n.toNat _ hz (fun a h => .inl (hp a h)) (fun a h => .inl (hi a h)) (sound _ hps) (sound _ his) (fun i => .inr rfl) _ _ _
    ⟨Keeps.refl _, rfl, ⟨0, rfl, by simp, fun j hj => absurd hj (Nat.not_lt_zero j)⟩, fun a ha => ?_, fun _ => rfl⟩) fun K1 s hs =>
    (defined_expandRest alg prk info o n.toNat _ hz (fun a h => .inl (hp a h)) (fun a h => .inl (hi a h)) (sound _ hps) (sound _ his) (fun i => .inr rfl) s K1 hs).post
      fun K2 r hr => ⟨fun a ha => hr.1 a (.inl ha), hr.2⟩
  obtain ⟨_, h, _⟩ := ha
  cases h

theorem defined_hkdf (alg : UInt32) (ikm salt info : MSlice) (n : UInt64) (out : Option Addr) (K : Addr → Prop) (hk : ∀ a, ikm.Has a → K a) (hs : ∀ a, salt.Has a → K a)
    (hi : ∀ a, info.Has a → K a) :
    (hkdfP alg ikm salt info n out).Defined (fun K' r => Keeps K K' ∧ (r.err = .ok → ∀ a, OutHas out n.toNat a → K' a)) K := by
  refine defined_branch _ (fun _ => .done _ _ ⟨Keeps.refl _, by simp⟩) fun _ => defined_branch _ (fun _ => .done _ _ ⟨Keeps.refl _, by simp⟩) fun _ => defined_branch _
    (fun _ => .done _ _ ⟨Keeps.refl _, by simp⟩) fun _ => defined_branch _ (fun _ => .done _ _ ⟨Keeps.refl _, by simp⟩) fun _ => ?_
  refine defined_withSecret .prk _ _ _ ?_ fun K'' x hx => ⟨fun a ha => .inl (hx.1 a ha), fun e a ha => .inl (hx.2 e a ha)⟩
  refine Prog.Defined.seq (defined_extract alg ikm salt _ _ _ (fun a h => .inl (hk a h)) fun a h => .inl (hs a h)) fun K1 r hr => defined_branch _ (fun _ => ?_) fun he => ?_
  · refine Prog.Defined.seq (defined_expand alg _ info n out K1 (fun a h => hr.keeps _ (.inr ?_)) fun a h => hr.keeps a (.inl (hi a h))) fun K2 z hz =>
      Prog.Defined.seq (defined_wipe _ _ _ K2) fun K3 _ h3 => .done _ _ ⟨fun a ha => h3 a (hz.1 a (hr.keeps a (.inl ha))), fun e a ha => h3 a (hz.2 e a ha)⟩
    exact slice_region (r := .prk) (P := fun x => x.region = .prk) (fun _ => rfl) _ _ a h
  · exact Prog.Defined.seq (defined_wipe _ _ _ K1) fun K2 _ h2 => .done _ _ ⟨fun a ha => h2 a (hr.keeps a (.inl ha)), fun e => absurd e he⟩

end Nat20
