import Verif.Spec.Keys
import Verif.Lemmas.Keys
/-!
# Lemmas about the digest functions of the reference context
-/

namespace Nat20

open Fips

theorem bsslMd_algId (a : Alg) : bsslMd (algId a) = some a := by cases a <;> rfl
theorem bsslDigestSize_algId (a : Alg) : bsslDigestSize (algId a) = UInt64.ofNat a.size := by cases a <;> rfl

theorem readSlice_ok (s : Slice) (hv : s.Valid) (p : Ptr) (hp : s.buffer = some p) : readSlice p s.size = .ok s.bytes := by
  have h : s.size.toNat ≤ p.data.length := by
    exact hv p hp
  unfold readSlice Slice.bytes
  rw [if_neg (by omega), hp]

theorem readArg_ok (s : Slice) (hv : s.Valid) (hn : s.buffer = none → s.size = 0) : readArg s = .ok s.bytes := by
  unfold readArg
  cases h : s.buffer with
  | none =>
    rw [slice_bytes_of_size_zero s (hn h)]
    simp [hn h]
  | some p => exact readSlice_ok s hv p h

/-- The loop over slices stops at the first one that announces octets at NULL. -/
theorem bsslSlices_ok (n : Nat) : ∀ (l : List Slice) (acc : Bytes), n ≤ l.length → (∀ s ∈ l.take n, s.Valid) →
    ((∃ s ∈ l.take n, s.buffer = none ∧ s.size ≠ 0) → ∃ acc', bsslSlices n l acc = .ok (.nullSlice, acc')) ∧
    ((∀ s ∈ l.take n, s.buffer = none → s.size = 0) → bsslSlices n l acc = .ok (.ok, acc ++ ((l.take n).map Slice.bytes).flatten)) := by
  induction n with
  | zero => intro l acc _ _; simp [bsslSlices]
  | succ n ih =>
    intro l acc hl hv
    cases l with
    | nil => simp at hl
    | cons s rest =>
      rw [List.take_succ_cons] at hv ⊢
      have hs := hv s (by simp)
      have hrest : ∀ x ∈ rest.take n, x.Valid := fun x hx => hv x (List.mem_cons_of_mem _ hx)
      have hlen : n ≤ rest.length := by simpa using hl
      simp only [bsslSlices]
      by_cases h0 : s.size = 0
      · rw [if_pos h0]
        obtain ⟨i1, i2⟩ := ih rest acc hlen hrest
        constructor
        · rintro ⟨x, hx, h1, h2⟩
          rcases List.mem_cons.1 hx with rfl | h
          · exact absurd h0 h2
          · exact i1 ⟨x, h, h1, h2⟩
        · intro h
          rw [i2 fun x hx => h x (List.mem_cons_of_mem _ hx)]
          simp [slice_bytes_of_size_zero s h0]
      · rw [if_neg h0]
        cases hb : s.buffer with
        | none =>
          constructor
          · intro _
            exact ⟨acc, rfl⟩
          · intro h
            exact absurd (h s (by simp) hb) h0
        | some p =>
          have hr := readSlice_ok s hs p hb
          simp only [hr, bind, Except.bind]
          obtain ⟨i1, i2⟩ := ih rest (acc ++ s.bytes) hlen hrest
          constructor
          · rintro ⟨x, hx, h1, h2⟩
            rcases List.mem_cons.1 hx with rfl | h
            · rw [hb] at h1; simp at h1
            · exact i1 ⟨x, h, h1, h2⟩
          · intro h
            rw [i2 fun x hx => h x (List.mem_cons_of_mem _ hx)]
            simp

/-- The same for a gather list that is not at NULL. -/
theorem bsslSlices_gather (g : GatherList) (hg : g.Valid) (hl : g.NoNullList) (acc : Bytes) :
    (¬ g.NoNullSlice → ∃ acc', bsslSlices g.count.toNat (g.list.getD []) acc = .ok (.nullSlice, acc')) ∧
    (g.NoNullSlice → bsslSlices g.count.toNat (g.list.getD []) acc = .ok (.ok, acc ++ g.bytes)) := by
  have hlen : g.count.toNat ≤ (g.list.getD []).length := by
    cases h : g.list with
    | none => rw [hl h]; simp
    | some l => exact hg.list l h
  obtain ⟨h1, h2⟩ := bsslSlices_ok g.count.toNat (g.list.getD []) acc hlen hg.slices
  constructor
  · intro h
    apply h1
    exact Classical.byContradiction fun hn => h fun s hs hb => Classical.byContradiction fun h0 => hn ⟨s, hs, hb, h0⟩
  · exact h2

theorem bsslGather_ok (g : GatherList) (hg : g.Valid) (acc : Bytes) :
    (¬ g.NoNullSlice → ∃ acc', bsslGather g acc = .ok (.nullSlice, acc')) ∧
    (g.NoNullSlice → bsslGather g acc = .ok (.ok, acc ++ g.bytes)) := by
  unfold bsslGather
  by_cases h0 : g.count = 0
  · rw [if_pos h0]
    have he : g.slices = [] := by unfold GatherList.slices; rw [h0]; simp
    constructor
    · intro h
      exact absurd (fun s hs => by rw [he] at hs; simp at hs) h
    · intro _
      unfold GatherList.bytes
      rw [he]
      simp
  · rw [if_neg h0]
    cases hl : g.list with
    | none =>
      have he : g.slices = [] := by unfold GatherList.slices; rw [hl]; simp
      constructor
      · intro h
        exact absurd (fun s hs => by rw [he] at hs; simp at hs) h
      · intro _
        unfold GatherList.bytes
        rw [he]
        simp
    | some l =>
      have := bsslSlices_gather g hg (fun h => by rw [hl] at h; simp at h) acc
      rw [hl] at this
      exact this

/-- The loop over gather lists; lists at NULL are skipped. -/
theorem bsslLists_ok (n : Nat) : ∀ (l : List GatherList) (acc : Bytes), n ≤ l.length → (∀ g ∈ l.take n, g.Valid) →
    ((∃ g ∈ l.take n, ¬ g.NoNullSlice) → ∃ acc', bsslLists n l acc = .ok (.nullSlice, acc')) ∧
    ((∀ g ∈ l.take n, g.NoNullSlice) → bsslLists n l acc = .ok (.ok, acc ++ ((l.take n).map GatherList.bytes).flatten)) := by
  induction n with
  | zero => intro l acc _ _; simp [bsslLists]
  | succ n ih =>
    intro l acc hl hv
    cases l with
    | nil => simp at hl
    | cons g rest =>
      rw [List.take_succ_cons] at hv ⊢
      have hg := hv g (by simp)
      have hrest : ∀ x ∈ rest.take n, x.Valid := fun x hx => hv x (List.mem_cons_of_mem _ hx)
      have hlen : n ≤ rest.length := by simpa using hl
      obtain ⟨g1, g2⟩ := bsslGather_ok g hg acc
      simp only [bsslLists]
      by_cases hs : g.NoNullSlice
      · obtain ⟨i1, i2⟩ := ih rest (acc ++ g.bytes) hlen hrest
        simp only [g2 hs, bind, Except.bind, if_true]
        constructor
        · rintro ⟨x, hx, h1⟩
          rcases List.mem_cons.1 hx with rfl | h
          · exact absurd hs h1
          · exact i1 ⟨x, h, h1⟩
        · intro h
          rw [i2 fun x hx => h x (List.mem_cons_of_mem _ hx)]
          simp
      · obtain ⟨acc', e⟩ := g1 hs
        simp only [e, bind, Except.bind]
        constructor
        · intro _
          exact ⟨acc', rfl⟩
        · intro h
          exact absurd (h g (by simp)) hs

theorem writeOut_ok (d bs : Bytes) (h : bs.length ≤ d.length) : writeOut (some d) bs = .ok (some (bs ++ d.drop bs.length)) := by
  unfold writeOut
  simp only
  rw [if_neg (by omega)]

theorem liftB_ok {α : Type} {x : Except UB α} {a : α} (h : x = .ok a) (w : World) : liftB x w = .ok (a, w) := by
  subst h
  rfl

theorem bindB {α β : Type} {c : B α} {f : α → B β} {w w' : World} {a : α} (h : c w = .ok (a, w')) : (c >>= f) w = f a w' := by
  show StateT.bind c f w = _
  simp only [StateT.bind, bind, Except.bind, h]

theorem bindB_error {α β : Type} {c : B α} {f : α → B β} {w : World} {u : UB} (h : c w = .error u) : (c >>= f) w = .error u := by
  show StateT.bind c f w = _
  simp only [StateT.bind, bind, Except.bind, h]

theorem bindLift {α β : Type} {x : Except UB α} {f : α → B β} {a : α} (h : x = .ok a) : (liftB x >>= f) = f a := by
  funext w
  exact bindB (liftB_ok h w)

/-- The three ways a computation goes on. -/
theorem bindE {α β : Type} {c : BE α} {f : α → BE β} {w w' : World} {a : α} (h : c w = .ok (.ok a, w')) : (c >>= f) w = f a w' := by
  show ((c : BE α).run >>= _) w = _
  simp only [Bind.bind, StateT.bind, ExceptT.run, h, Except.bind, ExceptT.bindCont]

theorem bindE_throw {α β : Type} {c : BE α} {f : α → BE β} {w w' : World} {e : N20Error} (h : c w = .ok (.error e, w')) :
    (c >>= f) w = .ok (.error e, w') := by
  show ((c : BE α).run >>= _) w = _
  simp only [Bind.bind, StateT.bind, ExceptT.run, h, Except.bind, ExceptT.bindCont]
  rfl

theorem bindE_error {α β : Type} {c : BE α} {f : α → BE β} {w : World} {u : UB} (h : c w = .error u) : (c >>= f) w = .error u := by
  show ((c : BE α).run >>= _) w = _
  simp only [Bind.bind, StateT.bind, ExceptT.run, h, Except.bind]

/-- A computation that cannot fail, followed by one that can. -/
theorem bindM {α β : Type} {c : B α} {f : α → BE β} {w w' : World} {a : α} (h : c w = .ok (a, w')) : ((liftM c : BE α) >>= f) w = f a w' := by
  apply bindE
  show (Except.ok <$> c) w = _
  simp only [Functor.map, StateT.map, bind, Except.bind, h]
  rfl

/-! ## Replies -/

theorem Replies.pure {α : Type} {lib : Lib} {err : α → N20Error} {r : α} {Q F : α → Prop} (h : Q r) : Replies lib err (Pure.pure r) Q F :=
  fun w => ⟨r, w, rfl, rfl, Nat.le_refl _, .inl h⟩

/-- A call of the library, and what is done if it succeeds and if it fails. -/
theorem Replies.call {α : Type} {lib : Lib} {err : α → N20Error} {f : Bool → B α} {Q F : α → Prop} (ht : Replies lib err (f true) Q F)
    (hf : ∀ w, ∃ r, f false w = .ok (r, w) ∧ F r ∧ (err r = .noResources ∨ err r = .implementationSpecific)) :
    Replies lib err (libCall lib >>= f) Q F := by
  intro w
  have e : (libCall lib >>= f) w = f (!lib.fails w.calls) { w with calls := w.calls + 1 } := bindB rfl
  unfold RepliesAt
  rw [e]
  cases h : lib.fails w.calls with
  | false =>
    obtain ⟨r, w', e, h1, h2, h3⟩ := ht { w with calls := w.calls + 1 }
    refine ⟨r, w', e, h1, by simp only at h2; omega, ?_⟩
    rcases h3 with h3 | ⟨h3, h4⟩
    · exact .inl h3
    · exact .inr ⟨h3, h4.mono (Nat.le_succ _) (Nat.le_refl _)⟩
  | true =>
    obtain ⟨r, e, h1, h2⟩ := hf { w with calls := w.calls + 1 }
    exact ⟨r, _, e, rfl, Nat.le_succ _, .inr ⟨h1, h2, w.calls, Nat.le_refl _, Nat.lt_succ_self _, h⟩⟩

end Nat20
