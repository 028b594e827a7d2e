import Verif.Lemmas.Resources
import Verif.Props.Keys
/-!
# The reference context loses no library object
-/

namespace Nat20

open Fips

/-! ## Accounts -/

theorem holds_unique {s : RWorld} {p : Nat} {b : Bytes ⊕ PKey} {l l' : List Nat} (h : OwnsObjs s p b l) (h' : OwnsObjs s p b l') : l = l' := by
  cases h with
  | cdi bits h1 => cases h' with
    | cdi _ h2 => rfl
  | ed25519 seed i h1 h2 => cases h' with
    | ed25519 _ i' h3 h4 => rw [h1] at h3; cases h3; rfl
  | ec c d i j h1 h2 h3 => cases h' with
    | ec _ _ i' j' h4 h5 h6 =>
      rw [h1] at h4; cases h4
      rw [h2] at h5; cases h5
      rfl

theorem OwnsObjs.transport {s s' : RWorld} {p : Nat} {b : Bytes ⊕ PKey} {l : List Nat} (h : OwnsObjs s p b l) (hm : s'.member p = s.member p)
    (hl : ∀ i ∈ l, s'.live i = s.live i) : OwnsObjs s' p b l := by
  cases h with
  | cdi bits h1 => exact .cdi bits (hm.trans h1)
  | ed25519 seed i h1 h2 => exact .ed25519 seed i (hm.trans h1) ((hl i (by simp)).trans h2)
  | ec c d i j h1 h2 h3 => exact .ec c d i j (hm.trans h1) ((hl i (by simp)).trans h2) ((hl j (by simp)).trans h3)

theorem OwnsObjs.exists_live {s : RWorld} {p : Nat} {b : Bytes ⊕ PKey} {l : List Nat} (h : OwnsObjs s p b l) {i : Nat} (hi : i ∈ l) : ∃ o, s.live i = some o := by
  cases h with
  | cdi bits h1 => simp at hi
  | ed25519 seed i' h1 h2 =>
    simp only [List.mem_singleton] at hi
    exact ⟨_, hi ▸ h2⟩
  | ec c d i' j h1 h2 h3 =>
    simp only [List.mem_cons, List.not_mem_nil, or_false] at hi
    rcases hi with rfl | rfl
    · exact ⟨_, h2⟩
    · exact ⟨_, h3⟩

theorem holds_congr {s s' : RWorld} (hm : s'.member = s.member) (hl : s'.live = s.live) {p : Nat} {b : Bytes ⊕ PKey} {l : List Nat} :
    OwnsObjs s' p b l ↔ OwnsObjs s p b l :=
  ⟨fun h => h.transport (by rw [hm]) fun i _ => by rw [hl], fun h => h.transport (by rw [hm]) fun i _ => by rw [hl]⟩

theorem Got.live_eq {s s' : RWorld} (h : Got s s' []) : s'.live = s.live := by
  funext i
  rw [h.live]
  rfl

theorem RWorld.Accounted.kept {s s' : RWorld} (h : s.Accounted) (g : Got s s' []) : s'.Accounted := by
  have hl : ∀ p k, Live s'.world p k ↔ Live s.world p k := fun p k => by unfold Live; rw [g.heap]
  have hh : ∀ {p b l}, OwnsObjs s' p b l ↔ OwnsObjs s p b l := holds_congr g.member g.live_eq
  refine ⟨g.fresh', ?_, ?_, ?_⟩
  · intro p k hp
    obtain ⟨l, h1⟩ := h.holds p k ((hl p k).1 hp)
    exact ⟨l, hh.2 h1⟩
  · intro p q k k' l l' i hp hq h1 h2
    exact h.disjoint p q k k' l l' i ((hl p k).1 hp) ((hl q k').1 hq) (hh.1 h1) (hh.1 h2)
  · intro i o hi
    rw [g.live_eq] at hi
    obtain ⟨p, k, l, h1, h2, h3⟩ := h.complete i o hi
    exact ⟨p, k, l, (hl p k).2 h1, hh.2 h2, h3⟩

theorem Live.lt {w : World} {p : Nat} {k : BsslKey} (h : Live w p k) : p < w.heap.length := (List.getElem?_eq_some_iff.1 h).1

theorem Live.unique {w : World} {p : Nat} {k k' : BsslKey} (h : Live w p k) (h' : Live w p k') : k = k' := by
  unfold Live at h h'
  rw [h] at h'
  cases h'
  rfl

/-- A new key object with the objects that it needs. -/
theorem accounted_new {s0 s : RWorld} (h : s0.Accounted) {l : List (Nat × LibObj)} (g : Got s0 s l) {key : BsslKey} {m : Option Nat} (hf : NeedsObjs key.body m l) :
    ∃ s', newKeyR key m s = .ok (s.world.heap.length, s') ∧ s'.world = { s.world with heap := s.world.heap ++ [some key] } ∧ s'.Accounted := by
  refine ⟨{ s with world := { s.world with heap := s.world.heap ++ [some key] }, member := setAt s.member s.world.heap.length m }, rfl, rfl, ?_⟩
  have old : ∀ p k, Live s0.world p k → p ≠ s.world.heap.length := by
    intro p k hp
    have := hp.lt
    have := congrArg List.length g.heap
    omega
  have lv : ∀ p k, Live { s.world with heap := s.world.heap ++ [some key] } p k ↔ (Live s0.world p k ∨ p = s.world.heap.length ∧ k = key) := by
    intro p k
    unfold Live
    simp only
    rcases Nat.lt_trichotomy p s.world.heap.length with h1 | h1 | h1
    · rw [List.getElem?_append_left h1, g.heap]
      constructor
      · exact .inl
      · rintro (h2 | ⟨h2, -⟩)
        · exact h2
        · have := congrArg List.length g.heap
          omega
    · subst h1
      rw [List.getElem?_append_right (Nat.le_refl _)]
      simp only [Nat.sub_self, List.getElem?_cons_zero, Option.some.injEq, true_and]
      constructor
      · intro h2; exact .inr h2.symm
      · rintro (h2 | h2)
        · exact absurd rfl (old _ _ h2)
        · exact h2.symm
    · rw [List.getElem?_eq_none (by simp; omega)]
      constructor
      · intro h2; cases h2
      · rintro (h2 | ⟨h2, -⟩)
        · have := Live.lt h2; rw [← g.heap] at this; omega
        · omega
  generalize hs : ({ s with world := { s.world with heap := s.world.heap ++ [some key] }, member := setAt s.member s.world.heap.length m } : RWorld) = s'
  have hlive : s'.live = s.live := by rw [← hs]
  have hmem : s'.member = setAt s.member s.world.heap.length m := by rw [← hs]
  have hworld : s'.world = { s.world with heap := s.world.heap ++ [some key] } := by rw [← hs]
  have hnext : s'.next = s.next := by rw [← hs]
  have memOld : ∀ p, p ≠ s.world.heap.length → s'.member p = s0.member p := by
    intro p hp
    rw [hmem]
    unfold setAt
    rw [if_neg hp, g.member]
  have memNew : s'.member s.world.heap.length = m := by rw [hmem]; unfold setAt; rw [if_pos rfl]
  have oldHolds : ∀ p k l, Live s0.world p k → OwnsObjs s0 p k.body l → OwnsObjs s' p k.body l := by
    intro p k l' hp hh
    refine hh.transport (memOld p (old p k hp)) fun i hi => ?_
    obtain ⟨o, ho⟩ := hh.exists_live hi
    rw [hlive, g.stays ho, ho]
  have newHolds : OwnsObjs s' s.world.heap.length key.body (l.map (·.1)) := by
    have hd := hlive
    generalize hb : key.body = b at hf
    cases hf with
    | cdi bits => exact .cdi bits memNew
    | ed25519 seed i => exact .ed25519 seed i memNew (by rw [hlive]; exact g.head)
    | ec c d i j hne =>
      refine .ec c d i j memNew (by rw [hlive]; exact g.head) ?_
      rw [hlive, g.live]
      simp [List.lookup, beq_false_of_ne (Ne.symm hne)]
  have lowOld : ∀ p k l' i, Live s0.world p k → OwnsObjs s0 p k.body l' → i ∈ l' → i < s0.next := by
    intro p k l' i hp hh hi
    obtain ⟨o, ho⟩ := hh.exists_live hi
    rcases Nat.lt_or_ge i s0.next with h1 | h1
    · exact h1
    · rw [h.fresh i h1] at ho; cases ho
  have lowNew : ∀ i, i ∈ l.map (·.1) → s0.next ≤ i := by
    intro i hi
    obtain ⟨e, he, rfl⟩ := List.mem_map.1 hi
    exact g.low e he
  have cases' : ∀ p k l', Live s'.world p k → OwnsObjs s' p k.body l' →
      (Live s0.world p k ∧ OwnsObjs s0 p k.body l') ∨ (p = s.world.heap.length ∧ k = key ∧ l' = l.map (·.1)) := by
    intro p k l' hp hh
    rw [hworld] at hp
    rcases (lv p k).1 hp with h1 | ⟨rfl, rfl⟩
    · obtain ⟨l0, h2⟩ := h.holds p k h1
      have := holds_unique hh (oldHolds p k l0 h1 h2)
      subst this
      exact .inl ⟨h1, h2⟩
    · exact .inr ⟨rfl, rfl, holds_unique hh newHolds⟩
  refine ⟨?_, ?_, ?_, ?_⟩
  · intro i hi
    rw [hlive]
    exact g.fresh' i (by rw [← hnext]; exact hi)
  · intro p k hp
    rw [hworld] at hp
    rcases (lv p k).1 hp with h1 | ⟨rfl, rfl⟩
    · obtain ⟨l0, h2⟩ := h.holds p k h1
      exact ⟨l0, oldHolds p k l0 h1 h2⟩
    · exact ⟨_, newHolds⟩
  · intro p q k k' l1 l2 i hp hq h1 h2 i1 i2
    rcases cases' p k l1 hp h1 with ⟨a1, a2⟩ | ⟨rfl, rfl, rfl⟩ <;> rcases cases' q k' l2 hq h2 with ⟨b1, b2⟩ | ⟨rfl, rfl, rfl⟩
    · exact h.disjoint p q k k' l1 l2 i a1 b1 a2 b2 i1 i2
    · have := lowOld p k l1 i a1 a2 i1
      have := lowNew i i2
      omega
    · have := lowOld q k' l2 i b1 b2 i2
      have := lowNew i i1
      omega
    · rfl
  · intro i o hi
    rw [hlive, g.live] at hi
    cases hk : l.lookup i with
    | some o' =>
      refine ⟨s.world.heap.length, key, _, ?_, newHolds, ?_⟩
      · rw [hworld]; exact (lv _ _).2 (.inr ⟨rfl, rfl⟩)
      · rw [List.lookup_eq_some_iff] at hk
        obtain ⟨l1, l2, e, -⟩ := hk
        rw [e]
        simp
    | none =>
      rw [hk] at hi
      obtain ⟨p, k, l', h1, h2, h3⟩ := h.complete i o hi
      refine ⟨p, k, l', ?_, oldHolds p k l' h1 h2, h3⟩
      rw [hworld]
      exact (lv _ _).2 (.inl h1)

/-- Destroying a key object and the objects that it has. -/
theorem accounted_free {s : RWorld} (h : s.Accounted) {p : Nat} {k : BsslKey} (hp : Live s.world p k) {l : List Nat} (hh : OwnsObjs s p k.body l) {s' : RWorld}
    (hw : s'.world = { s.world with heap := s.world.heap.set p none }) (hm : s'.member = s.member) (hn : s'.next = s.next)
    (hl : ∀ i, s'.live i = if i ∈ l then none else s.live i) : s'.Accounted := by
  have lv : ∀ q k', Live s'.world q k' ↔ (Live s.world q k' ∧ q ≠ p) := by
    intro q k'
    rw [hw]
    unfold Live
    simp only [List.getElem?_set]
    constructor
    · intro h1
      split at h1
      · split at h1 <;> cases h1
      · exact ⟨h1, by rename_i h2; exact fun e => h2 e.symm⟩
    · rintro ⟨h1, h2⟩
      rw [if_neg fun e => h2 e.symm]
      exact h1
  have keep : ∀ q k' l', Live s.world q k' → q ≠ p → OwnsObjs s q k'.body l' → OwnsObjs s' q k'.body l' := by
    intro q k' l' h1 h2 h3
    refine h3.transport (by rw [hm]) fun i hi => ?_
    rw [hl, if_neg]
    intro h4
    exact h2 (h.disjoint q p k' k l' l i h1 hp h3 hh hi h4)
  have back : ∀ q k' l', Live s.world q k' → q ≠ p → OwnsObjs s' q k'.body l' → OwnsObjs s q k'.body l' := by
    intro q k' l' h1 h2 h3
    obtain ⟨l0, h4⟩ := h.holds q k' h1
    have := holds_unique h3 (keep q k' l0 h1 h2 h4)
    subst this
    exact h4
  refine ⟨?_, ?_, ?_, ?_⟩
  · intro i hi
    rw [hl]
    split
    · rfl
    · exact h.fresh i (by rw [← hn]; exact hi)
  · intro q k' hq
    obtain ⟨h1, h2⟩ := (lv q k').1 hq
    obtain ⟨l0, h4⟩ := h.holds q k' h1
    exact ⟨l0, keep q k' l0 h1 h2 h4⟩
  · intro q q' k1 k2 l1 l2 i h1 h2 h3 h4 h5 h6
    obtain ⟨a1, a2⟩ := (lv q k1).1 h1
    obtain ⟨b1, b2⟩ := (lv q' k2).1 h2
    exact h.disjoint q q' k1 k2 l1 l2 i a1 b1 (back q k1 l1 a1 a2 h3) (back q' k2 l2 b1 b2 h4) h5 h6
  · intro i o hi
    rw [hl] at hi
    split at hi
    · cases hi
    · rename_i hni
      obtain ⟨q, k', l', h1, h2, h3⟩ := h.complete i o hi
      have hne : q ≠ p := by
        rintro rfl
        have e := h1.unique hp
        subst e
        exact hni (holds_unique h2 hh ▸ h3)
      exact ⟨q, k', l', (lv q k').2 ⟨h1, hne⟩, keep q k' l' h1 hne h2, h3⟩

/-! ## Refinement -/

/-- From `s` on, the computation with objects gives what the one without gives, and accounts for all objects afterwards. -/
def Refines {α : Type} (s : RWorld) (m : B α) (mR : R α) : Prop :=
  match m s.world with
  | .error e => mR s = .error e
  | .ok (a, w) => ∃ s', mR s = .ok (a, s') ∧ s'.world = w ∧ s'.Accounted

theorem refines_sim {α : Type} {s : RWorld} {m : B α} {mR : R α} (h : s.Accounted) (hs : Sim s s m mR id (fun _ l => l = [])) : Refines s m mR := by
  unfold Sim at hs
  unfold Refines
  cases hm : m s.world with
  | error e => rw [hm] at hs; exact hs
  | ok r =>
    rw [hm] at hs
    obtain ⟨b, s', l, h1, h2, h3, h4, h5⟩ := hs
    subst h4
    have h2' : b = r.1 := h2
    subst h2'
    exact ⟨s', h1, h3, h.kept h5⟩

theorem refines_pure {α : Type} {s : RWorld} (h : s.Accounted) (a : α) : Refines s (Pure.pure a) (Pure.pure a) := ⟨s, rfl, rfl, h⟩

theorem refines_bind {α β γ : Type} {s : RWorld} {m : B α} {mR : R γ} {f : γ → α} {P : γ → List (Nat × LibObj) → Prop} {k : α → B β} {kR : γ → R β}
    (hs : Sim s s m mR f P)
    (hk : ∀ b s1 l, m s.world = .ok (f b, s1.world) → P b l → Got s s1 l → Refines s1 (k (f b)) (kR b)) : Refines s (m >>= k) (mR >>= kR) := by
  unfold Sim at hs
  unfold Refines
  have e1 : (m >>= k) s.world = (do let x ← m s.world; k x.1 x.2 : Except UB _) := rfl
  have e2 : (mR >>= kR) s = (do let x ← mR s; kR x.1 x.2 : Except UB _) := rfl
  rw [e1, e2]
  cases hm : m s.world with
  | error e => rw [hm] at hs; rw [show mR s = .error e from hs]; rfl
  | ok r =>
    rw [hm] at hs
    obtain ⟨b, s1, l, h1, h2, h3, h4, h5⟩ := hs
    have := hk b s1 l (by rw [hm, h2, h3]) h4 h5
    unfold Refines at this
    rw [h2, h3] at this
    rw [h1]
    exact this

theorem refines_map {α β : Type} {s : RWorld} {m : B α} {mR : R α} (f : α → β) (h : Refines s m mR) : Refines s (do return f (← m)) (do return f (← mR)) := by
  unfold Refines at h ⊢
  show match (do let x ← m s.world; .ok (f x.1, x.2) : Except UB _) with
    | .error e => (do let x ← mR s; .ok (f x.1, x.2) : Except UB _) = .error e
    | .ok (a, w) => ∃ s', (do let x ← mR s; .ok (f x.1, x.2) : Except UB _) = .ok (a, s') ∧ s'.world = w ∧ s'.Accounted
  cases hm : m s.world with
  | error e => rw [hm] at h; rw [show mR s = .error e from h]; rfl
  | ok r =>
    rw [hm] at h
    obtain ⟨s', h1, h2, h3⟩ := h
    rw [h1]
    exact ⟨s', rfl, h2, h3⟩

theorem loadKey_live {p : Nat} {w w' : World} {k : BsslKey} (h : loadKey p w = .ok (k, w')) : Live w p k ∧ w' = w := by
  unfold loadKey at h
  split at h
  · rename_i h1
    cases h
    exact ⟨h1, rfl⟩
  · cases h

theorem castEvp_body {k : BsslKey} {key : PKey} {w w' : World} (h : liftB (castEvp k) w = .ok (key, w')) : k.body = .inr key := by
  unfold castEvp at h
  split at h
  · cases h
  · rename_i h1
    rw [h1]
    cases h
    rfl

theorem refines_newKey {s0 s : RWorld} (h : s0.Accounted) {l : List (Nat × LibObj)} (g : Got s0 s l) {key : BsslKey} {m : Option Nat} (hf : NeedsObjs key.body m l) :
    Refines s (newKey key) (newKeyR key m) := by
  obtain ⟨s', h1, h2, h3⟩ := accounted_new h g hf
  exact ⟨s', h1, h2, h3⟩

theorem refines_kdfRun (lib : Lib) (bits : Bytes) (type : UInt32) (context : Option GatherList) {s : RWorld} (h : s.Accounted) :
    Refines s (bsslKdfRun lib bits type context).run (bsslKdfRunR lib bits type context).run := by
  refine refines_bind (k := fun r => ExceptT.bindCont _ r) (kR := fun r => ExceptT.bindCont _ r) (sim_kdfKey lib bits type context h.fresh) fun r s1 l hr hp g => ?_
  cases r with
  | error e =>
    have hl : l = [] := hp
    subst hl
    exact refines_pure (h.kept g) _
  | ok key => exact refines_map Except.ok (refines_newKey h g (show NeedsObjs key.1.body key.2 l from hp))

/-- The reply for a result. -/
def replyOf (old : Option Nat) : Except N20Error Nat → KeyReply
  | .ok p => (.ok, some (some p))
  | .error e => (e, some old)

theorem refines_kdf (lib : Lib) (ctx : Option Unit) (keyIn : Option Nat) (type : UInt32) (context : Option GatherList) (keyOut : Option (Option Nat))
    {s : RWorld} (h : s.Accounted) : Refines s (bsslKdf lib ctx keyIn type context keyOut) (bsslKdfR lib ctx keyIn type context keyOut) := by
  unfold bsslKdf bsslKdfR
  cases ctx with
  | none => exact refines_pure h _
  | some _ =>
    cases keyIn with
    | none => exact refines_pure h _
    | some p =>
      refine refines_bind (sim_lift (keeps_load p) (got_refl h.fresh)) fun k s1 l _ hl g => ?_
      subst hl
      have h1 := h.kept g
      simp only [id]
      by_cases ht : k.type ≠ 4
      · rw [if_pos ht, if_pos ht]; exact refines_pure h1 _
      · rw [if_neg ht, if_neg ht]
        refine refines_bind (sim_lift (keeps_lift _) (got_refl h1.fresh)) fun bits s2 l _ hl g2 => ?_
        subst hl
        have h2 := h1.kept g2
        cases keyOut with
        | none => exact refines_pure h2 _
        | some old =>
          have hr := refines_kdfRun lib bits type context h2
          have e1 : keyReply (bsslKdfRun lib bits type context) old = (do return replyOf old (← (bsslKdfRun lib bits type context).run)) := by
            unfold keyReply
            refine bind_congr fun r => ?_
            cases r <;> rfl
          have e2 : keyReplyR (bsslKdfRunR lib bits type context) old = (do return replyOf old (← (bsslKdfRunR lib bits type context).run)) := by
            unfold keyReplyR
            refine bind_congr fun r => ?_
            cases r <;> rfl
          simp only [id]
          rw [e1, e2]
          exact refines_map (replyOf old) hr

theorem refines_makeSecret (ctx : Option Unit) (secret : Option Slice) (keyOut : Option (Option Nat)) {s : RWorld} (h : s.Accounted) :
    Refines s (bsslMakeSecret ctx secret keyOut) (bsslMakeSecretR ctx secret keyOut) := by
  unfold bsslMakeSecret bsslMakeSecretR
  cases ctx with
  | none => exact refines_pure h _
  | some _ =>
    cases secret with
    | none => exact refines_pure h _
    | some x =>
      cases hb : x.buffer with
      | none => simp only [hb]; exact refines_pure h _
      | some p =>
        simp only [hb]
        split
        · exact refines_pure h _
        · cases keyOut with
          | none => exact refines_pure h _
          | some old =>
            refine refines_bind (sim_lift (keeps_lift _) (got_refl h.fresh)) fun bits s1 l _ hl g => ?_
            subst hl
            exact refines_map (fun h => ((.ok, some (some h)) : KeyReply)) (refines_newKey h g (key := ⟨4, .inl bits⟩) (NeedsObjs.cdi bits))

theorem destroyObj_eq {s : RWorld} {i : Nat} {o : LibObj} (h : s.live i = some o) : destroyObj i s = .ok (o, { s with live := setAt s.live i none }) := by
  unfold destroyObj
  rw [h]

theorem free_leaf {s : RWorld} {i : Nat} {k : ObjKind} (h : s.live i = some ⟨k, none⟩) :
    freeObj (some i) s = .ok ((), { s with live := setAt s.live i none }) := by
  show (do let x ← destroyObj i s; _ : Except UB _) = _
  rw [destroyObj_eq h]
  rfl

theorem free_pair {s : RWorld} {i j : Nat} {k : ObjKind} {o : LibObj} (h : s.live i = some ⟨k, some j⟩) (hj : s.live j = some o) (hne : j ≠ i) :
    freeObj (some i) s = .ok ((), { s with live := setAt (setAt s.live i none) j none }) := by
  show (do let x ← destroyObj i s; _ : Except UB _) = _
  rw [destroyObj_eq h]
  show (do let x ← destroyObj j { s with live := setAt s.live i none }; _ : Except UB _) = _
  rw [destroyObj_eq (o := o)]
  · rfl
  · show setAt s.live i none j = _
    unfold setAt
    rw [if_neg hne, hj]

theorem refines_free (ctx : Option Unit) (key : Option Nat) {s : RWorld} (h : s.Accounted) : Refines s (bsslKeyFree ctx key) (bsslKeyFreeR ctx key) := by
  unfold bsslKeyFree bsslKeyFreeR
  cases ctx with
  | none => exact refines_pure h _
  | some _ =>
    cases key with
    | none => exact refines_pure h _
    | some p =>
      have e1 : (do
          deleteKey p
          return N20Error.ok : B _) s.world = (do let x ← deleteKey p s.world; .ok (N20Error.ok, x.2) : Except UB _) := rfl
      have e2 : (do
          liftW (deleteKey p)
          let m ← memberOf p
          freeObj m
          return N20Error.ok : R _) s =
        (do let x ← liftW (deleteKey p) s; let y ← freeObj (x.2.member p) x.2; .ok (N20Error.ok, y.2) : Except UB _) := rfl
      unfold Refines
      simp only
      rw [e1, e2]
      unfold liftW
      cases hd : deleteKey p s.world with
      | error e => rfl
      | ok r =>
        unfold deleteKey at hd
        split at hd
        · rename_i k hk
          cases hd
          have hp : Live s.world p k := hk
          obtain ⟨l, hh⟩ := h.holds p k hp
          have fin : ∀ s', freeObj (s.member p) { s with world := { s.world with heap := s.world.heap.set p none } } = .ok ((), s') →
              s'.world = { s.world with heap := s.world.heap.set p none } → s'.member = s.member → s'.next = s.next →
              (∀ i, s'.live i = if i ∈ l then none else s.live i) →
              ∃ s', (do let y ← freeObj (s.member p) { s with world := { s.world with heap := s.world.heap.set p none } }; .ok (N20Error.ok, y.2) : Except UB _) = .ok (.ok, s') ∧
                s'.world = { s.world with heap := s.world.heap.set p none } ∧ s'.Accounted := by
            intro s' h1 h2 h3 h4 h5
            refine ⟨s', ?_, h2, accounted_free h hp hh h2 h3 h4 h5⟩
            rw [h1]
            rfl
          show ∃ s', (do let y ← freeObj (s.member p) { s with world := { s.world with heap := s.world.heap.set p none } }; .ok (N20Error.ok, y.2) : Except UB _) = .ok (.ok, s') ∧
                s'.world = { s.world with heap := s.world.heap.set p none } ∧ s'.Accounted
          generalize k.body = b at hh
          cases hh with
          | cdi bits h1 =>
            refine fin { s with world := { s.world with heap := s.world.heap.set p none } } (by rw [h1]; rfl) rfl rfl rfl fun i => ?_
            simp
          | ed25519 seed i h1 h2 =>
            refine fin { s with world := { s.world with heap := s.world.heap.set p none }, live := setAt s.live i none } ?_ rfl rfl rfl fun j => ?_
            · rw [h1]
              exact free_leaf h2
            · show setAt s.live i none j = _
              unfold setAt
              simp
          | ec c d i j h1 h2 h3 =>
            have hne : j ≠ i := by
              rintro rfl
              rw [h2] at h3
              cases h3
            refine fin { s with world := { s.world with heap := s.world.heap.set p none }, live := setAt (setAt s.live i none) j none } ?_ rfl rfl rfl fun n => ?_
            · rw [h1]
              exact free_pair h2 h3 hne
            · show setAt (setAt s.live i none) j none n = _
              unfold setAt
              by_cases a1 : n = j <;> by_cases a2 : n = i <;> simp [a1, a2]
        · cases hd

theorem member_evp {s : RWorld} {p : Nat} {b : Bytes ⊕ PKey} {key : PKey} {l : List Nat} (h : OwnsObjs s p b l) (hb : b = .inr key) :
    ∃ i o, s.member p = some i ∧ s.live i = some o := by
  cases h with
  | cdi bits h1 => cases hb
  | ed25519 seed i h1 h2 => exact ⟨i, _, h1, h2⟩
  | ec c d i j h1 h2 h3 => exact ⟨i, _, h1, h2⟩

theorem refines_sign (lib : Lib) (ctx : Option Unit) (key : Option Nat) (msg : Option GatherList) (out : Option Bytes) (size : Option UInt64)
    {s : RWorld} (h : s.Accounted) : Refines s (bsslSign lib ctx key msg out size) (bsslSignR lib ctx key msg out size) := by
  unfold bsslSign bsslSignR
  cases ctx with
  | none => exact refines_pure h _
  | some _ =>
    cases key with
    | none => exact refines_pure h _
    | some p =>
      cases size with
      | none => exact refines_pure h _
      | some sz =>
        refine refines_bind (sim_lift (keeps_load p) (got_refl h.fresh)) fun k s1 l hk hl g => ?_
        subst hl
        have h1 := h.kept g
        obtain ⟨hp, -⟩ := loadKey_live hk
        simp only [id] at hp ⊢
        split
        · exact refines_pure h1 _
        · refine refines_bind (sim_lift (keeps_lift _) (got_refl h1.fresh)) fun key s2 l hc hl g2 => ?_
          subst hl
          have h2 := h1.kept g2
          have hp2 : Live s2.world p k := by unfold Live at hp ⊢; rw [g2.heap, g.heap]; exact hp
          obtain ⟨l, hh⟩ := h2.holds p k hp2
          obtain ⟨i, o, hm, hi⟩ := member_evp hh (castEvp_body hc)
          have e : (memberOf p >>= fun m => bsslSignRunR lib m k.type key msg out sz) s2 = bsslSignRunR lib (some i) k.type key msg out sz s2 := by
            show bsslSignRunR lib (s2.member p) k.type key msg out sz s2 = _
            rw [hm]
          unfold Refines
          rw [e]
          exact refines_sim h2 (sim_signRun lib i k.type key msg out sz h2.fresh hi)

theorem refines_publicKey (lib : Lib) (ctx : Option Unit) (key : Option Nat) (out : Option Bytes) (size : Option UInt64)
    {s : RWorld} (h : s.Accounted) : Refines s (bsslPublicKey lib ctx key out size) (bsslPublicKeyR lib ctx key out size) := by
  unfold bsslPublicKey bsslPublicKeyR
  cases ctx with
  | none => exact refines_pure h _
  | some _ =>
    cases key with
    | none => exact refines_pure h _
    | some p =>
      cases size with
      | none => exact refines_pure h _
      | some sz =>
        refine refines_bind (sim_lift (keeps_load p) (got_refl h.fresh)) fun k s1 l hk hl g => ?_
        subst hl
        have h1 := h.kept g
        obtain ⟨hp, -⟩ := loadKey_live hk
        simp only [id] at hp ⊢
        cases publicKeySize k.type with
        | none => exact refines_pure h1 _
        | some n =>
          cases out with
          | none => exact refines_pure h1 _
          | some d =>
            simp only
            split
            · exact refines_pure h1 _
            · refine refines_bind (sim_lift (keeps_lift _) (got_refl h1.fresh)) fun key s2 l hc hl g2 => ?_
              subst hl
              have h2 := h1.kept g2
              have hp2 : Live s2.world p k := by unfold Live at hp ⊢; rw [g2.heap, g.heap]; exact hp
              obtain ⟨l, hh⟩ := h2.holds p k hp2
              obtain ⟨i, o, hm, hi⟩ := member_evp hh (castEvp_body hc)
              cases key with
              | ec c x =>
                have e : (memberOf p >>= fun m => ecPublicKeyR lib m k.type c x n d sz) s2 = ecPublicKeyR lib (some i) k.type c x n d sz s2 := by
                  show ecPublicKeyR lib (s2.member p) k.type c x n d sz s2 = _
                  rw [hm]
                unfold Refines
                simp only [id]
                rw [e]
                exact refines_sim h2 (sim_ecPublicKey lib i k.type c x n d sz h2.fresh hi)
              | ed25519 seed =>
                have e : (memberOf p >>= fun m => edPublicKeyR lib m k.type seed d sz) s2 = edPublicKeyR lib (some i) k.type seed d sz s2 := by
                  show edPublicKeyR lib (s2.member p) k.type seed d sz s2 = _
                  rw [hm]
                unfold Refines
                simp only [id]
                rw [e]
                exact refines_sim h2 (sim_edPublicKey lib i k.type seed d sz h2.fresh hi)

theorem refines_op (lib : Lib) (op : ApiOp) {s : RWorld} (h : s.Accounted) : Refines s (op.run lib) (op.runR lib) := by
  cases op with
  | key op =>
    cases op with
    | kdf ctx keyIn type context keyOut => exact refines_map KeyReply.api (refines_kdf lib ctx keyIn type context keyOut h)
    | sign ctx key msg out size => exact refines_map Reply.api (refines_sign lib ctx key msg out size h)
    | publicKey ctx key out size => exact refines_map Reply.api (refines_publicKey lib ctx key out size h)
    | free ctx key => exact refines_map (fun e => ({ err := e } : ApiReply)) (refines_free ctx key h)
    | makeSecret ctx secret keyOut => exact refines_map KeyReply.api (refines_makeSecret ctx secret keyOut h)
  | digest ctx alg msg count out size => exact refines_map Reply.api (refines_sim h (sim_digest lib ctx alg msg count out size h.fresh))
  | hmac ctx alg key msg out size => exact refines_map Reply.api (refines_sim h (sim_hmac lib ctx alg key msg out size h.fresh))
  | hkdf ctx alg ikm salt info n out =>
    exact refines_map outReply (refines_sim h (sim_lift (keeps_hkdf lib ctx alg ikm salt info n out) (got_refl h.fresh)))
  | extract ctx alg ikm salt prk size =>
    exact refines_map Reply.api (refines_sim h (sim_lift (keeps_extract lib ctx alg ikm salt prk size) (got_refl h.fresh)))
  | expand ctx alg prk info n out =>
    exact refines_map outReply (refines_sim h (sim_lift (keeps_hkdfExpand lib ctx alg prk info n out) (got_refl h.fresh)))

/-! ## C78 -/

/-- C78: whatever a call is given, with the objects it does what it does without: no object is used or destroyed that does not exist, other than through a handle
that does not exist; and afterwards the objects that exist are those of the key objects that exist. -/
theorem C78_calls (lib : Lib) (op : ApiOp) (s : RWorld) (h : s.Accounted) :
    (∀ u, op.run lib s.world = .error u → op.runR lib s = .error u) ∧
    ∀ r w, op.run lib s.world = .ok (r, w) → ∃ s', op.runR lib s = .ok (r, s') ∧ s'.world = w ∧ s'.Accounted := by
  have := refines_op lib op h
  unfold Refines at this
  constructor
  · intro u hu
    rw [hu] at this
    exact this
  · intro r w hr
    rw [hr] at this
    exact this

theorem start_accounted : RWorld.start.Accounted := by
  refine ⟨fun _ _ => rfl, ?_, ?_, ?_⟩
  · intro p k h
    simp [Live, RWorld.start] at h
  · intro p q k k' l l' i h
    simp [Live, RWorld.start] at h
  · intro i o h
    simp [RWorld.start] at h

/-- C78: after any sequence of calls the objects that exist are those of the key objects that exist. -/
theorem C78_histories (lib : Lib) (ops : List (ApiOp × ApiReply)) (s s' : RWorld) (h : s.Accounted) (hist : RHistory lib s ops s') : s'.Accounted := by
  induction hist with
  | nil s => exact h
  | @cons s s1 s2 op r ops hr hh ih =>
    refine ih ?_
    obtain ⟨h1, h2⟩ := C78_calls lib op s h
    cases e : op.run lib s.world with
    | error u => rw [h1 u e] at hr; cases hr
    | ok x =>
      obtain ⟨s', h3, -, h4⟩ := h2 x.1 x.2 e
      rw [h3] at hr
      cases hr
      exact h4

/-- C78: a program that has destroyed all its keys has no objects left. -/
theorem C78_no_leak (lib : Lib) (ops : List (ApiOp × ApiReply)) (s : RWorld) (hist : RHistory lib RWorld.start ops s) (hk : ∀ p k, ¬ Live s.world p k) :
    ∀ i, s.live i = none := by
  intro i
  cases hi : s.live i with
  | none => rfl
  | some o =>
    obtain ⟨p, k, _, h1, _⟩ := (C78_histories lib ops _ s start_accounted hist).complete i o hi
    exact absurd h1 (hk p k)

/-- The error of the reply to a call that deals with keys. -/
theorem key_run (lib : Lib) (op : KeyOp) (w : World) :
    op.run lib w = match (ApiOp.key op).run lib w with
      | .error u => .error u
      | .ok (r, w') => .ok (r.err, w') := by
  have gen : ∀ {α : Type} (m : B α) (f : α → ApiReply) (g : α → N20Error), (∀ a, (f a).err = g a) → (do return g (← m) : B N20Error) w =
      match (do return f (← m) : B ApiReply) w with
      | .error u => .error u
      | .ok (r, w') => .ok (r.err, w') := by
    intro α m f g hfg
    show (do let x ← m w; .ok (g x.1, x.2) : Except UB _) = match (do let x ← m w; .ok (f x.1, x.2) : Except UB _) with
      | .error u => .error u
      | .ok (r, w') => .ok (r.err, w')
    cases m w with
    | error u => rfl
    | ok x => exact congrArg (fun e => Except.ok (e, x.2)) (hfg x.1).symm
  cases op with
  | kdf ctx keyIn type context keyOut => exact gen _ KeyReply.api (fun r => r.1) fun _ => rfl
  | sign ctx key msg out size => exact gen _ Reply.api (fun r => r.err) fun _ => rfl
  | publicKey ctx key out size => exact gen _ Reply.api (fun r => r.err) fun _ => rfl
  | free ctx key =>
    have := gen (bsslKeyFree ctx key) (fun e => ({ err := e } : ApiReply)) id fun _ => rfl
    simp only [KeyOp.run]
    rw [show bsslKeyFree ctx key = (do return id (← bsslKeyFree ctx key)) from (bind_pure _).symm]
    exact this
  | makeSecret ctx secret keyOut => exact gen _ KeyReply.api (fun r => r.1) fun _ => rfl

/-- C78: a call that deals with keys and is legal never uses or destroys an object that does not exist; it returns, unless no private key is found. -/
theorem C78_legal_calls (lib : Lib) (hlib : lib.Standard) (op : KeyOp) (s : RWorld) (h : s.Accounted) (hw : s.world.Ok) (hl : op.Legal s.world) :
    ((ApiOp.key op).runR lib s = .error .diverges ∧ op.Stuck lib s.world) ∨
    ∃ r s', (ApiOp.key op).runR lib s = .ok (r, s') ∧ s'.world.Ok ∧ s'.Accounted := by
  obtain ⟨h1, h2⟩ := C78_calls lib (.key op) s h
  have hr := key_run lib op s.world
  rcases C57_step lib hlib op s.world hw hl with ⟨e, hs⟩ | ⟨e, w', e', hok, -⟩
  · refine .inl ⟨h1 _ ?_, hs⟩
    rw [e] at hr
    cases hx : (ApiOp.key op).run lib s.world with
    | error u => rw [hx] at hr; cases hr; rfl
    | ok x => rw [hx] at hr; cases hr
  · rw [e'] at hr
    cases hx : (ApiOp.key op).run lib s.world with
    | error u => rw [hx] at hr; cases hr
    | ok x =>
      rw [hx] at hr
      cases hr
      obtain ⟨s', h3, h4, h5⟩ := h2 x.1 x.2 hx
      exact .inr ⟨x.1, s', h3, h4 ▸ hok, h5⟩

/-! ## Examples -/

/-- The keys of `someKeys` with their objects. -/
def someObjs : RWorld where
  world := someKeys
  live := fun i => match i with
    | 0 => some ⟨.pkey, some 1⟩
    | 1 => some ⟨.ecKey, none⟩
    | 2 => some ⟨.pkey, none⟩
    | _ => none
  next := 3
  member := fun p => match p with
    | 1 => some 0
    | 2 => some 2
    | _ => none

theorem someObjs_accounted : someObjs.Accounted := by
  have o0 : OwnsObjs someObjs 0 (.inl [1, 2, 3]) [] := .cdi _ rfl
  have o1 : OwnsObjs someObjs 1 (.inr (.ec .p256 5)) [0, 1] := .ec _ _ 0 1 rfl rfl rfl
  have o2 : OwnsObjs someObjs 2 (.inr (.ed25519 (List.replicate 32 8))) [2] := .ed25519 _ 2 rfl rfl
  have all : ∀ p k, Live someObjs.world p k →
      (p = 0 ∧ OwnsObjs someObjs p k.body []) ∨ (p = 1 ∧ OwnsObjs someObjs p k.body [0, 1]) ∨ (p = 2 ∧ OwnsObjs someObjs p k.body [2]) := by
    intro p k h
    match p with
    | 0 => cases h; exact .inl ⟨rfl, o0⟩
    | 1 => cases h; exact .inr (.inl ⟨rfl, o1⟩)
    | 2 => cases h; exact .inr (.inr ⟨rfl, o2⟩)
    | 3 => cases h
    | n + 4 => cases h
  refine ⟨?_, ?_, ?_, ?_⟩
  · intro i hi
    match i with
    | 0 | 1 | 2 => exact absurd hi (by decide)
    | n + 3 => rfl
  · intro p k h
    rcases all p k h with ⟨-, h⟩ | ⟨-, h⟩ | ⟨-, h⟩ <;> exact ⟨_, h⟩
  · intro p q k k' l l' i hp hq h1 h2 i1 i2
    rcases all p k hp with ⟨rfl, h⟩ | ⟨rfl, h⟩ | ⟨rfl, h⟩ <;> rcases all q k' hq with ⟨rfl, h'⟩ | ⟨rfl, h'⟩ | ⟨rfl, h'⟩ <;>
      cases holds_unique h1 h <;> cases holds_unique h2 h' <;> simp at i1 i2 ⊢ <;> omega
  · intro i o hi
    match i with
    | 0 => exact ⟨1, _, _, rfl, o1, by simp⟩
    | 1 => exact ⟨1, _, _, rfl, o1, by simp⟩
    | 2 => exact ⟨2, _, _, rfl, o2, by simp⟩
    | n + 3 => cases hi

/-- What can be seen of a state. -/
def seen (r : Except UB (ApiReply × RWorld)) : Except UB (N20Error × List (Option LibObj) × Nat) :=
  r.map fun x => (x.1.err, (List.range x.2.next).map x.2.live, x.2.next)

/-- Signing takes an object and gives it back; destroying the P-256 key destroys its two objects, that of the CDI none; destroying it again is an error. -/
example : seen ((ApiOp.key (.sign (some ()) (some 1) (some ⟨0, none⟩) (some (List.replicate 64 0)) (some 64))).runR calmLib someObjs) =
      .ok (.ok, [some ⟨.pkey, some 1⟩, some ⟨.ecKey, none⟩, some ⟨.pkey, none⟩, none], 4) := by decide +kernel

example : seen ((ApiOp.key (.free (some ()) (some 1))).runR calmLib someObjs) = .ok (.ok, [none, none, some ⟨.pkey, none⟩], 3) ∧
    seen ((ApiOp.key (.free (some ()) (some 0))).runR calmLib someObjs) = .ok (.ok, [some ⟨.pkey, some 1⟩, some ⟨.ecKey, none⟩, some ⟨.pkey, none⟩], 3) := by decide +kernel

example : seen ((do
      let _ ← (ApiOp.key (.free (some ()) (some 1))).runR calmLib
      (ApiOp.key (.free (some ()) (some 1))).runR calmLib : R ApiReply) someObjs) = .error .useAfterFree := by decide +kernel

/-- A derivation of an Ed25519 key makes an object that stays, one of a P-256 key that fails leaves none of those that it made. -/
example : seen ((ApiOp.key (.kdf (some ()) (some 0) 3 (some ⟨0, none⟩) (some none))).runR calmLib someObjs) =
      .ok (.ok, [some ⟨.pkey, some 1⟩, some ⟨.ecKey, none⟩, some ⟨.pkey, none⟩, some ⟨.pkey, none⟩], 4) ∧
    seen ((ApiOp.key (.kdf (some ()) (some 0) 1 (some ⟨0, none⟩) (some none))).runR { calmLib with fails := fun n => n == 11 } someObjs) =
      .ok (.noResources, [some ⟨.pkey, some 1⟩, some ⟨.ecKey, none⟩, some ⟨.pkey, none⟩, none, none], 5) := by decide +kernel

/-- A history that ends without keys. -/
example : ∃ ops s, ops.length = 3 ∧ RHistory calmLib RWorld.start ops s ∧ ∀ p k, ¬ Live s.world p k := by
  refine ⟨[(.key (.makeSecret (some ()) (some ⟨1, some ⟨[], [7]⟩⟩) (some none)), _), (.digest (some ()) 1 none 0 none (some 0), _), (.key (.free (some ()) (some 0)), _)], _, rfl,
    .cons rfl (.cons rfl (.cons rfl (.nil _))), ?_⟩
  intro p k h
  have h : ([none] : List (Option BsslKey))[p]? = some (some k) := h
  match p with
  | 0 => cases h
  | n + 1 => simp at h

/-- An illegal call of the digest function for which the library has no memory is an error with the objects, too. -/
example : (ApiOp.digest (some ()) 1 (some [⟨0, none⟩]) 1 (some (List.replicate 32 0)) (some 32)).runR { calmLib with fails := fun _ => true } RWorld.start = .error .nullDeref := by
  rfl

end Nat20
