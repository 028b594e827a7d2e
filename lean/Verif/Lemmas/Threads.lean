import Verif.Lemmas.Prog
/-!
# Lemmas: threads
-/

namespace Nat20

/-- The memory of a thread and the memory it would have alone agree in everything the thread uses. -/
structure Solo (L S : Addr → Prop) (m m' : Memory) : Prop where
  own : ∀ r : Region, r.Local → m r = m' r
  used : ∀ a : Addr, a.Shared → L a ∨ S a → m.get a = m'.get a

theorem local_or_shared (a : Addr) : a.region.Local ∨ a.Shared := by
  by_cases h : a.Shared
  · exact .inr h
  · exact .inl fun n hn => h ⟨n, hn⟩

theorem not_local (a : Addr) (h : a.Shared) (r : Region) (hr : r.Local) : a.region ≠ r := by
  obtain ⟨n, hn⟩ := h
  exact fun e => hr n (by rw [← e, hn])

variable {L S : Addr → Prop}

theorem solo_get {m m' : Memory} (h : Solo L S m m') (a : Addr) (ha : L a ∨ S a) : m.get a = m'.get a := by
  rcases local_or_shared a with hl | hs
  · unfold Memory.get
    rw [h.own _ hl]
  · exact h.used a hs ha

theorem get_poke (m : Memory) (a x : Addr) (b : UInt8) : (m.poke a b).get x = if x = a ∧ (m.get a).isSome then some b else m.get x := by
  obtain ⟨r, i⟩ := a
  obtain ⟨s, j⟩ := x
  unfold Memory.poke Memory.get Memory.set
  simp only [Addr.mk.injEq]
  by_cases hs : s = r
  · subst hs
    simp only [if_true, true_and, List.getElem?_set]
    by_cases hj : i = j
    · subst hj
      simp only [if_true, true_and]
      by_cases hi : i < (m s).length
      · simp [hi]
      · simp [hi]
    · rw [if_neg hj, if_neg (fun h => hj h.1.symm)]
  · rw [if_neg hs, if_neg (fun h => hs h.1.1)]

theorem solo_poke {m m' : Memory} (h : Solo L S m m') (a : Addr) (ha : S a) (b : UInt8) : Solo L S (m.poke a b) (m'.poke a b) := by
  refine ⟨fun r hr => ?_, fun x hx hu => ?_⟩
  · unfold Memory.poke Memory.set
    split
    · next e => subst e; rw [h.own _ hr]
    · exact h.own r hr
  · rw [get_poke, get_poke, solo_get h a (.inr ha), h.used x hx hu]

theorem solo_set {m m' : Memory} (h : Solo L S m m') (r : Region) (hr : r.Local) (b : Bytes) : Solo L S (m.set r b) (m'.set r b) := by
  refine ⟨fun x hx => ?_, fun x hx hu => ?_⟩
  · unfold Memory.set
    split
    · rfl
    · exact h.own x hx
  · have := h.used x hx hu
    unfold Memory.get at this ⊢
    rw [Memory.set_other _ _ _ _ (not_local x hx r hr), Memory.set_other _ _ _ _ (not_local x hx r hr)]
    exact this

theorem stack_local : Region.stack.Local := fun n => by simp

/-- A step of a thread is the step it would make alone. -/
theorem solo_step {α : Type} {Q : α → Prop} {p : Prog α} (hp : p.Within L S Region.Local Q) {m m' : Memory} (h : Solo L S m m') :
    (p.step m).1 = (p.step m').1 ∧ Solo L S (p.step m).2 (p.step m').2 ∧ (p.step m).1.Within L S Region.Local Q := by
  cases hp with
  | done x hx => exact ⟨rfl, h, .done x hx⟩
  | crash u => exact ⟨rfl, h, .crash u⟩
  | load a k ha hk =>
    simp only [Prog.step]
    rw [solo_get h a (.inl ha)]
    cases m'.get a with
    | none => exact ⟨rfl, h, .crash _⟩
    | some b => exact ⟨rfl, h, hk b⟩
  | store a b k ha hk =>
    simp only [Prog.step]
    rw [solo_get h a (.inr ha)]
    cases m'.get a with
    | none => exact ⟨rfl, h, .crash _⟩
    | some _ => exact ⟨rfl, solo_poke h a ha b, hk⟩
  | note e k hk => exact ⟨rfl, h, hk⟩
  | alloc r i k hr hk => exact ⟨rfl, solo_set h r hr i, hk⟩
  | free r s k hr hk =>
    refine ⟨rfl, ?_, hk⟩
    simp only [Prog.step]
    cases s with
    | false => exact solo_set h r hr []
    | true =>
      refine solo_set ?_ r hr []
      simp only [if_true, Memory.bury]
      rw [h.own r hr, h.own .stack stack_local]
      exact solo_set h _ stack_local _
  | leave b k hk =>
    refine ⟨rfl, ?_, hk⟩
    simp only [Prog.step, Memory.bury]
    rw [h.own .stack stack_local]
    exact solo_set h _ stack_local _

/-- A step changes shared memory only where the thread writes. -/
theorem step_frame {α : Type} {Q : α → Prop} {p : Prog α} (hp : p.Within L S Region.Local Q) (m : Memory) (x : Addr) (hx : x.Shared) (hs : ¬ S x) :
    (p.step m).2.get x = m.get x := by
  have hset : ∀ (m : Memory) (r : Region) (b : Bytes), r.Local → (m.set r b).get x = m.get x := by
    intro m r b hr
    unfold Memory.get
    rw [Memory.set_other _ _ _ _ (not_local x hx r hr)]
  cases hp with
  | done _ _ => rfl
  | crash _ => rfl
  | load a k ha hk =>
    simp only [Prog.step]
    cases m.get a <;> rfl
  | store a b k ha hk =>
    simp only [Prog.step]
    cases m.get a with
    | none => rfl
    | some _ =>
      simp only
      rw [get_poke, if_neg (fun h => hs (by rw [h.1]; exact ha))]
  | note e k hk => rfl
  | alloc r i k hr hk => exact hset m r i hr
  | free r s k hr hk =>
    simp only [Prog.step]
    rw [hset _ r _ hr]
    cases s with
    | false => rfl
    | true => exact hset m _ _ stack_local
  | leave b k hk => exact hset m _ _ stack_local

section
variable {ι α : Type} [DecidableEq ι]

omit [DecidableEq ι] in
theorem view_local (w : Machine ι α) (i : ι) (r : Region) (hr : r.Local) : w.view i r = (w.thread i).stack r := by
  unfold Machine.view viewOf
  cases r with
  | caller n => exact absurd rfl (hr n)
  | _ => rfl

omit [DecidableEq ι] in
theorem view_shared (w : Machine ι α) (i j : ι) (a : Addr) (ha : a.Shared) : (w.view i).get a = (w.view j).get a := by
  obtain ⟨n, hn⟩ := ha
  unfold Memory.get Machine.view viewOf
  rw [hn]

/-- After its own step a thread sees what the step made of its memory. -/
theorem view_step_same (w : Machine ι α) (i : ι) : (w.step i).view i = ((w.thread i).prog.step (w.view i)).2 := by
  funext r
  have h : ∀ r, r.Local → (w.step i).view i r = ((w.thread i).prog.step (w.view i)).2 r := fun r hr => by
    rw [view_local _ _ _ hr]
    simp only [Machine.step, if_true]
  cases r with
  | caller n => rfl
  | _ => exact h _ fun n => by simp

theorem view_step_other_local (w : Machine ι α) (i j : ι) (h : i ≠ j) (r : Region) (hr : r.Local) : (w.step j).view i r = w.view i r := by
  rw [view_local _ _ _ hr, view_local _ _ _ hr]
  simp [Machine.step, h]

theorem view_step_shared (w : Machine ι α) (i j : ι) (a : Addr) (ha : a.Shared) : ((w.step j).view i).get a = ((w.thread j).prog.step (w.view j)).2.get a := by
  rw [view_shared (w.step j) i j a ha, view_step_same]

/-- Threads that do not write to what others use behave as if each were alone, under every schedule. -/
theorem exec_solo (L S : ι → Addr → Prop) (σ : List ι) : ∀ (w : Machine ι α) (M : ι → Memory),
    (∀ i, ∃ Q, (w.thread i).prog.Within (L i) (S i) Region.Local Q) → (∀ i j, i ≠ j → ∀ a : Addr, a.Shared → S i a → ¬ L j a ∧ ¬ S j a) →
    (∀ i, Solo (L i) (S i) (w.view i) (M i)) →
    ∀ i, ((w.exec σ).thread i).prog = (Prog.steps (σ.count i) ((w.thread i).prog, M i)).1 ∧
      Solo (L i) (S i) ((w.exec σ).view i) (Prog.steps (σ.count i) ((w.thread i).prog, M i)).2 := by
  induction σ with
  | nil => intro w M hW hI hM i; exact ⟨rfl, hM i⟩
  | cons j σ ih =>
    intro w M hW hI hM i
    obtain ⟨Qj, hj⟩ := hW j
    have hstep := solo_step hj (hM j)
    have hthread : ∀ k, k ≠ j → (w.step j).thread k = w.thread k := fun k hk => by simp [Machine.step, hk]
    have hprogj : ((w.step j).thread j).prog = ((w.thread j).prog.step (M j)).1 := by
      simp only [Machine.step, if_true]
      exact hstep.1
    have hnext := ih (w.step j) (fun k => if k = j then ((w.thread j).prog.step (M j)).2 else M k)
      (fun k => by
        by_cases hk : k = j
        · subst hk
          refine ⟨Qj, ?_⟩
          simp only [Machine.step, if_true]
          exact hstep.2.2
        · rw [hthread k hk]
          exact hW k)
      hI
      (fun k => by
        by_cases hk : k = j
        · subst hk
          rw [view_step_same]
          simp only [if_true]
          exact hstep.2.1
        · simp only [if_neg hk]
          refine ⟨fun r hr => ?_, fun a ha hu => ?_⟩
          · rw [view_step_other_local w k j hk r hr]
            exact (hM k).own r hr
          · have hn : ¬ S j a := fun hs => by
              have := hI j k (Ne.symm hk) a ha hs
              rcases hu with h | h
              · exact this.1 h
              · exact this.2 h
            rw [view_step_shared w k j a ha, step_frame hj _ a ha hn, view_shared w j k a ha]
            exact (hM k).used a ha hu)
      i
    simp only [Machine.exec]
    by_cases hij : i = j
    · subst hij
      rw [if_pos rfl, hprogj] at hnext
      rw [List.count_cons_self]
      exact hnext
    · rw [if_neg hij, hthread i hij] at hnext
      rw [List.count_cons_of_ne (Ne.symm hij)]
      exact hnext

/-- Shared memory where nobody writes stays as it is. -/
theorem exec_frame (L S : ι → Addr → Prop) (σ : List ι) (a : Addr) (ha : a.Shared) (hS : ∀ i, ¬ S i a) : ∀ (w : Machine ι α),
    (∀ i, ∃ Q, (w.thread i).prog.Within (L i) (S i) Region.Local Q) → ∀ i, ((w.exec σ).view i).get a = (w.view i).get a := by
  induction σ with
  | nil => intro w hW i; rfl
  | cons j σ ih =>
    intro w hW i
    obtain ⟨Qj, hj⟩ := hW j
    simp only [Machine.exec]
    rw [ih (w.step j) (fun k => by
      by_cases hk : k = j
      · subst hk
        refine ⟨Qj, ?_⟩
        simp only [Machine.step, if_true]
        exact (solo_step hj (m := w.view k) (m' := w.view k) ⟨fun _ _ => rfl, fun _ _ _ => rfl⟩).2.2
      · simp only [Machine.step, if_neg hk]
        exact hW k) i, view_step_shared w i j a ha, step_frame hj _ a ha (hS j), view_shared w j i a ha]

end

end Nat20
