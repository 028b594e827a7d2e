import Verif.Spec.Steps
import Verif.Lemmas.Frame
/-!
# Lemmas: programs
-/

namespace Nat20

/-! ## Running -/

theorem bind_eq {α β : Type} (p : Prog α) (f : α → Prog β) : (p >>= f) = p.seq f := rfl

theorem run_seq {α β : Type} (p : Prog α) (f : α → Prog β) (m : Memory) :
    (p.seq f).run m = (p.run m).bind fun x => (f x.1).run x.2 := by
  induction p generalizing m with
  | done x => rfl
  | crash u => rfl
  | load a k ih =>
    simp only [Prog.seq, Prog.run]
    cases m.get a with
    | none => rfl
    | some b => exact ih b m
  | store a b k ih =>
    simp only [Prog.seq, Prog.run]
    cases m.get a with
    | none => rfl
    | some b => exact ih _
  | note e k ih => exact ih m
  | alloc r i k ih => exact ih _
  | free r s k ih => exact ih _
  | leave b k ih => exact ih _

/-- Running a sequence whose first part ends. -/
theorem run_bind {α β : Type} {p : Prog α} {f : α → Prog β} {m m' : Memory} {x : α} (h : p.run m = .ok (x, m')) : (p >>= f).run m = (f x).run m' := by
  rw [bind_eq, run_seq, h]
  rfl

theorem run_branch {α : Type} (c : Prop) [Decidable c] (y n : Prog α) (m : Memory) : (branch c y n).run m = if c then y.run m else n.run m := by
  unfold branch
  simp only [Prog.run]
  split <;> rfl

theorem run_touch (l : List (WordArray × Nat)) (m : Memory) : (touch l).run m = .ok ((), m) := by
  induction l with
  | nil => rfl
  | cons x l ih => exact ih

/-! ## `Within` -/

variable {L S : Addr → Prop} {A : Region → Prop}

theorem Prog.Within.seq {α β : Type} {Q : α → Prop} {Q' : β → Prop} {p : Prog α} {f : α → Prog β} (h : p.Within L S A Q)
    (hf : ∀ x, Q x → (f x).Within L S A Q') : (p >>= f).Within L S A Q' := by
  rw [bind_eq]
  induction h with
  | done x h => exact hf x h
  | crash u => exact .crash u
  | load a k h hk ih => exact .load a _ h ih
  | store a b k h hk ih => exact .store a b _ h ih
  | note e k hk ih => exact .note e _ ih
  | alloc r i k h hk ih => exact .alloc r i _ h ih
  | free r s k h hk ih => exact .free r s _ h ih
  | leave b k hk ih => exact .leave b _ ih

theorem Prog.Within.mono {α : Type} {Q Q' : α → Prop} {L' S' : Addr → Prop} {A' : Region → Prop} {p : Prog α} (h : p.Within L S A Q)
    (hL : ∀ a, L a → L' a) (hS : ∀ a, S a → S' a) (hA : ∀ r, A r → A' r) (hQ : ∀ x, Q x → Q' x) : p.Within L' S' A' Q' := by
  induction h with
  | done x h => exact .done x (hQ x h)
  | crash u => exact .crash u
  | load a k h hk ih => exact .load a _ (hL a h) ih
  | store a b k h hk ih => exact .store a b _ (hS a h) ih
  | note e k hk ih => exact .note e _ ih
  | alloc r i k h hk ih => exact .alloc r i _ (hA r h) ih
  | free r s k h hk ih => exact .free r s _ (hA r h) ih
  | leave b k hk ih => exact .leave b _ ih

theorem within_branch {α : Type} {Q : α → Prop} (c : Prop) [Decidable c] {y n : Prog α} (hy : c → y.Within L S A Q) (hn : ¬ c → n.Within L S A Q) :
    (branch c y n).Within L S A Q := by
  unfold branch
  refine .note _ _ ?_
  split
  · next h => exact hy h
  · next h => exact hn h

theorem within_touch (l : List (WordArray × Nat)) : (touch l).Within L S A fun _ => True := by
  induction l with
  | nil => exact .done _ trivial
  | cons x l ih => exact .note _ _ ih

theorem poke_length (m : Memory) (a : Addr) (b : UInt8) (r : Region) : (m.poke a b r).length = (m r).length := by
  unfold Memory.poke Memory.set
  split
  · next h => subst h; simp
  · rfl

/-- Programs keep the sizes of all objects that are not local arrays of theirs. -/
theorem within_length {α : Type} {Q : α → Prop} {p : Prog α} (h : p.Within L S A Q) (m m' : Memory) (x : α) (hr : p.run m = .ok (x, m'))
    (r : Region) (hA : ¬ A r) (hs : r ≠ .stack) : (m' r).length = (m r).length := by
  induction h generalizing m with
  | done y h => simp only [Prog.run, Except.ok.injEq, Prod.mk.injEq] at hr; rw [hr.2]
  | crash u => simp [Prog.run] at hr
  | load a k h hk ih =>
    simp only [Prog.run] at hr
    cases hg : m.get a with
    | none => rw [hg] at hr; simp at hr
    | some b => rw [hg] at hr; exact ih b m hr
  | store a b k h hk ih =>
    simp only [Prog.run] at hr
    cases hg : m.get a with
    | none => rw [hg] at hr; simp at hr
    | some b => rw [hg] at hr; rw [ih _ hr, poke_length]
  | note e k hk ih => exact ih m hr
  | alloc r' i k h hk ih =>
    simp only [Prog.run] at hr
    rw [ih _ hr, Memory.set_other _ _ r _ (fun e => hA (by rw [e]; exact h))]
  | free r' s k h hk ih =>
    simp only [Prog.run] at hr
    rw [ih _ hr, Memory.set_other _ _ r _ (fun e => hA (by rw [e]; exact h))]
    cases s with
    | false => rfl
    | true => simp only [if_true, Memory.bury]; rw [Memory.set_other _ _ _ _ hs]
  | leave b k hk ih =>
    simp only [Prog.run] at hr
    rw [ih _ hr, Memory.bury, Memory.set_other _ _ _ _ hs]

/-- The result of a program satisfies `Q`. -/
theorem within_result {α : Type} {Q : α → Prop} {p : Prog α} (h : p.Within L S A Q) (m m' : Memory) (x : α) (hr : p.run m = .ok (x, m')) : Q x := by
  induction h generalizing m with
  | done y h => simp only [Prog.run, Except.ok.injEq, Prod.mk.injEq] at hr; rw [← hr.1]; exact h
  | crash u => simp [Prog.run] at hr
  | load a k h hk ih =>
    simp only [Prog.run] at hr
    cases hg : m.get a with
    | none => rw [hg] at hr; simp at hr
    | some b => rw [hg] at hr; exact ih b m hr
  | store a b k h hk ih =>
    simp only [Prog.run] at hr
    cases hg : m.get a with
    | none => rw [hg] at hr; simp at hr
    | some b => rw [hg] at hr; exact ih _ hr
  | note e k hk ih => exact ih m hr
  | alloc r' i k h hk ih => exact ih _ hr
  | free r' s k h hk ih => exact ih _ hr
  | leave b k hk ih => exact ih _ hr

/-! ## Programs that look the same -/

/-- Two programs that make the same accesses and branches whatever they read, and whose results are related by `Q`. -/
inductive Prog.Alike {α : Type} (Q : α → α → Prop) : Prog α → Prog α → Prop where
  | done (x y : α) (h : Q x y) : Alike Q (.done x) (.done y)
  | crash (u : UB) : Alike Q (.crash u) (.crash u)
  | load (a : Addr) (k k' : UInt8 → Prog α) (hk : ∀ b b', Alike Q (k b) (k' b')) : Alike Q (.load a k) (.load a k')
  | store (a : Addr) (b b' : UInt8) (k k' : Prog α) (hk : Alike Q k k') : Alike Q (.store a b k) (.store a b' k')
  | note (e : Event) (k k' : Prog α) (hk : Alike Q k k') : Alike Q (.note e k) (.note e k')
  | alloc (r : Region) (i i' : Bytes) (k k' : Prog α) (h : i.length = i'.length) (hk : Alike Q k k') : Alike Q (.alloc r i k) (.alloc r i' k')
  | free (r : Region) (s : Bool) (k k' : Prog α) (hk : Alike Q k k') : Alike Q (.free r s k) (.free r s k')
  | leave (b b' : Bytes) (k k' : Prog α) (hk : Alike Q k k') : Alike Q (.leave b k) (.leave b' k')

theorem Prog.Alike.seq {α β : Type} {Q : α → α → Prop} {Q' : β → β → Prop} {p q : Prog α} {f g : α → Prog β} (h : Prog.Alike Q p q)
    (hf : ∀ x y, Q x y → Prog.Alike Q' (f x) (g y)) : Prog.Alike Q' (p >>= f) (q >>= g) := by
  rw [bind_eq, bind_eq]
  induction h with
  | done x y h => exact hf x y h
  | crash u => exact .crash u
  | load a k k' hk ih => exact .load a _ _ ih
  | store a b b' k k' hk ih => exact .store a b b' _ _ ih
  | note e k k' hk ih => exact .note e _ _ ih
  | alloc r i i' k k' h hk ih => exact .alloc r i i' _ _ h ih
  | free r s k k' hk ih => exact .free r s _ _ ih
  | leave b b' k k' hk ih => exact .leave b b' _ _ ih

theorem Prog.Alike.mono {α : Type} {Q Q' : α → α → Prop} {p q : Prog α} (h : Prog.Alike Q p q) (hQ : ∀ x y, Q x y → Q' x y) : Prog.Alike Q' p q := by
  induction h with
  | done x y h => exact .done x y (hQ x y h)
  | crash u => exact .crash u
  | load a k k' hk ih => exact .load a _ _ ih
  | store a b b' k k' hk ih => exact .store a b b' _ _ ih
  | note e k k' hk ih => exact .note e _ _ ih
  | alloc r i i' k k' h hk ih => exact .alloc r i i' _ _ h ih
  | free r s k k' hk ih => exact .free r s _ _ ih
  | leave b b' k k' hk ih => exact .leave b b' _ _ ih

theorem alike_branch {α : Type} {Q : α → α → Prop} (c c' : Prop) [Decidable c] [Decidable c'] (hc : c ↔ c') {y n y' n' : Prog α} (hy : c → Prog.Alike Q y y')
    (hn : ¬ c → Prog.Alike Q n n') : Prog.Alike Q (branch c y n) (branch c' y' n') := by
  unfold branch
  rw [show decide c = decide c' from decide_eq_decide.2 hc]
  refine .note _ _ _ ?_
  by_cases h : c
  · rw [if_pos h, if_pos (hc.1 h)]
    exact hy h
  · rw [if_neg h, if_neg (fun x => h (hc.2 x))]
    exact hn h

theorem alike_touch (l : List (WordArray × Nat)) : Prog.Alike (fun _ _ => True) (touch l) (touch l) := by
  induction l with
  | nil => exact .done _ _ trivial
  | cons x l ih => exact .note _ _ _ ih

theorem get_isSome (m m' : Memory) (a : Addr) (h : (m a.region).length = (m' a.region).length) : (m.get a).isSome = (m'.get a).isSome := by
  unfold Memory.get
  by_cases ha : a.off < (m a.region).length
  · rw [List.getElem?_eq_getElem ha, List.getElem?_eq_getElem (h ▸ ha)]
    rfl
  · rw [List.getElem?_eq_none (by omega), List.getElem?_eq_none (by omega)]

/-- The program has no pointer to the leftovers on the stack. -/
def NotStack (a : Addr) : Prop := a.region ≠ .stack

theorem alike_trace {α : Type} {Q : α → α → Prop} {p q : Prog α} (h : Prog.Alike Q p q) (hp : ∃ R, p.Within NotStack NotStack (· ≠ .stack) R) (m m' : Memory)
    (hm : ∀ r, r ≠ .stack → (m r).length = (m' r).length) : p.trace m = q.trace m' := by
  obtain ⟨R, hp⟩ := hp
  induction h generalizing m m' with
  | done x y h => rfl
  | crash u => rfl
  | load a k k' hk ih =>
    cases hp with
    | load _ _ ha hk' =>
      have hg : (m.get a).isSome = (m'.get a).isSome := get_isSome m m' a (hm a.region ha)
      simp only [Prog.trace]
      cases h1 : m.get a with
      | none =>
        cases h2 : m'.get a with
        | none => rfl
        | some b' => rw [h1, h2] at hg; simp at hg
      | some b =>
        cases h2 : m'.get a with
        | none => rw [h1, h2] at hg; simp at hg
        | some b' => simp only; rw [ih b b' m m' hm (hk' b)]
  | store a b b' k k' hk ih =>
    cases hp with
    | store _ _ _ ha hk' =>
      have hg : (m.get a).isSome = (m'.get a).isSome := get_isSome m m' a (hm a.region ha)
      simp only [Prog.trace]
      have hrec := ih (m.poke a b) (m'.poke a b') (fun r hr => by rw [poke_length, poke_length, hm r hr]) hk'
      cases h1 : m.get a with
      | none =>
        cases h2 : m'.get a with
        | none => rfl
        | some b' => rw [h1, h2] at hg; simp at hg
      | some _ =>
        cases h2 : m'.get a with
        | none => rw [h1, h2] at hg; simp at hg
        | some _ => simp only; rw [hrec]
  | note e k k' hk ih =>
    cases hp with
    | note _ _ hk' => simp only [Prog.trace]; rw [ih m m' hm hk']
  | alloc r i i' k k' h hk ih =>
    cases hp with
    | alloc _ _ _ hr hk' =>
      simp only [Prog.trace]
      rw [h, ih (m.set r i) (m'.set r i') (fun x hx => by
        unfold Memory.set
        split
        · exact h
        · exact hm x hx) hk']
  | free r s k k' hk ih =>
    cases hp with
    | free _ _ _ hr hk' =>
      simp only [Prog.trace]
      rw [ih _ ((if s then m'.bury (m' r) else m').set r []) (fun x hx => by
        unfold Memory.set
        split
        · rfl
        · cases s with
          | false => exact hm x hx
          | true =>
            simp only [if_true, Memory.bury]
            rw [Memory.set_other _ _ _ _ hx, Memory.set_other _ _ _ _ hx]
            exact hm x hx) hk']
  | leave b b' k k' hk ih =>
    cases hp with
    | leave _ _ hk' =>
      simp only [Prog.trace]
      exact ih _ _ (fun x hx => by
        simp only [Memory.bury]
        rw [Memory.set_other _ _ _ _ hx, Memory.set_other _ _ _ _ hx]
        exact hm x hx) hk'

theorem alike_reply {α : Type} {p q : Prog α} (h : Prog.Alike Eq p q) (hp : ∃ R, p.Within NotStack NotStack (· ≠ .stack) R) (m m' : Memory)
    (hm : ∀ r, r ≠ .stack → (m r).length = (m' r).length) : (p.run m).map (·.1) = (q.run m').map (·.1) := by
  obtain ⟨R, hp⟩ := hp
  induction h generalizing m m' with
  | done x y h => subst h; rfl
  | crash u => rfl
  | load a k k' hk ih =>
    cases hp with
    | load _ _ ha hk' =>
      have hg : (m.get a).isSome = (m'.get a).isSome := get_isSome m m' a (hm a.region ha)
      simp only [Prog.run]
      cases h1 : m.get a with
      | none =>
        cases h2 : m'.get a with
        | none => rfl
        | some b' => rw [h1, h2] at hg; simp at hg
      | some b =>
        cases h2 : m'.get a with
        | none => rw [h1, h2] at hg; simp at hg
        | some b' => exact ih b b' m m' hm (hk' b)
  | store a b b' k k' hk ih =>
    cases hp with
    | store _ _ _ ha hk' =>
      have hg : (m.get a).isSome = (m'.get a).isSome := get_isSome m m' a (hm a.region ha)
      simp only [Prog.run]
      have hrec := ih (m.poke a b) (m'.poke a b') (fun r hr => by rw [poke_length, poke_length, hm r hr]) hk'
      cases h1 : m.get a with
      | none =>
        cases h2 : m'.get a with
        | none => rfl
        | some b' => rw [h1, h2] at hg; simp at hg
      | some _ =>
        cases h2 : m'.get a with
        | none => rw [h1, h2] at hg; simp at hg
        | some _ => exact hrec
  | note e k k' hk ih =>
    cases hp with
    | note _ _ hk' => exact ih m m' hm hk'
  | alloc r i i' k k' h hk ih =>
    cases hp with
    | alloc _ _ _ hr hk' =>
      exact ih (m.set r i) (m'.set r i') (fun x hx => by
        unfold Memory.set
        split
        · exact h
        · exact hm x hx) hk'
  | free r s k k' hk ih =>
    cases hp with
    | free _ _ _ hr hk' =>
      exact ih _ ((if s then m'.bury (m' r) else m').set r []) (fun x hx => by
        unfold Memory.set
        split
        · rfl
        · cases s with
          | false => exact hm x hx
          | true =>
            simp only [if_true, Memory.bury]
            rw [Memory.set_other _ _ _ _ hx, Memory.set_other _ _ _ _ hx]
            exact hm x hx) hk'
  | leave b b' k k' hk ih =>
    cases hp with
    | leave _ _ hk' =>
      exact ih (m.bury b) (m'.bury b') (fun x hx => by
        simp only [Memory.bury]
        rw [Memory.set_other _ _ _ _ hx, Memory.set_other _ _ _ _ hx]
        exact hm x hx) hk'

/-! ## Steps and runs -/

/-- A run is a number of steps. -/
theorem run_steps {α : Type} (p : Prog α) : ∀ (m m' : Memory) (x : α), p.run m = .ok (x, m') → ∃ N, ∀ k, N ≤ k → Prog.steps k (p, m) = (.done x, m') := by
  have hdone : ∀ (x : α) (m : Memory) (k : Nat), Prog.steps k (.done x, m) = (.done x, m) := by
    intro x m k
    induction k with
    | zero => rfl
    | succ k ih => exact ih
  induction p with
  | done y =>
    intro m m' x h
    simp only [Prog.run, Except.ok.injEq, Prod.mk.injEq] at h
    obtain ⟨rfl, rfl⟩ := h
    exact ⟨0, fun k _ => hdone _ _ _⟩
  | crash u => intro m m' x h; simp [Prog.run] at h
  | load a k ih =>
    intro m m' x h
    simp only [Prog.run] at h
    cases hg : m.get a with
    | none => rw [hg] at h; simp at h
    | some b =>
      rw [hg] at h
      obtain ⟨N, hN⟩ := ih b m m' x h
      refine ⟨N + 1, fun n hn => ?_⟩
      obtain ⟨n, rfl⟩ : ∃ j, n = j + 1 := ⟨n - 1, by omega⟩
      simp only [Prog.steps, Prog.step, hg]
      exact hN n (by omega)
  | store a b k ih =>
    intro m m' x h
    simp only [Prog.run] at h
    cases hg : m.get a with
    | none => rw [hg] at h; simp at h
    | some _ =>
      rw [hg] at h
      obtain ⟨N, hN⟩ := ih _ m' x h
      refine ⟨N + 1, fun n hn => ?_⟩
      obtain ⟨n, rfl⟩ : ∃ j, n = j + 1 := ⟨n - 1, by omega⟩
      simp only [Prog.steps, Prog.step, hg]
      exact hN n (by omega)
  | note e k ih =>
    intro m m' x h
    obtain ⟨N, hN⟩ := ih m m' x h
    refine ⟨N + 1, fun n hn => ?_⟩
    obtain ⟨n, rfl⟩ : ∃ j, n = j + 1 := ⟨n - 1, by omega⟩
    exact hN n (by omega)
  | alloc r i k ih =>
    intro m m' x h
    obtain ⟨N, hN⟩ := ih _ m' x h
    refine ⟨N + 1, fun n hn => ?_⟩
    obtain ⟨n, rfl⟩ : ∃ j, n = j + 1 := ⟨n - 1, by omega⟩
    exact hN n (by omega)
  | free r s k ih =>
    intro m m' x h
    obtain ⟨N, hN⟩ := ih _ m' x h
    refine ⟨N + 1, fun n hn => ?_⟩
    obtain ⟨n, rfl⟩ : ∃ j, n = j + 1 := ⟨n - 1, by omega⟩
    exact hN n (by omega)
  | leave b k ih =>
    intro m m' x h
    obtain ⟨N, hN⟩ := ih _ m' x h
    refine ⟨N + 1, fun n hn => ?_⟩
    obtain ⟨n, rfl⟩ : ∃ j, n = j + 1 := ⟨n - 1, by omega⟩
    exact hN n (by omega)

end Nat20
