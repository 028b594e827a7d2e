import Verif.Spec.Writers
import Verif.Lemmas.Threads
/-!
# Lemmas: programs that write every octet at most once
-/

namespace Nat20

/-- The program reads only where `L` holds, writes only where `S` holds and nowhere twice, has neither branches that are recorded nor local arrays, and `Q` holds for the octets
that may still be written at the end and for the result. -/
inductive Prog.Once {α : Type} (L : Addr → Prop) (Q : (Addr → Prop) → α → Prop) : (Addr → Prop) → Prog α → Prop where
  | done (S : Addr → Prop) (x : α) (h : Q S x) : Once L Q S (.done x)
  | crash (S : Addr → Prop) (u : UB) : Once L Q S (.crash u)
  | load (S : Addr → Prop) (a : Addr) (k : UInt8 → Prog α) (h : L a) (hk : ∀ b, Once L Q S (k b)) : Once L Q S (.load a k)
  | store (S : Addr → Prop) (a : Addr) (b : UInt8) (k : Prog α) (h : S a) (hk : Once L Q (fun x => S x ∧ x ≠ a) k) : Once L Q S (.store a b k)

/-- The program only reads, and only where `L` holds; and `Q` holds for its result. -/
def Prog.OnlyReads {α : Type} (L : Addr → Prop) (Q : α → Prop) (p : Prog α) : Prop := ∀ S, p.Once L (fun T x => T = S ∧ Q x) S

section
variable {α β : Type} {L : Addr → Prop}

theorem Prog.Once.seq {Q : (Addr → Prop) → α → Prop} {Q' : (Addr → Prop) → β → Prop} {S : Addr → Prop} {p : Prog α} {f : α → Prog β} (h : p.Once L Q S)
    (hf : ∀ T x, Q T x → (f x).Once L Q' T) : (p.seq f).Once L Q' S := by
  induction h with
  | done S x h => exact hf S x h
  | crash S u => exact .crash S u
  | load S a k h _ ih => exact .load S a _ h ih
  | store S a b k h _ ih => exact .store S a b _ h ih

theorem Prog.Once.mono {Q Q' : (Addr → Prop) → α → Prop} {L' S S' : Addr → Prop} {p : Prog α} (h : p.Once L Q S) (hL : ∀ a, L a → L' a) (hS : ∀ a, S a → S' a)
    (hQ : ∀ T T' x, (∀ a, T a → T' a) → Q T x → Q' T' x) : p.Once L' Q' S' := by
  induction h generalizing S' with
  | done S x h => exact .done _ x (hQ S S' x hS h)
  | crash S u => exact .crash _ u
  | load S a k h _ ih => exact .load _ a k (hL a h) fun b => ih b hS
  | store S a b k h _ ih => exact .store _ a b k (hS a h) (ih fun x hx => ⟨hS x hx.1, hx.2⟩)

theorem Prog.Once.within {Q : (Addr → Prop) → α → Prop} {S : Addr → Prop} {p : Prog α} {R : α → Prop} (h : p.Once L Q S) (hR : ∀ T x, Q T x → R x) :
    p.Within L S (fun _ => False) R := by
  induction h with
  | done S x h => exact .done x (hR S x h)
  | crash S u => exact .crash u
  | load S a k h _ ih => exact .load a k h ih
  | store S a b k h _ ih => exact .store a b k h (ih.mono (fun _ h => h) (fun _ h => h.1) (fun _ h => h) fun _ h => h)

theorem Prog.OnlyReads.seq {Q : α → Prop} {Q' : β → Prop} {p : Prog α} {f : α → Prog β} (h : p.OnlyReads L Q) (hf : ∀ x, Q x → (f x).OnlyReads L Q') : (p.seq f).OnlyReads L Q' :=
  fun S => Prog.Once.seq (h S) fun _ x hx => hx.1 ▸ hf x hx.2 _

theorem Prog.Once.post {Q Q' : (Addr → Prop) → α → Prop} {S : Addr → Prop} {p : Prog α} (h : p.Once L Q S) (hQ : ∀ T x, Q T x → Q' T x) : p.Once L Q' S := by
  induction h with
  | done S x h => exact .done _ x (hQ S x h)
  | crash S u => exact .crash _ u
  | load S a k h _ ih => exact .load _ a k h ih
  | store S a b k h _ ih => exact .store _ a b k h ih

theorem Prog.OnlyReads.mono {Q Q' : α → Prop} {p : Prog α} (h : p.OnlyReads L Q) (hQ : ∀ x, Q x → Q' x) : p.OnlyReads L Q' :=
  fun S => (h S).post fun _ x hx => ⟨hx.1, hQ x hx.2⟩

theorem Prog.OnlyReads.within {Q : α → Prop} {p : Prog α} (h : p.OnlyReads L Q) : p.Within L (fun _ => False) (fun _ => False) Q := (h _).within fun _ _ hx => hx.2

theorem onlyReads_done {Q : α → Prop} (x : α) (h : Q x) : (Prog.done x).OnlyReads L Q := fun S => .done S x ⟨rfl, h⟩

/-! ## What such a program does to the memory -/

/-- The memory after the octets of `l` were written one after the other. -/
def Memory.pokeAll (m : Memory) : List (Addr × UInt8) → Memory
  | [] => m
  | x :: l => (m.poke x.1 x.2).pokeAll l

theorem pokeAll_append (l l' : List (Addr × UInt8)) : ∀ m : Memory, m.pokeAll (l ++ l') = (m.pokeAll l).pokeAll l' := by
  induction l with
  | nil => intro m; rfl
  | cons x l ih => intro m; exact ih _

theorem pokeAll_length (l : List (Addr × UInt8)) (r : Region) : ∀ m : Memory, (m.pokeAll l r).length = (m r).length := by
  induction l with
  | nil => intro m; rfl
  | cons x l ih => intro m; exact (ih _).trans (poke_length m x.1 x.2 r)

theorem pokeAll_other (l : List (Addr × UInt8)) (a : Addr) : ∀ m : Memory, a ∉ l.map (·.1) → (m.pokeAll l).get a = m.get a := by
  induction l with
  | nil => intro m _; rfl
  | cons x l ih =>
    intro m h
    simp only [List.map_cons, List.mem_cons, not_or] at h
    show ((m.poke x.1 x.2).pokeAll l).get a = _
    rw [ih _ h.2, get_poke, if_neg fun hc => h.1 hc.1]

/-- What an octet that is written holds at the end does not depend on what was there. -/
theorem pokeAll_written (l : List (Addr × UInt8)) (a : Addr) : ∀ m m' : Memory, m.SameShape m' → a ∈ l.map (·.1) → (m.pokeAll l).get a = (m'.pokeAll l).get a := by
  induction l with
  | nil => intro m m' _ h; simp at h
  | cons x l ih =>
    intro m m' hs h
    have hs' : (m.poke x.1 x.2).SameShape (m'.poke x.1 x.2) := fun r => by rw [poke_length, poke_length]; exact hs r
    show ((m.poke x.1 x.2).pokeAll l).get a = ((m'.poke x.1 x.2).pokeAll l).get a
    by_cases hl : a ∈ l.map (·.1)
    · exact ih _ _ hs' hl
    · rw [pokeAll_other _ _ _ hl, pokeAll_other _ _ _ hl]
      simp only [List.map_cons, List.mem_cons] at h
      have ha : a = x.1 := h.resolve_right hl
      subst ha
      have hiff : (m.get x.1).isSome = (m'.get x.1).isSome := get_isSome m m' x.1 (hs _)
      rw [get_poke, get_poke]
      cases hg : m'.get x.1 with
      | some b => rw [hg] at hiff; rw [if_pos ⟨rfl, hiff⟩, if_pos ⟨rfl, rfl⟩]
      | none =>
        rw [hg] at hiff
        rw [if_neg fun hc => by rw [hiff] at hc; exact absurd hc.2 (by simp), if_neg fun hc => absurd hc.2 (by simp)]
        cases hm : m.get x.1 with
        | none => rfl
        | some b => rw [hm] at hiff; simp at hiff

theorem steps_done (x : α) (m : Memory) (k : Nat) : Prog.steps k (.done x, m) = (.done x, m) := by
  induction k with
  | zero => rfl
  | succ k ih => exact ih

/-- A run writes a list of different octets one after the other; the list is the same for all memories with the same octets to be read. -/
theorem once_run {Q : (Addr → Prop) → α → Prop} {S : Addr → Prop} {p : Prog α} (h : p.Once L Q S) : ∀ (m m1 : Memory) (x : α), p.run m = .ok (x, m1) →
    ∃ l : List (Addr × UInt8), (l.map (·.1)).Nodup ∧ (∀ a ∈ l.map (·.1), S a) ∧ m1 = m.pokeAll l ∧
      (∀ m' : Memory, m'.SameShape m → (∀ a, L a → m'.get a = m.get a) → p.run m' = .ok (x, m'.pokeAll l)) ∧
      ∀ k, ∃ j, (Prog.steps k (p, m)).2 = m.pokeAll (l.take j) := by
  induction h with
  | done S y h =>
    intro m m1 x hr
    simp only [Prog.run, Except.ok.injEq, Prod.mk.injEq] at hr
    obtain ⟨rfl, rfl⟩ := hr
    exact ⟨[], List.nodup_nil, fun a ha => by simp at ha, rfl, fun m' _ _ => rfl, fun k => ⟨0, by rw [steps_done]; rfl⟩⟩
  | crash S u => intro m m1 x hr; simp [Prog.run] at hr
  | load S a k h _ ih =>
    intro m m1 x hr
    simp only [Prog.run] at hr
    cases hg : m.get a with
    | none => rw [hg] at hr; simp at hr
    | some b =>
      rw [hg] at hr
      obtain ⟨l, h1, h2, h3, h4, h5⟩ := ih b m m1 x hr
      refine ⟨l, h1, h2, h3, fun m' hs hi => ?_, fun n => ?_⟩
      · simp only [Prog.run]
        rw [hi a h, hg]
        exact h4 m' hs hi
      · cases n with
        | zero => exact ⟨0, rfl⟩
        | succ n =>
          obtain ⟨j, hj⟩ := h5 n
          refine ⟨j, ?_⟩
          rw [← hj]
          simp only [Prog.steps, Prog.step, hg]
  | store S a b k h _ ih =>
    intro m m1 x hr
    simp only [Prog.run] at hr
    cases hg : m.get a with
    | none => rw [hg] at hr; simp at hr
    | some c =>
      rw [hg] at hr
      obtain ⟨l, h1, h2, h3, h4, h5⟩ := ih (m.poke a b) m1 x hr
      refine ⟨(a, b) :: l, ?_, ?_, h3, fun m' hs hi => ?_, fun n => ?_⟩
      · exact List.nodup_cons.2 ⟨fun hc => (h2 a hc).2 rfl, h1⟩
      · intro y hy
        rcases List.mem_cons.1 hy with rfl | hy
        · exact h
        · exact (h2 y hy).1
      · have hsome : (m'.get a).isSome = (m.get a).isSome := get_isSome m' m a (hs _)
        rw [hg] at hsome
        simp only [Prog.run]
        cases hg' : m'.get a with
        | none => rw [hg'] at hsome; simp at hsome
        | some c' =>
          refine h4 (m'.poke a b) (fun r => by rw [poke_length, poke_length]; exact hs r) fun y hy => ?_
          rw [get_poke, get_poke, hg, hg', hi y hy]
          rfl
      · cases n with
        | zero => exact ⟨0, rfl⟩
        | succ n =>
          obtain ⟨j, hj⟩ := h5 n
          refine ⟨j + 1, ?_⟩
          rw [List.take_succ_cons]
          show _ = (m.poke a b).pokeAll (l.take j)
          rw [← hj]
          simp only [Prog.steps, Prog.step, hg]

theorem once_trace {Q : (Addr → Prop) → α → Prop} {S : Addr → Prop} {p : Prog α} (h : p.Once L Q S) : ∀ m : Memory,
    (storesOf (p.trace m)).Nodup ∧ ∀ a ∈ storesOf (p.trace m), S a := by
  induction h with
  | done S y h => intro m; exact ⟨List.nodup_nil, fun a ha => by simp [Prog.trace, storesOf] at ha⟩
  | crash S u => intro m; exact ⟨List.nodup_nil, fun a ha => by simp [Prog.trace, storesOf] at ha⟩
  | load S a k h _ ih =>
    intro m
    simp only [Prog.trace]
    cases hg : m.get a with
    | none => exact ⟨List.nodup_nil, fun a ha => by simp [storesOf] at ha⟩
    | some b => exact ih b m
  | store S a b k h _ ih =>
    intro m
    simp only [Prog.trace]
    cases hg : m.get a with
    | none =>
      refine ⟨by simp [storesOf], fun y hy => ?_⟩
      simp only [storesOf, List.filterMap_cons, List.filterMap_nil, List.mem_singleton] at hy
      rw [hy]
      exact h
    | some c =>
      obtain ⟨h1, h2⟩ := ih (m.poke a b)
      refine ⟨List.nodup_cons.2 ⟨fun hc => (h2 a hc).2 rfl, h1⟩, fun y hy => ?_⟩
      rcases List.mem_cons.1 hy with rfl | hy
      · exact h
      · exact (h2 y hy).1

end

end Nat20
