import Verif.Spec.Weak
import Verif.Props.Cost
/-!
# Property C89: no data races, and correct results on machines with weak memory
-/

namespace Nat20

section
variable {α : Type} {L S : Addr → Prop} {Q : α → Prop} {p : Prog α}

theorem Solo.refl (m : Memory) : Solo L S m m := ⟨fun _ _ => rfl, fun _ _ _ => rfl⟩

theorem latest_append (l l' : List (Addr × UInt8)) (a : Addr) : latest (l ++ l') a = (latest l a).or (latest l' a) := by
  unfold latest
  rw [List.find?_append]
  cases List.find? (fun x => decide (x.1 = a)) l <;> rfl

theorem latest_mem {l : List (Addr × UInt8)} {a : Addr} {b : UInt8} (h : latest l a = some b) : (a, b) ∈ l := by
  unfold latest at h
  cases hf : List.find? (fun x => decide (x.1 = a)) l with
  | none => rw [hf] at h; cases h
  | some y =>
    rw [hf] at h
    have h1 := List.find?_some hf
    have h2 := List.mem_of_find?_eq_some hf
    simp only [Option.map_some, Option.some.injEq, decide_eq_true_eq] at h h1
    obtain ⟨y1, y2⟩ := y
    cases h
    cases h1
    exact h2

/-- What a step does to shared memory. -/
theorem step_shared (hp : p.Within L S Region.Local Q) (m : Memory) (x : Addr) (hx : x.Shared) : (p.step m).2.get x = (latest (p.stored m) x).or (m.get x) := by
  have hset : ∀ (m : Memory) (r : Region) (b : Bytes), r.Local → (m.set r b).get x = m.get x := by
    intro m r b hr
    unfold Memory.get
    rw [Memory.set_other _ _ _ _ (not_local x hx r hr)]
  cases hp with
  | done _ _ => rfl
  | crash _ => rfl
  | load a k ha hk =>
    simp only [Prog.step, Prog.stored]
    cases m.get a <;> rfl
  | store a b k ha hk =>
    simp only [Prog.step, Prog.stored]
    cases hg : m.get a with
    | none => rfl
    | some c =>
      simp only [Option.isSome_some, if_true]
      rw [get_poke, hg]
      simp only [Option.isSome_some, and_true, latest, List.find?_cons, List.find?_nil]
      by_cases e : x = a
      · subst e; simp
      · simp [e, Ne.symm e]
  | note e k hk => rfl
  | alloc r i k hr hk => exact hset m r i hr
  | free r s k hr hk =>
    simp only [Prog.step, Prog.stored]
    rw [hset _ r _ hr]
    cases s with
    | false => rfl
    | true => exact hset m _ _ stack_local
  | leave b k hk => exact hset m _ _ stack_local

theorem step_size (hp : p.Within L S Region.Local Q) (m : Memory) (n : Nat) : ((p.step m).2 (.caller n)).length = (m (.caller n)).length := by
  have hset : ∀ (m : Memory) (r : Region) (b : Bytes), r.Local → (m.set r b) (.caller n) = m (.caller n) := by
    intro m r b hr
    exact Memory.set_other _ _ _ _ (Ne.symm (hr n))
  cases hp with
  | done _ _ => rfl
  | crash _ => rfl
  | load a k ha hk =>
    simp only [Prog.step]
    cases m.get a <;> rfl
  | store a b k ha hk =>
    simp only [Prog.step]
    cases hg : m.get a with
    | none => rfl
    | some c =>
      simp only [Memory.poke, Memory.set]
      split
      · next e => rw [List.length_set, e]
      · rfl
  | note e k hk => rfl
  | alloc r i k hr hk => simp only [Prog.step]; rw [hset m r i hr]
  | free r s k hr hk =>
    simp only [Prog.step]
    rw [hset _ r _ hr]
    cases s with
    | false => rfl
    | true => simp only [if_true, Memory.bury]; rw [hset m _ _ stack_local]
  | leave b k hk => simp only [Prog.step, Memory.bury]; rw [hset m _ _ stack_local]

theorem stored_within (hp : p.Within L S Region.Local Q) (m : Memory) : ∀ x ∈ p.stored m, S x.1 := by
  cases hp with
  | store a b k ha hk =>
    simp only [Prog.stored]
    split
    · intro x hx; rw [List.mem_singleton] at hx; subst hx; exact ha
    · intro x hx; cases hx
  | _ => intro x hx; cases hx

theorem stored_solo (hp : p.Within L S Region.Local Q) {m m' : Memory} (h : Solo L S m m') : p.stored m = p.stored m' := by
  cases hp with
  | store a b k ha hk => simp only [Prog.stored]; rw [solo_get h a (.inr ha)]
  | _ => rfl

end

section
variable {ι α : Type} [DecidableEq ι]

/-- A thread of the weak machine and what it would be alone. -/
structure Apart (L S : Addr → Prop) (Q : α → Prop) (initial : Nat → Bytes) (t : WeakThread α) (x : Prog α × Memory) : Prop where
  prog : t.prog = x.1
  within : t.prog.Within L S Region.Local Q
  own : ∀ r : Region, r.Local → t.stack r = x.2 r
  size : ∀ n, (x.2 (.caller n)).length = (initial n).length
  octet : ∀ n k, (x.2 (.caller n))[k]? = (latest t.stores ⟨.caller n, k⟩).or (initial n)[k]?
  stores : ∀ y ∈ t.stores, S y.1

theorem apart_sees {L S : ι → Addr → Prop} {Q : ι → α → Prop} {w : WeakMachine ι α} {x : ι → Prog α × Memory} (hI : ∀ i j, i ≠ j → ∀ a : Addr, a.Shared → S i a → ¬ L j a ∧ ¬ S j a)
    (h : ∀ i, Apart (L i) (S i) (Q i) w.initial (w.thread i) (x i)) (i : ι) {v : Memory} (hv : w.Sees i v) : Solo (L i) (S i) v (x i).2 := by
  refine ⟨fun r hr => by rw [hv.own r hr, (h i).own r hr], fun a ha hu => ?_⟩
  obtain ⟨r, k⟩ := a
  obtain ⟨n, hn⟩ := ha
  simp only at hn
  subst hn
  unfold Memory.get
  simp only
  rw [(h i).octet]
  cases hb : (v (.caller n))[k]? with
  | none =>
    have h1 := (h i).octet n k
    rw [List.getElem?_eq_none_iff, hv.size, ← (h i).size, ← List.getElem?_eq_none_iff] at hb
    rw [← h1, hb]
  | some b =>
    rcases hv.octet n k b hb with h1 | ⟨j, hj, h1⟩ | ⟨h1, h2⟩
    · rw [h1]; rfl
    · have := hI j i hj _ ⟨n, rfl⟩ ((h j).stores _ h1)
      exact absurd hu (fun hu => hu.elim this.1 this.2)
    · rw [h1, h2]; rfl

theorem weak_apart {L S : ι → Addr → Prop} {Q : ι → α → Prop} (hI : ∀ i j, i ≠ j → ∀ a : Addr, a.Shared → S i a → ¬ L j a ∧ ¬ S j a)
    {w w' : WeakMachine ι α} {σ : List ι} (hr : w.Runs σ w') : ∀ x : ι → Prog α × Memory, (∀ i, Apart (L i) (S i) (Q i) w.initial (w.thread i) (x i)) →
    w'.initial = w.initial ∧ ∀ i, Apart (L i) (S i) (Q i) w'.initial (w'.thread i) (Prog.steps (σ.count i) (x i)) := by
  induction hr with
  | nil w => intro x h; exact ⟨rfl, h⟩
  | cons w i v l w' hv hl ih =>
    intro x h
    have hs := apart_sees hI h i hv
    obtain ⟨h1, h2, h3⟩ := solo_step (h i).within hs
    have hst := stored_solo (h i).within hs
    have hnext : ∀ j, Apart (L j) (S j) (Q j) (w.step i v).initial ((w.step i v).thread j) (if j = i then (x i).1.step (x i).2 else x j) := by
      intro j
      by_cases hj : j = i
      · subst hj
        simp only [WeakMachine.step, if_true]
        have hp := (h j).prog
        rw [← hp]
        refine ⟨h1, h3, h2.own, fun n => ?_, fun n k => ?_, fun y hy => ?_⟩
        · rw [step_size (h j).within, (h j).size]
        · have hk := step_shared (h j).within (x j).2 ⟨.caller n, k⟩ ⟨n, rfl⟩
          unfold Memory.get at hk
          simp only at hk
          rw [hk, (h j).octet, latest_append, hst, Option.or_assoc]
        · rcases List.mem_append.1 hy with hy | hy
          · exact stored_within (h j).within _ y hy
          · exact (h j).stores y hy
      · simp only [WeakMachine.step, if_neg hj]
        exact h j
    obtain ⟨a, b⟩ := ih _ hnext
    refine ⟨a, fun j => ?_⟩
    have := b j
    by_cases hj : j = i
    · subst hj
      rw [List.count_cons_self]
      rw [if_pos rfl] at this
      exact this
    · rw [List.count_cons_of_ne (Ne.symm hj)]
      rw [if_neg hj] at this
      exact this

theorem exec_within {L S : ι → Addr → Prop} {Q : ι → α → Prop} (σ : List ι) : ∀ w : Machine ι α, (∀ i, (w.thread i).prog.Within (L i) (S i) Region.Local (Q i)) →
    ∀ i, ((w.exec σ).thread i).prog.Within (L i) (S i) Region.Local (Q i) := by
  induction σ with
  | nil => intro w h; exact h
  | cons j σ ih =>
    intro w h
    rw [Machine.exec]
    refine ih _ fun i => ?_
    by_cases hi : i = j
    · subst hi
      simp only [Machine.step, if_true]
      exact (solo_step (h i) (Solo.refl (w.view i))).2.2
    · simp only [Machine.step, if_neg hi]
      exact h i

omit [DecidableEq ι] in
theorem job_apart {job : ι → Job} (hind : Job.Independent job) : ∀ i j, i ≠ j → ∀ a : Addr, a.Shared → (job i).MayWrite a → ¬ (job j).MayRead a ∧ ¬ (job j).MayWrite a :=
  fun i j hij a ha hw => by
    obtain ⟨h1, h2⟩ := hind i j hij a (job_writes ha hw)
    exact ⟨fun h => (job_reads ha h).elim h1 h2, fun h => h2 (job_writes ha h)⟩

/-- **C89** (no races).  If no thread is given memory to write that another one is given to read or to write, then there is no data race at any point of any execution, so that a C
implementation gives every execution its sequential meaning (C11 5.1.2.4p25). -/
theorem C89_no_race (job : ι → Job) (hind : Job.Independent job) (shared : Nat → Bytes) (stack : ι → Memory) (σ : List ι) :
    ¬ ((Job.start job shared stack).exec σ).Race := by
  rintro ⟨i, j, hij, a, ha, ⟨b, k, hs⟩, hj⟩
  have hw := exec_within (L := fun i => (job i).MayRead) (S := fun i => (job i).MayWrite) (Q := fun _ _ => True) σ (Job.start job shared stack) (fun i => job_within (job i))
  have hi := hw i
  rw [hs] at hi
  have hS : (job i).MayWrite a := by cases hi with | store _ _ _ h _ => exact h
  obtain ⟨h1, h2⟩ := job_apart hind i j hij a ha hS
  have hj' := hw j
  rcases hj with ⟨b, k, h⟩ | ⟨k, h⟩ <;> rw [h] at hj'
  · cases hj' with | store _ _ _ h _ => exact h2 h
  · cases hj' with | load _ _ h _ => exact h1 h

/-- **C89** (weak memory).  The same threads on a machine that promises almost nothing about when a store is seen by other threads: in every execution no thread runs into undefined
behaviour; a thread that has made its number of steps (C88) has the result, and the stack, that it has alone; and once all stores have arrived, its output is in the memory, and
memory that no thread may write is unchanged. -/
theorem C89_weak_memory (job : ι → Job) (hc : ∀ i, (job i).OfCaller) (hind : Job.Independent job) (shared : Nat → Bytes) (stack : ι → Memory)
    (hrest : ∀ i, (stack i).AtRest) (x : ι → Outcome × Memory) (hx : ∀ i, (job i).alone (viewOf shared (stack i)) = .ok (x i))
    (σ : List ι) (w : WeakMachine ι Outcome) (hw : (Job.weakStart job shared stack).Runs σ w) :
    (∀ i u, (w.thread i).prog ≠ .crash u) ∧
    (∀ i, (job i).budget ≤ σ.count i → (w.thread i).prog = .done (x i).1 ∧ (∀ r : Region, r.Local → (w.thread i).stack r = (x i).2 r) ∧
      ∀ m, w.Settles m → ∀ n k, (job i).Writes ⟨.caller n, k⟩ → (m n)[k]? = ((x i).2 (.caller n))[k]?) ∧
    (∀ m, w.Settles m → ∀ n k, (∀ i, ¬ (job i).Writes ⟨.caller n, k⟩) → (m n)[k]? = (shared n)[k]?) := by
  have hloc : ∀ i (r : Region), r.Local → viewOf shared (stack i) r = stack i r := fun i r hr => by
    cases r with
    | caller n => exact absurd rfl (hr n)
    | _ => rfl
  have hmem : ∀ i, (viewOf shared (stack i)).AtRest := fun i r hr hs => by
    rw [hloc i r hr]
    exact hrest i r hr hs
  have hrun := fun i => job_run (job i) (hc i) _ (hmem i) (x i) (hx i)
  obtain ⟨h0, h⟩ := weak_apart (L := fun i => (job i).MayRead) (S := fun i => (job i).MayWrite) (Q := fun _ _ => True) (job_apart hind) hw
    (fun i => ((job i).prog, viewOf shared (stack i)))
    (fun i => ⟨rfl, job_within (job i), fun r hr => (hloc i r hr).symm, fun _ => rfl, fun _ _ => rfl, fun y hy => by cases hy⟩)
  have h0 : w.initial = shared := h0
  have hsettle : ∀ m, w.Settles m → ∀ n k i, (∀ j, j ≠ i → latest (w.thread j).stores ⟨.caller n, k⟩ = none) →
      (m n)[k]? = ((Prog.steps (σ.count i) ((job i).prog, viewOf shared (stack i))).2 (.caller n))[k]? := by
    intro m hm n k i hj
    rw [(h i).octet]
    cases hb : (m n)[k]? with
    | none =>
      have h1 := (h i).octet n k
      rw [List.getElem?_eq_none_iff, hm.size, ← (h i).size, ← List.getElem?_eq_none_iff] at hb
      rw [← h1, hb]
    | some b =>
      rcases hm.octet n k b hb with ⟨j, h1⟩ | ⟨h1, h2⟩
      · by_cases e : j = i
        · subst e; rw [h1]; rfl
        · rw [hj j e] at h1; cases h1
      · rw [h1 i, h2]; rfl
  have hnone : ∀ j n k, ¬ (job j).Writes ⟨.caller n, k⟩ → latest (w.thread j).stores ⟨.caller n, k⟩ = none := by
    intro j n k hn
    cases hl : latest (w.thread j).stores ⟨.caller n, k⟩ with
    | none => rfl
    | some b => exact absurd (job_writes ⟨n, rfl⟩ ((h j).stores _ (latest_mem hl))) hn
  refine ⟨fun i u => ?_, fun i hi => ?_, fun m hm n k hn => ?_⟩
  · rw [(h i).prog]
    exact steps_safe _ _ _ _ (hrun i) _ u
  · have hd : Prog.steps (σ.count i) ((job i).prog, viewOf shared (stack i)) = (.done (x i).1, (x i).2) := by
      obtain ⟨N, hN⟩ := run_steps _ _ _ _ (hrun i)
      have he := steps_ended _ _ (viewOf shared (stack i)) ((job_ends (job i)).more hi)
      have h1 := hN (σ.count i + N) (by omega)
      rw [steps_add] at h1
      rcases he with ⟨y, hy⟩ | ⟨u, -, hu⟩
      · rw [show Prog.steps (σ.count i) ((job i).prog, viewOf shared (stack i)) = (.done y, (Prog.steps (σ.count i) ((job i).prog, viewOf shared (stack i))).2) from Prod.ext hy rfl,
          steps_done] at h1
        exact Eq.trans (b := (.done y, (Prog.steps (σ.count i) ((job i).prog, viewOf shared (stack i))).2)) (Prod.ext hy rfl) h1
      · exact absurd hu (steps_safe _ _ _ _ (hrun i) _ u)
    have hi' := h i
    rw [hd] at hi'
    refine ⟨hi'.prog, hi'.own, fun m hm n k hw => ?_⟩
    have := hsettle m hm n k i (fun j hj => hnone j n k fun hjw => (hind i j (Ne.symm hj) _ hw).2 hjw)
    rw [hd] at this
    exact this
  · cases hb : (m n)[k]? with
    | none => rw [List.getElem?_eq_none_iff, hm.size, h0, ← List.getElem?_eq_none_iff] at hb; exact hb.symm
    | some b =>
      rcases hm.octet n k b hb with ⟨j, h1⟩ | ⟨h1, h2⟩
      · rw [hnone j n k (hn j)] at h1; cases h1
      · rw [← h2, h0]

end

/-! ## Examples -/

section
variable {ι α : Type} [DecidableEq ι]

/-- Non-vacuity of `C89_weak_memory`: there are executions under every schedule, and memories in which they may settle.  (Here every thread sees its own stores
and nothing of the others.) -/
theorem weak_runs (σ : List ι) : ∀ w : WeakMachine ι α, (∀ i, ∀ y ∈ (w.thread i).stores, ∀ n, y.1.region = .caller n → y.1.off < (w.initial n).length) → ∃ w', w.Runs σ w' := by
  induction σ with
  | nil => exact fun w _ => ⟨w, .nil w⟩
  | cons i σ ih =>
    intro w hw
    let v : Memory := fun r => match r with
      | .caller n => (w.initial n).mapIdx fun k b => (latest (w.thread i).stores ⟨.caller n, k⟩).getD b
      | r => (w.thread i).stack r
    have hv : w.Sees i v := by
      refine ⟨fun r hr => ?_, fun n => ?_, fun n k b hb => ?_⟩
      · cases r with
        | caller n => exact absurd rfl (hr n)
        | _ => rfl
      · exact List.length_mapIdx
      · simp only [v, List.getElem?_mapIdx] at hb
        cases hl : latest (w.thread i).stores ⟨.caller n, k⟩ with
        | none =>
          rw [hl] at hb
          refine .inr (.inr ⟨rfl, ?_⟩)
          cases hg : (w.initial n)[k]? with
          | none => rw [hg] at hb; cases hb
          | some c => rw [hg] at hb; exact hb
        | some c =>
          rw [hl] at hb
          refine .inl ?_
          cases hg : (w.initial n)[k]? with
          | none => rw [hg] at hb; cases hb
          | some c => rw [hg] at hb; exact hb
    obtain ⟨w', h⟩ := ih (w.step i v) (by
      intro j y hy n hn
      by_cases hj : j = i
      · subst hj
        simp only [WeakMachine.step, if_true, List.mem_append] at hy
        rcases hy with hy | hy
        · cases hp : (w.thread j).prog with
          | store a b k =>
            rw [hp] at hy
            simp only [Prog.stored] at hy
            split at hy
            · next hs =>
              rw [List.mem_singleton] at hy
              subst hy
              simp only at hn
              unfold Memory.get at hs
              rw [hn, Option.isSome_iff_ne_none, ne_eq, List.getElem?_eq_none_iff, hv.size n] at hs
              show a.off < (w.initial n).length
              omega
            · cases hy
          | _ => rw [hp] at hy; cases hy
        · exact hw j y hy n hn
      · simp only [WeakMachine.step, if_neg hj] at hy
        exact hw j y hy n hn)
    exact ⟨w', .cons w i v σ w' hv h⟩

end

example (job : Fin 3 → Job) (shared : Nat → Bytes) (stack : Fin 3 → Memory) (σ : List (Fin 3)) : ∃ w, (Job.weakStart job shared stack).Runs σ w :=
  weak_runs σ _ fun _ _ hy => by cases hy

/-- A thread that writes an octet and then a flag, and one that reads the flag and then the octet. -/
def messageThreads : WeakMachine (Fin 2) (UInt8 × UInt8) :=
  ⟨fun n => if n = 0 then [0, 0] else [], fun i => ⟨if i = 0 then .store ⟨.caller 0, 0⟩ 7 (.store ⟨.caller 0, 1⟩ 1 (.done (0, 0)))
    else .load ⟨.caller 0, 1⟩ fun f => .load ⟨.caller 0, 0⟩ fun b => .done (f, b), fun _ => [], []⟩⟩

/-- The two octets as a thread sees them. -/
def messageView (a b : UInt8) : Memory := fun r => if r = .caller 0 then [a, b] else []

theorem message_sees (w : WeakMachine (Fin 2) (UInt8 × UInt8)) (i : Fin 2) (a b : UInt8) (h0 : w.initial = messageThreads.initial) (hs : ∀ r : Region, r.Local → (w.thread i).stack r = [])
    (ha : latest (w.thread i).stores ⟨.caller 0, 0⟩ = some a ∨ (∃ j, j ≠ i ∧ (⟨.caller 0, 0⟩, a) ∈ (w.thread j).stores) ∨ (latest (w.thread i).stores ⟨.caller 0, 0⟩ = none ∧ 0 = a))
    (hb : latest (w.thread i).stores ⟨.caller 0, 1⟩ = some b ∨ (∃ j, j ≠ i ∧ (⟨.caller 0, 1⟩, b) ∈ (w.thread j).stores) ∨ (latest (w.thread i).stores ⟨.caller 0, 1⟩ = none ∧ 0 = b)) :
    w.Sees i (messageView a b) := by
  refine ⟨fun r hr => ?_, fun n => ?_, fun n k c hc => ?_⟩
  · rw [hs r hr, messageView, if_neg (hr 0)]
  · rw [h0]
    simp only [messageView, messageThreads, Region.caller.injEq]
    split <;> rfl
  · rw [h0]
    simp only [messageView, messageThreads, Region.caller.injEq] at hc ⊢
    split at hc
    · next hn =>
      subst hn
      match k, hc with
      | 0, hc => simp only [List.getElem?_cons_zero, Option.some.injEq] at hc; subst hc; simpa using ha
      | 1, hc => simp only [List.getElem?_cons_succ, List.getElem?_cons_zero, Option.some.injEq] at hc; subst hc; simpa using hb
    · cases hc

/-- The machine is weaker than one in which all threads see all stores at once: the second thread may see the flag and not the octet. -/
example : ∃ w, messageThreads.Runs [0, 0, 1, 1] w ∧ (w.thread 1).prog = .done (1, 0) := by
  refine ⟨_, .cons _ _ (messageView 0 0) _ _ ?_ (.cons _ _ (messageView 7 0) _ _ ?_ (.cons _ _ (messageView 0 1) _ _ ?_ (.cons _ _ (messageView 0 1) _ _ ?_ (.nil _)))), by rfl⟩
  · exact message_sees _ _ _ _ rfl (fun _ _ => rfl) (.inr (.inr ⟨rfl, rfl⟩)) (.inr (.inr ⟨rfl, rfl⟩))
  · refine message_sees _ _ _ _ rfl (fun r hr => ?_) (.inl (by decide)) (.inr (.inr ⟨by decide, rfl⟩))
    simp [WeakMachine.step, messageThreads, Prog.step, messageView, Memory.get, Memory.poke, Memory.set, hr 0]
  · exact message_sees _ _ _ _ rfl (fun _ _ => rfl) (.inr (.inr ⟨by decide, rfl⟩)) (.inr (.inl ⟨0, by decide, by decide⟩))
  · refine message_sees _ _ _ _ rfl (fun r hr => ?_) (.inr (.inr ⟨by decide, rfl⟩)) (.inr (.inl ⟨0, by decide, by decide⟩))
    exact if_neg (hr 0)

/-- The condition of `C89_no_race` is needed: two threads that render into the same buffer race. -/
example : ∃ σ, ((Job.start racing threeObjects fun _ _ => []).exec σ).Race :=
  ⟨[0, 1], 0, 1, by decide, ⟨.caller 0, 3⟩, ⟨0, rfl⟩, ⟨_, _, rfl⟩, .inl ⟨_, _, rfl⟩⟩

end Nat20
