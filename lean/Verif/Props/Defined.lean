import Verif.Lemmas.Defined
import Verif.Props.Cost
import Verif.Props.Interrupt
/-!
# C90: nothing is read but inputs and what the call itself has written

The output buffer need not be initialised, and results do not depend on what was in it, on the stack or anywhere else.
-/

namespace Nat20

theorem octets_of_size (alg : UInt32) : digestOctets alg = (digestEnumToSize alg).toNat := by
  unfold digestOctets digestEnumToSize
  split
  · rfl
  split
  · rfl
  split
  · rfl
  split
  · rfl
  · rfl

/-- **C90** (calls).  Whatever its arguments are, a call reads only octets of its inputs and octets that it has written itself; when it succeeds, it has written all octets of its
output (or they are inputs). -/
theorem C90_calls (c : Call) : c.prog.Defined (fun K' r => r.err = .ok → ∀ a, c.Writes a → K' a) c.Reads := by
  cases c with
  | digest alg msg count out size =>
    refine (defined_digest alg msg count out size _ fun a h => h).post fun K' r hr => fun e a ha => hr.output e a ?_
    simpa only [Call.Writes, octets_of_size] using ha
  | hmac alg key msg out size =>
    refine (defined_hmac alg key msg out size _ (fun a h => .inl h) fun a h => .inr h).post fun K' r hr => fun e a ha => hr.output e a ?_
    simpa only [Call.Writes, octets_of_size] using ha
  | extract alg ikm salt out size =>
    refine (defined_extract alg ikm salt out size _ (fun a h => .inl h) fun a h => .inr h).post fun K' r hr => fun e a ha => hr.output e a ?_
    simpa only [Call.Writes, octets_of_size] using ha
  | expand alg prk info n out => exact (defined_expand alg prk info n out _ (fun a h => .inl h) fun a h => .inr h).post fun _ _ h => h.2
  | hkdf alg ikm salt info n out => exact (defined_hkdf alg ikm salt info n out _ (fun a h => .inl h) (fun a h => .inr (.inl h)) fun a h => .inr (.inr h)).post fun _ _ h => h.2

/-- **C90** (everything).  A call, or a sequence of calls of rendering functions with callbacks of any depth, reads only octets of its inputs and octets that it has written itself. -/
theorem C90_defined (j : Job) : j.prog.Defined (fun _ _ => True) j.Reads := by
  cases j with
  | call c => exact (C90_calls c).seq fun _ _ _ => .done _ _ trivial
  | render n cs v => exact ((C75_footprint n cs v).defined _ fun _ h => h).seq fun _ _ _ => .done _ _ trivial

/-! ## What that means for executions -/

section
variable {α : Type} {Q : (Addr → Prop) → α → Prop}

theorem like_poke {K : Addr → Prop} {m m' : Memory} (h : m.Like K m') (a : Addr) (b : UInt8) (ha : NotStack a) :
    (m.poke a b).Like (fun x => K x ∨ x = a) (m'.poke a b) := by
  refine ⟨fun r hr => by rw [poke_length, poke_length]; exact h.size r hr, fun x hx hK => ?_⟩
  rw [get_poke, get_poke, get_isSome m m' a (h.size a.region ha)]
  split
  · rfl
  · next hn =>
    rcases hK with hK | hK
    · exact h.octet x hx hK
    · subst hK
      have : ¬ (m'.get x).isSome := fun hs => hn ⟨rfl, hs⟩
      have h2 : ¬ (m.get x).isSome := by rw [get_isSome m m' x (h.size x.region ha)]; exact this
      rw [Option.not_isSome_iff_eq_none] at this h2
      rw [this, h2]

theorem get_set (m : Memory) (r : Region) (bs : Bytes) (a : Addr) : (m.set r bs).get a = if a.region = r then bs[a.off]? else m.get a := by
  unfold Memory.set Memory.get
  dsimp only
  split <;> rfl

theorem like_set {K : Addr → Prop} {m m' : Memory} (h : m.Like K m') (r : Region) (bs : Bytes) : (m.set r bs).Like (fun x => K x ∨ x.region = r) (m'.set r bs) := by
  refine ⟨fun x hx => ?_, fun a ha hK => ?_⟩
  · unfold Memory.set
    split
    · rfl
    · exact h.size x hx
  · rw [get_set, get_set]
    split
    · rfl
    · next hn => exact h.octet a ha (hK.resolve_right hn)

theorem bury_other (m : Memory) (b : Bytes) (r : Region) (hr : r ≠ .stack) : m.bury b r = m r := by
  unfold Memory.bury Memory.set
  rw [if_neg hr]

theorem like_bury {K : Addr → Prop} {m m' : Memory} (h : m.Like K m') (b b' : Bytes) : (m.bury b).Like K (m'.bury b') := by
  refine ⟨fun r hr => by rw [bury_other m b r hr, bury_other m' b' r hr]; exact h.size r hr, fun a ha hK => ?_⟩
  have := h.octet a ha hK
  unfold Memory.get at this ⊢
  rw [bury_other m b _ ha, bury_other m' b' _ ha]
  exact this

theorem get_bury (m : Memory) (b : Bytes) (a : Addr) (ha : a.region ≠ .stack) : (m.bury b).get a = m.get a := by
  unfold Memory.get
  rw [bury_other m b _ ha]

/-- Two runs of a program from memories in which the octets it relies on are the same: they have the same undefined behaviour or the same result, and an octet that is not the same
afterwards was left alone by both. -/
theorem defined_run {K : Addr → Prop} {p : Prog α} (h : p.Defined Q K) {R : α → Prop} (hp : p.Within NotStack NotStack (· ≠ .stack) R) : ∀ m m' : Memory, m.Like K m' →
    (∃ u, p.run m = .error u ∧ p.run m' = .error u) ∨
    ∃ x m1 m1' K', p.run m = .ok (x, m1) ∧ p.run m' = .ok (x, m1') ∧ Q K' x ∧ m1.Like K' m1' ∧ Keeps K K' ∧
      ∀ a : Addr, a.region ≠ .stack → K' a ∨ (m1.get a = m.get a ∧ m1'.get a = m'.get a) := by
  induction h with
  | done K x h => intro m m' hm; exact .inr ⟨x, m, m', K, rfl, rfl, h, hm, Keeps.refl _, fun a _ => .inr ⟨rfl, rfl⟩⟩
  | crash K u => intro m m' _; exact .inl ⟨u, rfl, rfl⟩
  | load K a k h hk ih =>
    intro m m' hm
    cases hp with
    | load _ _ ha hk' =>
      simp only [Prog.run]
      rw [hm.octet a ha h]
      cases m'.get a with
      | none => exact .inl ⟨_, rfl, rfl⟩
      | some b => exact ih b (hk' b) m m' hm
  | store K a b k hk ih =>
    intro m m' hm
    cases hp with
    | store _ _ _ ha hk' =>
      have hg := get_isSome m m' a (hm.size a.region ha)
      simp only [Prog.run]
      cases h1 : m.get a with
      | none =>
        cases h2 : m'.get a with
        | none => exact .inl ⟨_, rfl, rfl⟩
        | some _ => rw [h1, h2] at hg; simp at hg
      | some _ =>
        cases h2 : m'.get a with
        | none => rw [h1, h2] at hg; simp at hg
        | some _ =>
          rcases ih hk' _ _ (like_poke hm a b ha) with hu | ⟨x, m1, m1', K', e1, e2, hq, hl, hkeep, hun⟩
          · exact .inl hu
          · refine .inr ⟨x, m1, m1', K', e1, e2, hq, hl, fun y hy => hkeep y (.inl hy), fun y hy => ?_⟩
            by_cases hya : y = a
            · exact .inl (hkeep y (.inr hya))
            · have := hun y hy
              rw [get_poke, get_poke, if_neg fun h => hya h.1, if_neg fun h => hya h.1] at this
              exact this
  | note K e k hk ih =>
    intro m m' hm
    cases hp with
    | note _ _ hk' => exact ih hk' m m' hm
  | alloc K r i k hk ih =>
    intro m m' hm
    cases hp with
    | alloc _ _ _ hr hk' =>
      rcases ih hk' _ _ (like_set hm r i) with hu | ⟨x, m1, m1', K', e1, e2, hq, hl, hkeep, hun⟩
      · exact .inl hu
      · refine .inr ⟨x, m1, m1', K', e1, e2, hq, hl, fun y hy => hkeep y (.inl hy), fun y hy => ?_⟩
        by_cases hyr : y.region = r
        · exact .inl (hkeep y (.inr hyr))
        · have := hun y hy
          rw [get_set, get_set, if_neg hyr, if_neg hyr] at this
          exact this
  | free K r s k hk ih =>
    intro m m' hm
    cases hp with
    | free _ _ _ hr hk' =>
      have hlike : ((if s then m.bury (m r) else m).set r []).Like (fun x => K x ∨ x.region = r) ((if s then m'.bury (m' r) else m').set r []) := by
        cases s
        · exact like_set hm r []
        · exact like_set (like_bury hm _ _) r []
      rcases ih hk' _ _ hlike with hu | ⟨x, m1, m1', K', e1, e2, hq, hl, hkeep, hun⟩
      · exact .inl hu
      · refine .inr ⟨x, m1, m1', K', e1, e2, hq, hl, fun y hy => hkeep y (.inl hy), fun y hy => ?_⟩
        by_cases hyr : y.region = r
        · exact .inl (hkeep y (.inr hyr))
        · have := hun y hy
          rw [get_set, get_set, if_neg hyr, if_neg hyr] at this
          cases s
          · exact this
          · rw [show (if true then m.bury (m r) else m) = m.bury (m r) from rfl, show (if true then m'.bury (m' r) else m') = m'.bury (m' r) from rfl,
              get_bury _ _ _ hy, get_bury _ _ _ hy] at this
            exact this
  | leave K b k hk ih =>
    intro m m' hm
    cases hp with
    | leave _ _ hk' =>
      rcases ih hk' _ _ (like_bury hm b b) with hu | ⟨x, m1, m1', K', e1, e2, hq, hl, hkeep, hun⟩
      · exact .inl hu
      · refine .inr ⟨x, m1, m1', K', e1, e2, hq, hl, hkeep, fun y hy => ?_⟩
        have := hun y hy
        rw [get_bury _ _ _ hy, get_bury _ _ _ hy] at this
        exact this

end

/-- **C90** (the results of calls).  Take any call and any two memories whose objects have the same sizes and whose octets are the same where the inputs of the call are; everything else,
in particular what is in the output buffer and what other functions have left on the stack, may differ.  Then the call is undefined for both, in the same way, or it has the
same result for both; and if it succeeds, each octet of the output is the same. -/
theorem C90_results (c : Call) (hc : c.OfCaller) (m m' : Memory) (h : m.Like c.Reads m') :
    (∀ u, c.prog.run m = .error u → c.prog.run m' = .error u) ∧
    ∀ r m1, c.prog.run m = .ok (r, m1) → ∃ m1', c.prog.run m' = .ok (r, m1') ∧ (r.err = .ok → ∀ a, c.Writes a → m1.get a = m1'.get a) := by
  obtain ⟨R, hp⟩ := notStack_call c hc
  rcases defined_run (C90_calls c) hp m m' h with ⟨u, e1, e2⟩ | ⟨x, m1, m1', K', e1, e2, hq, hl, -, -⟩
  · refine ⟨fun u' hu => ?_, fun r m1 hr => ?_⟩
    · rw [e1] at hu; cases hu; exact e2
    · rw [e1] at hr; cases hr
  · refine ⟨fun u' hu => ?_, fun r m2 hr => ?_⟩
    · rw [e1] at hu; cases hu
    · rw [e1] at hr
      cases hr
      refine ⟨m1', e2, fun e a ha => hl.octet a ?_ (hq e a ha)⟩
      obtain ⟨n, hn⟩ := writes_shared c hc a ha
      rw [hn]; simp

/-- **C90** (the results of everything).  The same for calls and sequences of calls of rendering functions: every octet is the same in both memories in the end, or neither run has written it. -/
theorem C90_any_memory (j : Job) (hc : j.OfCaller) (hsrc : ∀ a, j.Reads a → a.region ≠ .stack) (m m' : Memory) (h : m.Like j.Reads m') :
    (∀ u, j.prog.run m = .error u → j.prog.run m' = .error u) ∧
    ∀ x m1, j.prog.run m = .ok (x, m1) → ∃ m1', j.prog.run m' = .ok (x, m1') ∧
      ∀ a : Addr, a.Shared → m1.get a = m1'.get a ∨ (m1.get a = m.get a ∧ m1'.get a = m'.get a) := by
  have hp : ∃ R, j.prog.Within NotStack NotStack (· ≠ .stack) R := by
    cases j with
    | call c =>
      obtain ⟨R, hp⟩ := notStack_call c hc
      exact ⟨_, hp.seq (Q' := fun _ => True) fun _ _ => .done _ trivial⟩
    | render n cs v =>
      refine ⟨_, ((C75_footprint n cs v).mono hsrc (fun a ha => ?_) (fun _ h => h.elim) fun _ h => h).seq (Q' := fun _ => True) fun _ _ => .done _ trivial⟩
      obtain ⟨s, x, hs, hx, -, hr, -⟩ := ha
      obtain ⟨k, hk⟩ := hc s hs x hx
      unfold NotStack
      rw [hr, hk]; simp
  obtain ⟨R, hp⟩ := hp
  rcases defined_run (C90_defined j) hp m m' h with ⟨u, e1, e2⟩ | ⟨x, m1, m1', K', e1, e2, -, hl, -, hun⟩
  · refine ⟨fun u' hu => ?_, fun r m1 hr => ?_⟩
    · rw [e1] at hu; cases hu; exact e2
    · rw [e1] at hr; cases hr
  · refine ⟨fun u' hu => ?_, fun r m2 hr => ?_⟩
    · rw [e1] at hu; cases hu
    · rw [e1] at hr
      cases hr
      refine ⟨m1', e2, fun a ⟨n, hn⟩ => ?_⟩
      have hs : a.region ≠ .stack := by rw [hn]; simp
      exact (hun a hs).imp (hl.octet a hs) id

/-! ## Interrupted calls -/

theorem ends_steps {α : Type} (p : Prog α) (n : Nat) (he : p.Ends (fun _ _ => True) n) (m m' : Memory) (x : α) (h : p.run m = .ok (x, m')) (k : Nat) (hk : n ≤ k) :
    Prog.steps k (p, m) = (.done x, m') := by
  have hdone : ∀ (y : α) (m : Memory) (k : Nat), Prog.steps k (.done y, m) = (.done y, m) := fun y m k => by
    induction k with
    | zero => rfl
    | succ k ih => exact ih
  obtain ⟨N, hN⟩ := run_steps p m m' x h
  have hend := steps_ended n p m he
  obtain ⟨d, rfl⟩ : ∃ d, k = n + d := ⟨k - n, by omega⟩
  rcases hend with ⟨y, hy⟩ | ⟨u, hu⟩
  · have hst : Prog.steps n (p, m) = (.done y, (Prog.steps n (p, m)).2) := Prod.ext hy rfl
    have h1 := hN (n + d + N) (by omega)
    rw [Nat.add_assoc, steps_add, hst, hdone] at h1
    rw [steps_add, hst, hdone]
    exact h1
  · exact absurd hu.2 (steps_safe p m m' x h n u)

section
variable {ι : Type} [DecidableEq ι]

theorem run_any_schedule (call : ι → Call) (hind : Independent call) (shared : Nat → Bytes) (stack : ι → Memory) (i : ι) (y : PReply × Memory)
    (hrun : (call i).prog.run (viewOf shared (stack i)) = .ok y) (σ : List ι) (hσ : (call i).budget ≤ σ.count i) :
    (((startOf call shared stack).exec σ).thread i).prog = .done y.1 ∧
    ∀ n k, (call i).Writes ⟨.caller n, k⟩ → (((startOf call shared stack).exec σ).shared n)[k]? = (y.2 (.caller n))[k]? := by
  obtain ⟨h1, h2⟩ := exec_solo (fun i => (call i).MayRead) (fun i => (call i).MayWrite) σ (startOf call shared stack) (fun i => viewOf shared (stack i))
    (within_threads call shared stack)
    (fun i j hij a ha hw => by
      have notl : ¬ (a.region.Local ∧ a.region ≠ .stack) := fun h => by
        obtain ⟨n, hn⟩ := ha
        exact h.1 n hn
      rcases hw with hw | hw
      · obtain ⟨h1, h2⟩ := hind i j hij a hw
        exact ⟨fun h => h.elim h1 fun h => h.elim h2 notl, fun h => h.elim h2 notl⟩
      · exact absurd hw notl)
    (fun i => ⟨fun _ _ => rfl, fun _ _ _ => rfl⟩) i
  rw [show ((startOf call shared stack).thread i).prog = (call i).prog from rfl, ends_steps _ _ (C88_calls (call i)) _ _ _ hrun _ hσ] at h1 h2
  exact ⟨h1, fun n k hw => h2.used ⟨.caller n, k⟩ ⟨n, rfl⟩ (.inr (.inl hw))⟩

/-- **C82** (all calls of the context).  Threads make calls of any functions of the context, where no call writes what a call reads (itself included) or what another call writes.
They are cut off any number of times, each time at any point of any schedule, with whatever is left on the stacks.  If the calls are then made again, each of them has the result that it has
when nothing is ever cut off as soon as it has made the number of steps of C88, and if that is success, its output is the same, too. -/
theorem C82_calls (call : ι → Call) (hc : ∀ i, (call i).OfCaller) (hind : ∀ i j a, (call i).Writes a → ¬ (call j).Reads a ∧ (i ≠ j → ¬ (call j).Writes a)) (shared : Nat → Bytes)
    (stack stack' : ι → Memory) (hrest : ∀ i, (stack i).AtRest) (hrest' : ∀ i, (stack' i).AtRest) (x : ι → MReply)
    (hx : ∀ i, (call i).effect (viewOf shared (stack i)) = .ok (x i)) (rs : List ((ι → Memory) × List ι)) (i : ι) (σ : List ι) (hσ : (call i).budget ≤ σ.count i) :
    (((startOf call (afterResets call shared rs) stack').exec σ).thread i).prog = .done ⟨(x i).err, (x i).size⟩ ∧
    ((x i).err = .ok → ∀ n k, (call i).Writes ⟨.caller n, k⟩ →
      (((startOf call (afterResets call shared rs) stack').exec σ).shared n)[k]? = ((x i).mem (.caller n))[k]?) := by
  obtain ⟨hlen, hsame⟩ := afterResets_frame call rs shared
  have view_rest : ∀ (sh : Nat → Bytes) (st : Memory), st.AtRest → (viewOf sh st).AtRest := fun sh st h r hr hs => by
    have : viewOf sh st r = st r := by
      cases r with
      | caller n => exact absurd rfl (hr n)
      | _ => rfl
    rw [this]
    exact h r hr hs
  have hlike : (viewOf shared (stack i)).Like (call i).Reads (viewOf (afterResets call shared rs) (stack' i)) := by
    refine ⟨fun r hr => ?_, fun a _ ha => ?_⟩
    · by_cases hl : r.Local
      · rw [view_rest _ _ (hrest i) r hl hr, view_rest _ _ (hrest' i) r hl hr]
      · obtain ⟨n, hn⟩ : ∃ n, r = .caller n := Classical.byContradiction fun h => hl fun n hn => h ⟨n, hn⟩
        subst hn
        exact (hlen n).symm
    · obtain ⟨n, hn⟩ := reads_shared (call i) (hc i) a ha
      obtain ⟨r, k⟩ := a
      simp only at hn
      subst hn
      exact (hsame n k fun j hw => (hind j i _ hw).1 ha).symm
  have hrun := C73_alone (call i) (hc i) _ (view_rest _ _ (hrest i)) (x i) (hx i)
  obtain ⟨m1', hrun', hout⟩ := (C90_results (call i) (hc i) _ _ hlike).2 _ _ hrun
  obtain ⟨h1, h2⟩ := run_any_schedule call (fun i j hij a ha => ⟨(hind i j a ha).1, (hind i j a ha).2 hij⟩) _ stack' i _ hrun' σ hσ
  exact ⟨h1, fun e n k hw => (h2 n k hw).trans (hout e ⟨.caller n, k⟩ hw).symm⟩

end

/-! ## Examples -/

/-- A program that adds an octet of its output to the octet that it writes there relies on the old octet: it is not one of those that read only what they have written. -/
example (a : Addr) : ¬ (Prog.load a fun b => .store a (b + 1) (.done ())).Defined (fun _ _ => True) (fun _ => False) := fun h => by
  cases h with
  | load _ _ _ h _ => exact h

/-- A digest of six octets of object 0, in two slices, for an output in object 1. -/
def definedCall : Call := .digest 1 (some [⟨2, some [⟨4, some ⟨.caller 0, 0⟩⟩, ⟨2, some ⟨.caller 0, 7⟩⟩]⟩]) 1 (some ⟨.caller 1, 0⟩) (some 40)

/-- Memory with the inputs and with an output buffer that was filled with `b`; `rest` has been left on the stack. -/
def definedMemory (b : UInt8) (rest : Bytes) : Memory := fun r =>
  match r with
  | .caller 0 => [1, 2, 3, 4, 5, 6, 7, 8, 9]
  | .caller 1 => List.replicate 40 b
  | .stack => rest
  | _ => []

/-- The hypotheses of `C90_results` hold for output buffers that are filled with anything and any remains on the stack … -/
example (b b' : UInt8) (rest rest' : Bytes) : definedCall.OfCaller ∧ (definedMemory b rest).Like definedCall.Reads (definedMemory b' rest') := by
  have hr : ∀ a, definedCall.Reads a → a.region = .caller 0 := fun a ⟨g, hg, s, hs, x, hx, h⟩ => by
    simp only [Option.getD_some, UInt64.reduceToNat, List.take_succ_cons, List.take_nil, List.take_zero, List.mem_singleton] at hg
    subst hg
    simp only [MList.slices, Option.getD_some, UInt64.reduceToNat, List.take_succ_cons, List.take_zero, List.mem_cons, List.not_mem_nil, or_false] at hs
    rcases hs with rfl | rfl <;> (cases hx; exact h.1)
  refine ⟨⟨fun g hg s hs x hx => ?_, fun a h => by cases h; exact ⟨_, rfl⟩⟩, fun r hs => ?_, fun a _ ha => ?_⟩
  · simp only [Option.getD_some, List.mem_singleton] at hg
    subst hg
    simp only [Option.getD_some, List.mem_cons, List.not_mem_nil, or_false] at hs
    rcases hs with rfl | rfl <;> (cases hx; exact ⟨_, rfl⟩)
  · unfold definedMemory
    split
    · rfl
    · simp
    · exact absurd rfl hs
    · rfl
  · unfold Memory.get definedMemory
    rw [hr a ha]
    rfl

/-- … and the call succeeds. -/
example : ((definedCall.prog.run (definedMemory 0xff [1, 2, 3])).toOption.map fun x => x.1.err) = some .ok := by decide +kernel

/-- The hypotheses of `C82_calls` are met by two threads that make keys from the same inputs, each into an object of its own. -/
example (rest : Fin 2 → Bytes) : ∃ call : Fin 2 → Call, (∀ i, (call i).OfCaller) ∧ (∀ i j a, (call i).Writes a → ¬ (call j).Reads a ∧ (i ≠ j → ¬ (call j).Writes a)) ∧
    (∀ i, Memory.AtRest fun r => if r = .stack then rest i else []) := by
  refine ⟨fun i => .hkdf 1 ⟨4, some ⟨.caller 0, 0⟩⟩ ⟨3, some ⟨.caller 0, 4⟩⟩ ⟨2, some ⟨.caller 0, 7⟩⟩ 40 (some ⟨.caller (i.val + 1), 0⟩), fun i => ?_, fun i j a hw => ⟨fun hr => ?_, fun hij hw' => ?_⟩,
    fun i r _ hs => if_neg hs⟩
  · exact ⟨fun a h => by cases h; exact ⟨_, rfl⟩, fun a h => by cases h; exact ⟨_, rfl⟩, fun a h => by cases h; exact ⟨_, rfl⟩, fun a h => by cases h; exact ⟨_, rfl⟩⟩
  · obtain ⟨o, ho, h, -⟩ := hw
    cases ho
    have : a.region = .caller 0 := by rcases hr with ⟨x, hx, h⟩ | ⟨x, hx, h⟩ | ⟨x, hx, h⟩ <;> (cases hx; exact h.1)
    rw [this] at h
    simp at h
  · obtain ⟨o, ho, h, -⟩ := hw
    obtain ⟨o', ho', h', -⟩ := hw'
    cases ho
    cases ho'
    rw [h] at h'
    simp only [Region.caller.injEq, Nat.add_right_cancel_iff] at h'
    exact hij (Fin.ext h')

end Nat20
