import Verif.Lemmas.CostWriters
import Verif.Props.Writers
/-!
# Property C88: every call ends after a bounded number of steps, whatever other threads do
-/

namespace Nat20

/-- **C88** (digests).  Every call of a function of the native digest context ends within a number of steps that is linear in the sizes of its arguments (and for
derived keys in the number of blocks times the sizes), for every content of the memory, also when the content changes during the call. -/
theorem C88_calls (c : Call) : c.prog.Ends (fun _ _ => True) c.budget := by
  cases c with
  | digest alg msg count out size =>
    refine (ends_digest alg msg count out size _ ?_).post fun _ _ _ => trivial
    simp only [Call.budget, digestBudget, listsCost]
    omega
  | hmac alg key msg out size =>
    refine (ends_hmac alg key msg out size _ ?_).post fun _ _ _ => trivial
    cases msg with
    | none => simp only [Call.budget, hmacBudget, hmacCost, Option.elim_none]; omega
    | some g => simp only [Call.budget, hmacBudget, hmacCost, Option.elim_some, slicesCost, MList.octets]; omega
  | extract alg ikm salt out size => exact (ends_extract alg ikm salt out size _ (Nat.le_refl _)).post fun _ _ _ => trivial
  | expand alg prk info n out => exact (ends_expand alg prk info n out _ (by rw [digestOctets_eq]; exact Nat.le_refl _)).post fun _ _ _ => trivial
  | hkdf alg ikm salt info n out => exact ends_hkdf alg ikm salt info n out _ (by rw [digestOctets_eq]; exact Nat.le_refl _)

/-- **C88** (rendering).  Every sequence of calls of rendering functions, with callbacks of any depth, ends after a number of accesses to memory that is linear in the
sizes of its arguments, for every content of the memory and every state of the stream. -/
theorem C88_rendering (n : Nat) (cs : Content n) (v : Option SVars) : (Content.prog n cs v).Ends (fun _ _ => True) (Content.budget n cs) :=
  (costs_contents n cs v _ (Nat.le_refl _)).post fun _ _ _ => trivial

theorem job_ends (j : Job) : j.prog.Ends (fun _ _ => True) j.budget := by
  cases j with
  | call c => exact (C88_calls c).seq fun _ _ _ => .done _ _ trivial
  | render n cs v => exact (C88_rendering n cs v).seq fun _ _ _ => .done _ _ trivial

/-! ## What that means for executions -/

section
variable {α : Type} {p : Prog α}

theorem ended_step (h : p.Ended) (m : Memory) : (p.step m).1 = p ∧ (p.step m).2 = m := by
  rcases h with ⟨x, rfl⟩ | ⟨u, -, rfl⟩ <;> exact ⟨rfl, rfl⟩

/-- After a step there is one less to make. -/
theorem Prog.Ends.step {n : Nat} (h : p.Ends (fun _ _ => True) n) (m : Memory) : p.Ended ∨ 0 < n ∧ (p.step m).1.Ends (fun _ _ => True) (n - 1) := by
  cases h with
  | done n x h => exact .inl (.inl ⟨x, rfl⟩)
  | crash n u h => exact .inl (.inr ⟨u, h, rfl⟩)
  | load n a k hk =>
    refine .inr ⟨by omega, ?_⟩
    rw [Prog.step]
    split
    · exact hk _
    · exact .crash _ _ (by decide)
  | store n a b k hk =>
    refine .inr ⟨by omega, ?_⟩
    rw [Prog.step]
    split
    · exact hk
    · exact .crash _ _ (by decide)
  | note n e k hk => exact .inr ⟨by omega, hk⟩
  | alloc n r i k hk => exact .inr ⟨by omega, hk⟩
  | free n r s k hk => exact .inr ⟨by omega, hk⟩
  | leave n b k hk => exact .inr ⟨by omega, hk⟩

theorem ends_zero (h : p.Ends (fun _ _ => True) 0) : p.Ended := (h.step fun _ => []).elim (fun h => h) fun h => absurd h.1 (by omega)

theorem steps_ended (n : Nat) : ∀ (p : Prog α) (m : Memory), p.Ends (fun _ _ => True) n → (Prog.steps n (p, m)).1.Ended := by
  induction n with
  | zero => intro p m h; exact ends_zero h
  | succ n ih =>
    intro p m h
    rw [Prog.steps]
    dsimp only
    rcases h.step m with he | ⟨-, hs⟩
    · have := ended_step he m
      rcases he with ⟨x, rfl⟩ | ⟨u, hu, rfl⟩
      · exact ih _ _ (.done _ _ trivial)
      · exact ih _ _ (.crash _ _ hu)
    · exact ih _ _ hs

theorem trace_le {n : Nat} (h : p.Ends (fun _ _ => True) n) : ∀ m : Memory, (p.trace m).length ≤ n := by
  induction h with
  | done n x h => intro m; exact Nat.zero_le _
  | crash n u h => intro m; exact Nat.zero_le _
  | load n a k hk ih =>
    intro m
    rw [Prog.trace, List.length_cons]
    split
    · exact Nat.succ_le_succ (ih _ m)
    · exact Nat.succ_le_succ (Nat.zero_le _)
  | store n a b k hk ih =>
    intro m
    rw [Prog.trace, List.length_cons]
    split
    · exact Nat.succ_le_succ (ih _)
    · exact Nat.succ_le_succ (Nat.zero_le _)
  | note n e k hk ih => intro m; exact Nat.succ_le_succ (ih m)
  | alloc n r i k hk ih => intro m; exact Nat.succ_le_succ (ih _)
  | free n r s k hk ih => intro m; exact Nat.succ_le_succ (ih _)
  | leave n b k hk ih => intro m; exact Nat.le_succ_of_le (ih _)

end

/-- **C88** (alone).  When nothing else happens, what a thread does has ended after so many steps, and no more than so many accesses and branches are seen. -/
theorem C88_alone (j : Job) (m : Memory) : (Prog.steps j.budget (j.prog, m)).1.Ended ∧ (j.prog.trace m).length ≤ j.budget :=
  ⟨steps_ended _ _ _ (job_ends j), trace_le (job_ends j) m⟩

section
variable {ι α : Type} [DecidableEq ι]

theorem exec_ended (i : ι) (σ : List ι) : ∀ (w : Machine ι α) (n : Nat), (w.thread i).prog.Ends (fun _ _ => True) n → n ≤ σ.count i → ((w.exec σ).thread i).prog.Ended := by
  induction σ with
  | nil =>
    intro w n h hn
    rw [List.count_nil] at hn
    obtain rfl : n = 0 := by omega
    exact ends_zero h
  | cons j σ ih =>
    intro w n h hn
    rw [Machine.exec]
    by_cases hj : j = i
    · subst hj
      rw [List.count_cons_self] at hn
      have hp : ((w.step j).thread j).prog = ((w.thread j).prog.step (w.view j)).1 := by simp [Machine.step]
      rcases h.step (w.view j) with he | ⟨h0, hs⟩
      · refine ih (w.step j) 0 ?_ (by omega)
        rw [hp, (ended_step he _).1]
        rcases he with ⟨x, hx⟩ | ⟨u, hu, hx⟩ <;> rw [hx]
        · exact .done _ _ trivial
        · exact .crash _ _ hu
      · exact ih (w.step j) (n - 1) (by rw [hp]; exact hs) (by omega)
    · rw [List.count_cons_of_ne hj] at hn
      have hp : (w.step j).thread i = w.thread i := by simp [Machine.step, Ne.symm hj]
      exact ih (w.step j) n (by rw [hp]; exact h) hn

/-- **C88** (wait-freedom).  A thread that renders or calls a function of the digest context among other threads has ended as soon as it has made that many steps itself,
under every schedule, whatever the other threads do (also if they never make a step again, and also if they write to its memory), and it never loops. -/
theorem C88_wait_free (w : Machine ι Outcome) (i : ι) (j : Job) (hj : (w.thread i).prog = j.prog) (σ : List ι) (hσ : j.budget ≤ σ.count i) :
    ((w.exec σ).thread i).prog.Ended := exec_ended i σ w j.budget (by rw [hj]; exact job_ends j) hσ

theorem exec_idle (i : ι) (x : α) (n : Nat) : ∀ w : Machine ι α, (w.thread i).prog = .done x →
    ((w.exec (List.replicate n i)).thread i).prog = .done x ∧ (w.exec (List.replicate n i)).shared = w.shared ∧
      ∀ r : Region, r.Local → ((w.exec (List.replicate n i)).thread i).stack r = (w.thread i).stack r := by
  induction n with
  | zero => intro w h; exact ⟨h, rfl, fun _ _ => rfl⟩
  | succ n ih =>
    intro w h
    rw [List.replicate_succ, Machine.exec]
    have h1 : ((w.step i).thread i).prog = .done x := by simp [Machine.step, h, Prog.step]
    have h2 : (w.step i).shared = w.shared := by funext k; simp [Machine.step, h, Prog.step, Machine.view, viewOf]
    have h3 : ∀ r : Region, r.Local → ((w.step i).thread i).stack r = (w.thread i).stack r := fun r hr => by
      rw [← view_local w i r hr]
      simp [Machine.step, h, Prog.step]
    obtain ⟨a, b, c⟩ := ih (w.step i) h1
    exact ⟨a, b.trans h2, fun r hr => (c r hr).trans (h3 r hr)⟩

theorem exec_app (w : Machine ι α) (σ τ : List ι) : w.exec (σ ++ τ) = (w.exec σ).exec τ := by
  induction σ generalizing w with
  | nil => rfl
  | cons i σ ih => exact ih _

/-- **C88** (with its result).  Under the conditions of C76, a thread has the result, the output and the stack that it has alone as soon as it has made that many steps. -/
theorem C88_result (job : ι → Job) (hc : ∀ i, (job i).OfCaller) (hind : Job.Independent job) (shared : Nat → Bytes) (stack : ι → Memory)
    (hrest : ∀ i, (stack i).AtRest) (x : ι → Outcome × Memory) (hx : ∀ i, (job i).alone (viewOf shared (stack i)) = .ok (x i)) (i : ι) (σ : List ι)
    (hσ : (job i).budget ≤ σ.count i) :
    (((Job.start job shared stack).exec σ).thread i).prog = .done (x i).1 ∧
    (∀ n k, (job i).Writes ⟨.caller n, k⟩ → (((Job.start job shared stack).exec σ).shared n)[k]? = ((x i).2 (.caller n))[k]?) ∧
    (∀ r : Region, r.Local → (((Job.start job shared stack).exec σ).thread i).stack r = (x i).2 r) := by
  obtain ⟨h1, h2, -⟩ := C76_any_schedule job hc hind shared stack hrest x hx
  obtain ⟨N, hN⟩ := h2 i
  have he := C88_wait_free (Job.start job shared stack) i (job i) rfl σ hσ
  rcases he with ⟨y, hy⟩ | ⟨u, -, hu⟩
  · obtain ⟨a, b, c⟩ := exec_idle i y N _ hy
    have h := hN (σ ++ List.replicate N i) (by rw [List.count_append, List.count_replicate_self]; omega)
    rw [exec_app] at h
    rw [a, b] at h
    refine ⟨?_, h.2.1, fun r hr => ?_⟩
    · rw [hy, h.1]
    · rw [← c r hr]; exact h.2.2 r hr
  · exact absurd hu (h1 σ i u)

end

/-! ## Examples -/

/-- A digest of three octets, and its number of steps. -/
example : (Call.digest 1 (some [⟨1, some [⟨3, some ⟨.caller 0, 0⟩⟩]⟩]) 1 (some ⟨.caller 1, 0⟩) (some 32)).budget = 3977 := by decide

/-- A key of 100 octets takes four blocks of SHA-256. -/
example : (Call.hkdf 1 ⟨32, some ⟨.caller 0, 0⟩⟩ ⟨0, some ⟨.caller 1, 0⟩⟩ ⟨16, some ⟨.caller 2, 0⟩⟩ 100 (some ⟨.caller 3, 0⟩)).budget = 113980 := by decide

/-- Two threads that render into the same buffer: their result depends on the schedule, but both end. -/
def racing (i : Fin 2) : Job := .render 1 [.octetstring (some ⟨3, some (.mem ⟨.caller 3, 0⟩)⟩) (if i = 0 then tagInfoNoOverride else tagInfoImplicit 1)] (some (streamInitP (some ⟨.caller 0, 0⟩) 6))

/-- Is anything left to do? -/
def Prog.isLeaf {α : Type} : Prog α → Bool
  | .done _ => true
  | .crash _ => true
  | _ => false

/-- Non-vacuity of `C88_wait_free`: the number of steps of the racing threads, and a schedule in which one of them makes them and the other one stops for ever in the
middle. -/
example : (∀ i, (racing i).budget = 59) ∧
    (((Job.start racing threeObjects fun _ _ => []).exec ([1, 1, 1] ++ List.replicate 59 0)).thread 0).prog.Ended ∧
    ¬ (((Job.start racing threeObjects fun _ _ => []).exec ([1, 1, 1] ++ List.replicate 59 0)).thread 1).prog.Ended :=
  ⟨by decide, C88_wait_free (Job.start racing threeObjects fun _ _ => []) 0 (racing 0) rfl _ (by decide), fun h => by
    have : (((Job.start racing threeObjects fun _ _ => []).exec ([1, 1, 1] ++ List.replicate 59 0)).thread 1).prog.isLeaf = false := by decide +kernel
    rcases h with ⟨x, h⟩ | ⟨u, -, h⟩ <;> rw [h] at this <;> cases this⟩

/-- Non-vacuity of `C88_result`: the digest of the third of the threads of `threeJobs`, which meet the hypotheses (see C76), takes no more steps than that. -/
example : (threeJobs 0).budget = 59 ∧ (threeJobs 1).budget = 59 ∧ (threeJobs 2).budget = 3977 := by decide

end Nat20
