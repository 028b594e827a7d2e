import Verif.Lemmas.Alloc
/-!
# Key objects at addresses: threads

The proofs are those of `Props/Concurrent.lean`.
-/

namespace Nat20.Addr

open Fips

/-- Where a call has come to with library calls of the given numbers. -/
inductive At (lib : Lib) (keys : Nat → Option BsslKey) (op : ApiOp) : List Nat → CallProg → Prop where
  | start : At lib keys op [] (op.prog lib.fns)
  | run {l l' : L Final} {ns : List Nat} : op.prog lib.fns = .run l → Reaches lib l ns l' → At lib keys op ns (.run l')
  | load {p : Nat} {f : BsslKey → L Final} {key : BsslKey} {l' : L Final} {ns : List Nat} : op.prog lib.fns = .load p f → keys p = some key →
      Reaches lib (f key) ns l' → At lib keys op ns (.run l')

theorem reaches_runFrom {α : Type} {lib : Lib} {l l' : L α} {ns : List Nat} (h : Reaches lib l ns l') (σ : Nat → Nat) (c : Nat)
    (hn : Numbered σ c ns) : l.runFrom (lib.renumber σ) c = l'.runFrom (lib.renumber σ) (c + ns.length) := by
  induction h with
  | start => rfl
  | @call ns k n h ih =>
    rw [ih hn.left]
    show (k (lib.answer (σ (c + ns.length)))).runFrom (lib.renumber σ) (c + ns.length + 1) = _
    have := hn.right 0 (by simp)
    simp only [Nat.add_zero, List.getElem_cons_zero] at this
    rw [this, List.length_append]
    rfl

theorem reaches_final {lib : Lib} {l l' : L Final} {ns : List Nat} (h : Reaches lib l ns l') (σ : Nat → Nat) (c fresh : Nat) (keys : Nat → Option BsslKey)
    (hn : Numbered σ c ns) : runFinalAt (lib.renumber σ) fresh l ⟨c, keys⟩ = runFinalAt (lib.renumber σ) fresh l' ⟨c + ns.length, keys⟩ := by
  unfold runFinalAt
  dsimp only
  rw [reaches_runFrom h σ c hn]

theorem at_alone {lib : Lib} {keys : Nat → Option BsslKey} {op : ApiOp} {ns : List Nat} {l : L Final} (h : At lib keys op ns (.run l)) (σ : Nat → Nat) (c fresh : Nat)
    (hn : Numbered σ c ns) : op.runAt (lib.renumber σ) fresh ⟨c, keys⟩ = runFinalAt (lib.renumber σ) fresh l ⟨c + ns.length, keys⟩ := by
  show (op.prog lib.fns).runAt _ _ _ = _
  generalize hp : CallProg.run l = pr at h
  cases h with
  | start => rw [← hp]; rfl
  | run h1 h2 =>
    cases hp
    rw [h1]
    exact reaches_final h2 σ c fresh keys hn
  | load h1 h2 h3 =>
    cases hp
    rw [h1]
    unfold CallProg.runAt
    dsimp only
    rw [h2]
    exact reaches_final h3 σ c fresh keys hn

theorem At.kept {lib : Lib} {keys keys' : Nat → Option BsslKey} {op : ApiOp} {ns : List Nat} {pr : CallProg} (h : At lib keys op ns pr)
    (hk : ∀ p key, op.handle = some p → keys p = some key → keys' p = some key) : At lib keys' op ns pr := by
  cases h with
  | start => exact .start
  | run h1 h2 => exact .run h1 h2
  | load h1 h2 h3 => exact .load h1 (hk _ _ (load_handle h1) h2) h3

theorem legal_kept {op : ApiOp} {w w' : AddrWorld} (h : op.LegalAt w) (hk : ∀ p key, op.handle = some p → w.keys p = some key → w'.keys p = some key) :
    op.LegalAt w' :=
  ⟨fun p hp => let ⟨k, h1⟩ := h.1 p hp; ⟨k, hk p k hp h1⟩, h.2⟩

/-- Only `key_free` destroys key objects, and only the one that it is given. -/
theorem at_destroys {lib : Lib} {keys : Nat → Option BsslKey} {op : ApiOp} {ns : List Nat} {p : Nat} (h : At lib keys op ns (.run (.done (.destroy p)))) :
    op.Destroys p := by
  have hend : ∀ l : L Final, l.Tidy → Reaches lib l ns (.done (.destroy p)) → False := by
    intro l ht hr
    have : ∀ (ns : List Nat) (l' : L Final), Reaches lib l ns l' → l'.Tidy := by
      intro ns l' h
      induction h with
      | start => exact ht
      | call n h ih => exact ih _
    exact this _ _ hr
  generalize hp : CallProg.run (.done (.destroy p)) = pr at h
  cases prog_cases lib.fns id op with
  | load q l _ h1 _ ht =>
    cases h with
    | start => rw [h1] at hp; cases hp
    | run h2 _ => rw [h1] at h2; cases h2
    | load h2 _ h3 =>
      cases hp
      rw [h1] at h2
      cases h2
      exact absurd h3 (hend _ (ht _))
  | run l h1 _ ht =>
    cases h with
    | start =>
      rw [h1] at hp
      cases hp
      exact absurd ht id
    | run h2 h3 =>
      cases hp
      rw [h1] at h2
      cases h2
      exact absurd h3 (hend _ ht)
    | load h2 _ _ => rw [h1] at h2; cases h2
  | free q _ hd h1 _ =>
    cases h with
    | start => rw [h1] at hp; cases hp; exact hd
    | run h2 h3 =>
      cases hp
      rw [h1] at h2
      cases h2
      generalize hx : L.done (Final.destroy p) = x at h3
      cases h3 with
      | start => cases hx; exact hd
      | call n h =>
        exfalso
        have : ∀ (ns : List Nat) (y : L Final), Reaches lib (.done (.destroy q)) ns y → y = .done (.destroy q) := by
          intro ns y h
          induction h with
          | start => rfl
          | call n h ih => cases ih
        have := this _ _ h
        cases this
    | load h2 _ _ => rw [h1] at h2; cases h2

/-- The end of a call keeps all key objects but the one that it destroys, and it does not depend on the number of library calls. -/
theorem commit_ok {f : Final} {fresh : Nat} {w w' : AddrWorld} {r : ApiReply} (hf : w.keys fresh = none) (h : f.commitAt fresh w = .ok (r, w')) :
    w'.calls = w.calls ∧ (∀ c, f.commitAt fresh ⟨c, w.keys⟩ = .ok (r, ⟨c, w'.keys⟩)) ∧
    ∀ p key, w.keys p = some key → (∀ q, f = .destroy q → q ≠ p) → w'.keys p = some key := by
  cases f with
  | reply r' =>
    cases h
    exact ⟨rfl, fun c => rfl, fun p key hp _ => hp⟩
  | create key =>
    cases h
    refine ⟨rfl, fun c => rfl, fun p key' hp _ => ?_⟩
    dsimp only
    rw [setAt_ne _ _ fun e => by rw [e, hf] at hp; cases hp]
    exact hp
  | destroy q =>
    unfold Final.commitAt at h
    dsimp only at h
    cases hq : w.keys q with
    | none => rw [hq] at h; cases h
    | some k =>
      rw [hq] at h
      cases h
      refine ⟨rfl, fun c => ?_, fun p key hp hne => ?_⟩
      · unfold Final.commitAt
        dsimp only
        rw [hq]
      · dsimp only
        rw [setAt_ne _ _ (hne q rfl).symm]
        exact hp

/-- The end of a call that is undefined is so whatever the number of library calls is. -/
theorem commit_error {f : Final} {fresh : Nat} {w : AddrWorld} {e : UB} (h : f.commitAt fresh w = .error e) (c : Nat) : f.commitAt fresh ⟨c, w.keys⟩ = .error e := by
  cases f with
  | reply r => cases h
  | create key => cases h
  | destroy q =>
    unfold Final.commitAt at h ⊢
    dsimp only at h ⊢
    cases hq : w.keys q with
    | none => rw [hq] at h; exact h
    | some k => rw [hq] at h; cases h

/-! ## Any number of threads -/

theorem history_snoc {lib : Lib} {w w1 w2 : AddrWorld} {l : List (Nat × ApiOp × ApiReply)} {fresh : Nat} {op : ApiOp} {r : ApiReply}
    (h : AddrHistory lib w l w1) (hl : op.LegalAt w1) (hf : w1.keys fresh = none) (hr : op.runAt lib fresh w1 = .ok (r, w2)) :
    AddrHistory lib w (l ++ [(fresh, op, r)]) w2 := by
  induction h with
  | nil w => exact .cons hl hf hr (.nil _)
  | cons h1 h2 h3 _ ih => exact .cons h1 h2 h3 (ih hl hf hr)

/-- What holds after every step: `ns` are the numbers of the library calls of the calls that returned, `own i` those of the present call of thread `i`. -/
structure Inv (lib : Lib) (w0 : AddrWorld) (clients : Nat → Client) (s : AddrPool) (ns : List Nat) (own : Nat → List Nat) : Prop where
  hist : ∀ σ, Numbered σ 0 ns → AddrHistory (lib.renumber σ) ⟨0, w0.keys⟩ (s.log.map AddrCall.call) ⟨ns.length, s.world.keys⟩
  busy : ∀ i op p k, s.threads i = .busy op p k → op.LegalAt s.world ∧ At lib s.world.keys op (own i) p
  idle : ∀ i c, s.threads i = .idle c → own i = []
  compat : ∀ i j op p k op' p' k', i ≠ j → s.threads i = .busy op p k → s.threads j = .busy op' p' k' → Compatible op op'
  nodup : ∀ i, (ns ++ own i).Nodup
  disj : ∀ i j, i ≠ j → ∀ x, x ∈ own i → x ∉ own j
  range : ∀ i, ∀ x ∈ ns ++ own i, w0.calls ≤ x ∧ x < s.world.calls
  le : w0.calls ≤ s.world.calls
  makes : ∀ i, (clients i).Makes (s.logOf i) (s.threads i).client

theorem inv_begin {lib : Lib} {w0 : AddrWorld} {clients : Nat → Client} {s : AddrPool} {ns : List Nat} {own : Nat → List Nat} (h : Inv lib w0 clients s ns own) (i : Nat)
    {op : ApiOp} {k : ApiReply → Client} (hi : s.threads i = .idle (.call op k)) {fresh : Nat} (hc : s.Careful i fresh) :
    Inv lib w0 clients { s with threads := setAt s.threads i (.busy op (op.prog lib.fns) k) } ns own := by
  obtain ⟨hl, hcomp⟩ := hc.2 op k hi
  refine ⟨h.hist, ?_, ?_, ?_, h.nodup, h.disj, h.range, h.le, ?_⟩
  · intro j op' p' k' e
    by_cases hj : j = i
    · subst hj
      simp only [setAt_self] at e
      cases e
      refine ⟨hl, ?_⟩
      rw [h.idle j _ hi]
      exact .start
    · simp only [setAt_ne _ _ hj] at e
      exact h.busy j op' p' k' e
  · intro j c e
    by_cases hj : j = i
    · subst hj
      simp only [setAt_self] at e
      cases e
    · simp only [setAt_ne _ _ hj] at e
      exact h.idle j c e
  · intro a b op1 p1 k1 op2 p2 k2 hab e1 e2
    by_cases ha : a = i
    · subst ha
      simp only [setAt_self, setAt_ne _ _ (Ne.symm hab)] at e1 e2
      cases e1
      exact hcomp b _ _ _ e2
    · simp only [setAt_ne _ _ ha] at e1
      by_cases hb : b = i
      · subst hb
        simp only [setAt_self] at e2
        cases e2
        exact (hcomp a _ _ _ e1).symm
      · simp only [setAt_ne _ _ hb] at e2
        exact h.compat a b _ _ _ _ _ _ hab e1 e2
  · intro j
    have := h.makes j
    by_cases hj : j = i
    · subst hj
      rw [hi] at this
      simp only [setAt_self]
      exact this
    · simp only [setAt_ne _ _ hj]
      exact this

theorem inv_load {lib : Lib} {w0 : AddrWorld} {clients : Nat → Client} {s : AddrPool} {ns : List Nat} {own : Nat → List Nat} (h : Inv lib w0 clients s ns own) (i : Nat)
    {op : ApiOp} {p : Nat} {l : BsslKey → L Final} {k : ApiReply → Client} (hi : s.threads i = .busy op (.load p l) k) {key : BsslKey}
    (hk : s.world.keys p = some key) : Inv lib w0 clients { s with threads := setAt s.threads i (.busy op (.run (l key)) k) } ns own := by
  obtain ⟨hl, hat⟩ := h.busy i _ _ _ hi
  have hat' : At lib s.world.keys op (own i) (.run (l key)) := by
    generalize hp : CallProg.load p l = pr at hat
    generalize own i = o at hat ⊢
    cases hat with
    | start => exact .load hp.symm hk .start
    | run => cases hp
    | load => cases hp
  refine ⟨h.hist, ?_, ?_, ?_, h.nodup, h.disj, h.range, h.le, ?_⟩
  · intro j op' p' k' e
    by_cases hj : j = i
    · subst hj
      simp only [setAt_self] at e
      cases e
      exact ⟨hl, hat'⟩
    · simp only [setAt_ne _ _ hj] at e
      exact h.busy j op' p' k' e
  · intro j c e
    by_cases hj : j = i
    · subst hj
      simp only [setAt_self] at e
      cases e
    · simp only [setAt_ne _ _ hj] at e
      exact h.idle j c e
  · intro a b op1 p1 k1 op2 p2 k2 hab e1 e2
    by_cases ha : a = i
    · subst ha
      simp only [setAt_self, setAt_ne _ _ (Ne.symm hab)] at e1 e2
      cases e1
      exact h.compat a b _ _ _ _ _ _ hab hi e2
    · simp only [setAt_ne _ _ ha] at e1
      by_cases hb : b = i
      · subst hb
        simp only [setAt_self] at e2
        cases e2
        exact h.compat a b _ _ _ _ _ _ hab e1 hi
      · simp only [setAt_ne _ _ hb] at e2
        exact h.compat a b _ _ _ _ _ _ hab e1 e2
  · intro j
    have := h.makes j
    by_cases hj : j = i
    · subst hj
      rw [hi] at this
      simp only [setAt_self]
      exact this
    · simp only [setAt_ne _ _ hj]
      exact this

theorem inv_call {lib : Lib} {w0 : AddrWorld} {clients : Nat → Client} {s : AddrPool} {ns : List Nat} {own : Nat → List Nat} (h : Inv lib w0 clients s ns own) (i : Nat)
    {op : ApiOp} {l : CallAnswer → L Final} {k : ApiReply → Client} (hi : s.threads i = .busy op (.run (.call l)) k) :
    Inv lib w0 clients
      { s with world := { s.world with calls := s.world.calls + 1 }, threads := setAt s.threads i (.busy op (.run (l (lib.answer s.world.calls))) k) }
      ns (setAt own i (own i ++ [s.world.calls])) := by
  obtain ⟨hl, hat⟩ := h.busy i _ _ _ hi
  have hat' : At lib s.world.keys op (own i ++ [s.world.calls]) (.run (l (lib.answer s.world.calls))) := by
    generalize hp : CallProg.run (.call l) = pr at hat
    generalize own i = o at hat ⊢
    cases hat with
    | start => exact .run hp.symm (.call _ .start)
    | run h1 h2 => cases hp; exact .run h1 (.call _ h2)
    | load h1 h2 h3 => cases hp; exact .load h1 h2 (.call _ h3)
  refine ⟨h.hist, ?_, ?_, ?_, ?_, ?_, ?_, Nat.le_succ_of_le h.le, ?_⟩
  · intro j op' p' k' e
    by_cases hj : j = i
    · subst hj
      simp only [setAt_self] at e
      cases e
      rw [setAt_self]
      exact ⟨legal_kept hl fun _ _ _ hp => hp, hat'⟩
    · simp only [setAt_ne _ _ hj] at e
      rw [setAt_ne _ _ hj]
      have := h.busy j op' p' k' e
      exact ⟨legal_kept this.1 fun _ _ _ hp => hp, this.2⟩
  · intro j c e
    by_cases hj : j = i
    · subst hj
      simp only [setAt_self] at e
      cases e
    · simp only [setAt_ne _ _ hj] at e
      rw [setAt_ne _ _ hj]
      exact h.idle j c e
  · intro a b op1 p1 k1 op2 p2 k2 hab e1 e2
    by_cases ha : a = i
    · subst ha
      simp only [setAt_self, setAt_ne _ _ (Ne.symm hab)] at e1 e2
      cases e1
      exact h.compat a b _ _ _ _ _ _ hab hi e2
    · simp only [setAt_ne _ _ ha] at e1
      by_cases hb : b = i
      · subst hb
        simp only [setAt_self] at e2
        cases e2
        exact h.compat a b _ _ _ _ _ _ hab e1 hi
      · simp only [setAt_ne _ _ hb] at e2
        exact h.compat a b _ _ _ _ _ _ hab e1 e2
  · intro j
    by_cases hj : j = i
    · subst hj
      rw [setAt_self, ← List.append_assoc]
      refine List.nodup_append.2 ⟨h.nodup j, by simp, fun a ha b hb => ?_⟩
      rw [List.mem_singleton] at hb
      have := (h.range j a ha).2
      omega
    · rw [setAt_ne _ _ hj]
      exact h.nodup j
  · intro a b hab x hx
    have hfresh : ∀ j x, x ∈ own j → x < s.world.calls := fun j x hx => (h.range j x (List.mem_append_right _ hx)).2
    by_cases ha : a = i
    · subst ha
      rw [setAt_self] at hx
      rw [setAt_ne _ _ (Ne.symm hab)]
      rcases List.mem_append.1 hx with hx | hx
      · exact h.disj a b hab x hx
      · rw [List.mem_singleton] at hx
        intro hb
        have := hfresh b x hb
        omega
    · rw [setAt_ne _ _ ha] at hx
      by_cases hb : b = i
      · subst hb
        rw [setAt_self]
        intro hm
        rcases List.mem_append.1 hm with hm | hm
        · exact h.disj a b hab x hx hm
        · rw [List.mem_singleton] at hm
          have := hfresh a x hx
          omega
      · rw [setAt_ne _ _ hb]
        exact h.disj a b hab x hx
  · intro j x hx
    show w0.calls ≤ x ∧ x < s.world.calls + 1
    by_cases hj : j = i
    · subst hj
      rw [setAt_self, ← List.append_assoc] at hx
      rcases List.mem_append.1 hx with hx | hx
      · have := h.range j x hx
        omega
      · rw [List.mem_singleton] at hx
        have := h.le
        omega
    · rw [setAt_ne _ _ hj] at hx
      have := h.range j x hx
      omega
  · intro j
    have := h.makes j
    by_cases hj : j = i
    · subst hj
      rw [hi] at this
      simp only [setAt_self]
      exact this
    · simp only [setAt_ne _ _ hj]
      exact this

theorem inv_commit {lib : Lib} {w0 : AddrWorld} {clients : Nat → Client} {s : AddrPool} {ns : List Nat} {own : Nat → List Nat} (h : Inv lib w0 clients s ns own) (i : Nat)
    {op : ApiOp} {f : Final} {k : ApiReply → Client} (hi : s.threads i = .busy op (.run (.done f)) k) {r : ApiReply} {w : AddrWorld}
    {fresh : Nat} (hfresh : s.world.keys fresh = none) (hf : f.commitAt fresh s.world = .ok (r, w)) :
    Inv lib w0 clients ⟨w, setAt s.threads i (.idle (k r)), s.log ++ [⟨i, fresh, op, r⟩]⟩ (ns ++ own i) (setAt own i []) := by
  obtain ⟨hl, hat⟩ := h.busy i _ _ _ hi
  obtain ⟨hcalls, hcommit, hkeep⟩ := commit_ok hfresh hf
  -- the key objects that other calls use
  have hother : ∀ j op' p' k', j ≠ i → s.threads j = .busy op' p' k' → ∀ p key, op'.handle = some p → s.world.keys p = some key →
      w.keys p = some key := by
    intro j op' p' k' hj e p key hp hpk
    refine hkeep p key hpk fun q hq => ?_
    subst hq
    rintro rfl
    exact (h.compat i j _ _ _ _ _ _ (Ne.symm hj) hi e q).1 (at_destroys hat) hp
  refine ⟨?_, ?_, ?_, ?_, ?_, ?_, ?_, ?_, ?_⟩
  · intro σ hσ
    have h1 := h.hist σ hσ.left
    have h2 := hσ.right
    rw [Nat.zero_add] at h2
    have h3 := at_alone hat σ ns.length fresh h2
    have h4 : runFinalAt (lib.renumber σ) fresh (.done f) ⟨ns.length + (own i).length, s.world.keys⟩
        = f.commitAt fresh ⟨ns.length + (own i).length, s.world.keys⟩ := rfl
    rw [h4, hcommit] at h3
    rw [List.map_append, List.length_append]
    exact history_snoc h1 (legal_kept hl fun _ _ _ hp => hp) hfresh h3
  · intro j op' p' k' e
    by_cases hj : j = i
    · subst hj
      simp only [setAt_self] at e
      cases e
    · simp only [setAt_ne _ _ hj] at e
      rw [setAt_ne _ _ hj]
      have := h.busy j op' p' k' e
      exact ⟨legal_kept this.1 (hother j _ _ _ hj e), this.2.kept (hother j _ _ _ hj e)⟩
  · intro j c e
    by_cases hj : j = i
    · subst hj
      rw [setAt_self]
    · simp only [setAt_ne _ _ hj] at e
      rw [setAt_ne _ _ hj]
      exact h.idle j c e
  · intro a b op1 p1 k1 op2 p2 k2 hab e1 e2
    by_cases ha : a = i
    · subst ha
      simp only [setAt_self] at e1
      cases e1
    · simp only [setAt_ne _ _ ha] at e1
      by_cases hb : b = i
      · subst hb
        simp only [setAt_self] at e2
        cases e2
      · simp only [setAt_ne _ _ hb] at e2
        exact h.compat a b _ _ _ _ _ _ hab e1 e2
  · intro j
    by_cases hj : j = i
    · subst hj
      rw [setAt_self, List.append_nil]
      exact h.nodup j
    · rw [setAt_ne _ _ hj]
      have hj1 := List.nodup_append.1 (h.nodup j)
      refine List.nodup_append.2 ⟨h.nodup i, hj1.2.1, fun a ha b hb => ?_⟩
      rcases List.mem_append.1 ha with ha | ha
      · exact hj1.2.2 a ha b hb
      · rintro rfl
        exact h.disj i j (Ne.symm hj) a ha hb
  · intro a b hab x hx
    by_cases ha : a = i
    · subst ha
      rw [setAt_self] at hx
      cases hx
    · rw [setAt_ne _ _ ha] at hx
      by_cases hb : b = i
      · subst hb
        rw [setAt_self]
        exact List.not_mem_nil
      · rw [setAt_ne _ _ hb]
        exact h.disj a b hab x hx
  · intro j x hx
    show w0.calls ≤ x ∧ x < w.calls
    rw [hcalls]
    by_cases hj : j = i
    · subst hj
      rw [setAt_self, List.append_nil] at hx
      exact h.range j x hx
    · rw [setAt_ne _ _ hj] at hx
      rcases List.mem_append.1 hx with hx | hx
      · exact h.range i x hx
      · exact h.range j x (List.mem_append_right _ hx)
  · show w0.calls ≤ w.calls
    rw [hcalls]
    exact h.le
  · intro j
    have := h.makes j
    by_cases hj : j = i
    · subst hj
      rw [hi] at this
      simp only [setAt_self]
      have hlog : AddrPool.logOf ⟨w, setAt s.threads j (.idle (k r)), s.log ++ [⟨j, fresh, op, r⟩]⟩ j = s.logOf j ++ [(op, r)] := by
        simp [AddrPool.logOf]
      rw [hlog]
      exact .snoc r this rfl
    · simp only [setAt_ne _ _ hj]
      have hlog : AddrPool.logOf ⟨w, setAt s.threads i (.idle (k r)), s.log ++ [⟨i, fresh, op, r⟩]⟩ j = s.logOf j := by
        simp [AddrPool.logOf, Ne.symm hj]
      rw [hlog]
      exact this

/-- Every step that is in line with the rules keeps the invariant; if it is undefined, the call is undefined alone, too. -/
theorem inv_step {lib : Lib} {w0 : AddrWorld} {clients : Nat → Client} {s : AddrPool} {ns : List Nat} {own : Nat → List Nat} (h : Inv lib w0 clients s ns own) (i fresh : Nat)
    (hc : s.Careful i fresh) :
    match s.step lib i fresh with
    | .ok s' => ∃ ns' own', Inv lib w0 clients s' ns' own'
    | .error e => ∃ op p k, s.threads i = .busy op p k ∧ op.LegalAt s.world ∧
        ∀ σ, Numbered σ ns.length (own i) → op.runAt (lib.renumber σ) fresh ⟨ns.length, s.world.keys⟩ = .error e := by
  unfold AddrPool.step
  cases hi : s.threads i with
  | idle c =>
    cases c with
    | stop => exact ⟨ns, own, h⟩
    | call op k => exact ⟨ns, own, inv_begin h i hi hc⟩
  | busy op p k =>
    obtain ⟨hl, hat⟩ := h.busy i _ _ _ hi
    cases p with
    | load p l =>
      have hload : ∃ key, s.world.keys p = some key := by
        have hh : op.handle = some p := by
          generalize hp : CallProg.load p l = pr at hat
          generalize own i = o at hat
          cases hat with
          | start => exact load_handle hp.symm
          | run => cases hp
          | load => cases hp
        exact hl.1 p hh
      obtain ⟨key, hk⟩ := hload
      dsimp only
      rw [hk]
      exact ⟨ns, own, inv_load h i hi hk⟩
    | run l =>
      cases l with
      | fault e => exact ⟨op, _, k, rfl, hl, fun σ hσ => at_alone hat σ ns.length fresh hσ⟩
      | call l => exact ⟨ns, _, inv_call h i hi⟩
      | done f =>
        dsimp only
        cases hf : f.commitAt fresh s.world with
        | ok x => exact ⟨_, _, inv_commit h i hi hc.1 hf⟩
        | error e =>
          refine ⟨op, _, k, rfl, hl, fun σ hσ => ?_⟩
          rw [at_alone hat σ ns.length fresh hσ]
          exact commit_error hf _

theorem inv_exec {lib : Lib} {w0 : AddrWorld} {clients : Nat → Client} (sched : List (Nat × Nat)) : ∀ {s s' : AddrPool} {ns : List Nat} {own : Nat → List Nat},
    Inv lib w0 clients s ns own → AddrDisciplined lib sched s → s.exec lib sched = .ok s' → ∃ ns' own', Inv lib w0 clients s' ns' own' := by
  induction sched with
  | nil =>
    intro s s' ns own h _ e
    cases e
    exact ⟨ns, own, h⟩
  | cons x rest ih =>
    intro s s' ns own h hd e
    have hs := inv_step h x.1 x.2 hd.1
    rw [AddrPool.exec] at e
    cases hstep : s.step lib x.1 x.2 with
    | error u => rw [hstep] at e; cases e
    | ok s1 =>
      rw [hstep] at e hs
      obtain ⟨ns1, own1, h1⟩ := hs
      exact ih h1 (hd.2 s1 hstep) e

theorem inv_start (lib : Lib) (w0 : AddrWorld) (clients : Nat → Client) : Inv lib w0 clients ⟨w0, fun i => .idle (clients i), []⟩ [] (fun _ => []) where
  hist := fun _ _ => .nil _
  busy := fun _ _ _ _ e => by cases e
  idle := fun _ _ _ => rfl
  compat := fun _ _ _ _ _ _ _ _ _ e => by cases e
  nodup := fun _ => List.nodup_nil
  disj := fun _ _ _ _ hx => by cases hx
  range := fun _ _ hx => by cases hx
  le := Nat.le_refl _
  makes := fun _ => .nil _


end Nat20.Addr
