import Verif.Spec.Concurrent
import Verif.Lemmas.Concurrent
import Verif.Props.Keys
import Verif.Props.Resources
/-!
# C81: threads that share the reference context
-/

namespace Nat20

open Fips

/-! ## Programs -/

/-- The program has come from `l` to the last one by calls with the given numbers. -/
inductive Reaches {α : Type} (lib : Lib) (l : L α) : List Nat → L α → Prop where
  | start : Reaches lib l [] l
  | call {ns : List Nat} {k : CallAnswer → L α} (n : Nat) : Reaches lib l ns (.call k) → Reaches lib l (ns ++ [n]) (k (lib.answer n))

/-- The numbers of calls from `c` on. -/
def Numbered (σ : Nat → Nat) (c : Nat) (ns : List Nat) : Prop := ∀ j (h : j < ns.length), σ (c + j) = ns[j]

theorem Numbered.left {σ : Nat → Nat} {c : Nat} {a b : List Nat} (h : Numbered σ c (a ++ b)) : Numbered σ c a := by
  intro j hj
  rw [h j (by rw [List.length_append]; omega), List.getElem_append_left hj]

theorem Numbered.right {σ : Nat → Nat} {c : Nat} {a b : List Nat} (h : Numbered σ c (a ++ b)) : Numbered σ (c + a.length) b := by
  intro j hj
  have := h (a.length + j) (by rw [List.length_append]; omega)
  rw [List.getElem_append_right (by omega)] at this
  rw [Nat.add_assoc, this]
  congr 1
  omega

theorem reaches_toB {α : Type} {lib : Lib} {l l' : L α} {ns : List Nat} (h : Reaches lib l ns l') (σ : Nat → Nat) (c : Nat) (heap : List (Option BsslKey))
    (hn : Numbered σ c ns) : L.toB (lib.renumber σ) l ⟨c, heap⟩ = L.toB (lib.renumber σ) l' ⟨c + ns.length, heap⟩ := by
  induction h with
  | start => rfl
  | @call ns k n h ih =>
    rw [ih hn.left]
    show L.toB (lib.renumber σ) (k (lib.answer (σ (c + ns.length)))) ⟨c + ns.length + 1, heap⟩ = _
    have := hn.right 0 (by simp)
    simp only [Nat.add_zero, List.getElem_cons_zero] at this
    rw [this, List.length_append]
    rfl

/-- Where a call has come to with library calls of the given numbers. -/
inductive At (lib : Lib) (heap : List (Option BsslKey)) (op : ApiOp) : List Nat → CallProg → Prop where
  | start : At lib heap op [] (op.prog lib.fns)
  | run {l l' : L Final} {ns : List Nat} : op.prog lib.fns = .run l → Reaches lib l ns l' → At lib heap op ns (.run l')
  | load {p : Nat} {f : BsslKey → L Final} {key : BsslKey} {l' : L Final} {ns : List Nat} : op.prog lib.fns = .load p f → heap[p]? = some (some key) →
      Reaches lib (f key) ns l' → At lib heap op ns (.run l')

theorem at_alone {lib : Lib} {heap : List (Option BsslKey)} {op : ApiOp} {ns : List Nat} {l : L Final} (h : At lib heap op ns (.run l)) (σ : Nat → Nat) (c : Nat)
    (hn : Numbered σ c ns) : op.run (lib.renumber σ) ⟨c, heap⟩ = (do let f ← L.toB (lib.renumber σ) l; f.commit : B ApiReply) ⟨c + ns.length, heap⟩ := by
  rw [← prog_alone]
  show (op.prog lib.fns).alone _ _ = _
  generalize hp : CallProg.run l = pr at h
  cases h with
  | start =>
    rw [← hp]
    rfl
  | @run l0 l' _ h1 h2 =>
    cases hp
    rw [h1]
    show (StateT.bind _ _ : B _) _ = (StateT.bind _ _ : B _) _
    unfold StateT.bind
    rw [reaches_toB h2 σ c heap hn]
  | @load p f key l' _ h1 h2 h3 =>
    cases hp
    rw [h1]
    have hl : loadKey p ⟨c, heap⟩ = .ok (key, ⟨c, heap⟩) := by
      unfold loadKey
      dsimp only
      rw [h2]
    have ha : CallProg.alone (lib.renumber σ) (.load p f) ⟨c, heap⟩ = (do let g ← L.toB (lib.renumber σ) (f key); g.commit : B ApiReply) ⟨c, heap⟩ := by
      simp only [CallProg.alone, bind, StateT.bind, hl, Except.bind]
    rw [ha]
    show (StateT.bind _ _ : B _) _ = (StateT.bind _ _ : B _) _
    unfold StateT.bind
    rw [reaches_toB h3 σ c heap hn]

theorem load_handle {fns : KeyFns} {op : ApiOp} {p : Nat} {f : BsslKey → L Final} (h : op.prog fns = .load p f) : op.handle = some p := by
  match op with
  | .key (.kdf (some _) (some q) _ _ _) => cases h; rfl
  | .key (.sign (some _) (some q) _ _ (some _)) => cases h; rfl
  | .key (.publicKey (some _) (some q) _ (some _)) => cases h; rfl
  | .key (.kdf none _ _ _ _) => cases h
  | .key (.kdf (some _) none _ _ _) => cases h
  | .key (.sign none _ _ _ _) => cases h
  | .key (.sign (some _) none _ _ _) => cases h
  | .key (.sign (some _) (some _) _ _ none) => cases h
  | .key (.publicKey none _ _ _) => cases h
  | .key (.publicKey (some _) none _ _) => cases h
  | .key (.publicKey (some _) (some _) _ none) => cases h
  | .key (.free none _) => cases h
  | .key (.free (some _) none) => cases h
  | .key (.free (some _) (some _)) => cases h

theorem At.kept {lib : Lib} {heap heap' : List (Option BsslKey)} {op : ApiOp} {ns : List Nat} {pr : CallProg} (h : At lib heap op ns pr)
    (hk : ∀ p key, op.handle = some p → heap[p]? = some (some key) → heap'[p]? = some (some key)) : At lib heap' op ns pr := by
  cases h with
  | start => exact .start
  | run h1 h2 => exact .run h1 h2
  | load h1 h2 h3 => exact .load h1 (hk _ _ (load_handle h1) h2) h3

theorem legal_kept {op : ApiOp} {w w' : World} (h : op.Legal w) (hk : ∀ p key, op.handle = some p → w.heap[p]? = some (some key) → w'.heap[p]? = some (some key)) :
    op.Legal w' := by
  have hh : ∀ key, op.handle = key → HandleOk w key → HandleOk w' key := by
    intro key e hw p hp
    obtain ⟨k, hl⟩ := hw p hp
    exact ⟨k, hk p k (e.trans hp) hl⟩
  match op, h, hh with
  | .key (.kdf _ _ _ _ _), h, hh => exact ⟨hh _ rfl h.1, h.2⟩
  | .key (.sign _ _ _ _ _), h, hh => exact ⟨hh _ rfl h.1, h.2⟩
  | .key (.publicKey _ _ _ _), h, hh => exact ⟨hh _ rfl h.1, h.2⟩
  | .key (.free _ _), h, hh => exact hh _ rfl h
  | .key (.makeSecret _ _ _), h, _ => exact h
  | .digest .., _, _ => trivial
  | .hmac .., _, _ => trivial
  | .hkdf .., _, _ => trivial
  | .extract .., _, _ => trivial
  | .expand .., _, _ => trivial

/-! ## Which calls destroy key objects -/

/-- The program destroys only key objects with `P`. -/
def L.Ends (P : Nat → Prop) : L Final → Prop
  | .done (.destroy p) => P p
  | .done _ => True
  | .fault _ => True
  | .call k => ∀ c, (k c).Ends P

theorem ends_bind {α : Type} {P : Nat → Prop} (m : L α) (f : α → L Final) (h : ∀ a, (f a).Ends P) : (m >>= f).Ends P := by
  induction m with
  | done a => exact h a
  | fault e => trivial
  | call k ih => exact fun c => ih c

theorem reaches_ends {P : Nat → Prop} {lib : Lib} {l l' : L Final} {ns : List Nat} (h : Reaches lib l ns l') (hl : l.Ends P) : l'.Ends P := by
  induction h with
  | start => exact hl
  | call n _ ih => exact ih _

theorem ends_reply (P : Nat → Prop) (l : L Reply) : (replyL l).Ends P := ends_bind l _ fun _ => trivial

theorem ends_out (P : Nat → Prop) (l : L (N20Error × Option Bytes)) : (outL l).Ends P := ends_bind l _ fun _ => trivial

theorem ends_kdf (P : Nat → Prop) (fns : KeyFns) (k : BsslKey) (type : UInt32) (context : Option GatherList) (keyOut : Option (Option Nat)) :
    (bsslKdfL fns k type context keyOut).Ends P := by
  unfold bsslKdfL
  split
  · trivial
  · refine ends_bind _ _ fun bits => ?_
    cases keyOut with
    | none => trivial
    | some old =>
      refine ends_bind _ _ fun r => ?_
      cases r <;> trivial

theorem ends_secret (P : Nat → Prop) (ctx : Option Unit) (secret : Option Slice) (keyOut : Option (Option Nat)) : (bsslMakeSecretL ctx secret keyOut).Ends P := by
  unfold bsslMakeSecretL
  repeat' split
  all_goals first | trivial | exact ends_bind _ _ fun _ => trivial

/-- Only `key_free` destroys key objects, and only the one that it is given. -/
theorem at_destroys {lib : Lib} {heap : List (Option BsslKey)} {op : ApiOp} {ns : List Nat} {p : Nat} (h : At lib heap op ns (.run (.done (.destroy p)))) :
    op.Destroys p := by
  have hload : ∀ q f, op.prog lib.fns = .load q f → ∀ key, (f key).Ends fun p => op.Destroys p := by
    intro q f e key
    match op, e with
    | .key (.kdf (some _) (some q) _ _ _), e => cases e; exact ends_kdf ..
    | .key (.sign (some _) (some q) _ _ (some _)), e => cases e; exact ends_reply ..
    | .key (.publicKey (some _) (some q) _ (some _)), e => cases e; exact ends_reply ..
    | .key (.kdf none _ _ _ _), e => cases e
    | .key (.kdf (some _) none _ _ _), e => cases e
    | .key (.sign none _ _ _ _), e => cases e
    | .key (.sign (some _) none _ _ _), e => cases e
    | .key (.sign (some _) (some _) _ _ none), e => cases e
    | .key (.publicKey none _ _ _), e => cases e
    | .key (.publicKey (some _) none _ _), e => cases e
    | .key (.publicKey (some _) (some _) _ none), e => cases e
    | .key (.free none _), e => cases e
    | .key (.free (some _) none), e => cases e
    | .key (.free (some _) (some _)), e => cases e
  have hrun : ∀ l, op.prog lib.fns = .run l → l.Ends fun p => op.Destroys p := by
    intro l e
    match op, e with
    | .key (.kdf none _ _ _ _), e => cases e; trivial
    | .key (.kdf (some _) none _ _ _), e => cases e; trivial
    | .key (.kdf (some _) (some _) _ _ _), e => cases e
    | .key (.sign none _ _ _ _), e => cases e; trivial
    | .key (.sign (some _) none _ _ _), e => cases e; trivial
    | .key (.sign (some _) (some _) _ _ none), e => cases e; trivial
    | .key (.sign (some _) (some _) _ _ (some _)), e => cases e
    | .key (.publicKey none _ _ _), e => cases e; trivial
    | .key (.publicKey (some _) none _ _), e => cases e; trivial
    | .key (.publicKey (some _) (some _) _ none), e => cases e; trivial
    | .key (.publicKey (some _) (some _) _ (some _)), e => cases e
    | .key (.free none _), e => cases e; trivial
    | .key (.free (some _) none), e => cases e; trivial
    | .key (.free (some _) (some _)), e => cases e; exact ⟨rfl, rfl⟩
    | .key (.makeSecret _ _ _), e => cases e; exact ends_secret ..
    | .digest .., e => cases e; exact ends_reply ..
    | .hmac .., e => cases e; exact ends_reply ..
    | .hkdf .., e => cases e; exact ends_out ..
    | .extract .., e => cases e; exact ends_reply ..
    | .expand .., e => cases e; exact ends_out ..
  generalize hp : CallProg.run (.done (.destroy p)) = pr at h
  cases h with
  | start => exact hrun _ hp.symm
  | run h1 h2 =>
    cases hp
    exact reaches_ends h2 (hrun _ h1)
  | load h1 h2 h3 =>
    cases hp
    exact reaches_ends h3 (hload _ _ h1 _)

theorem destroys_handle {op : ApiOp} {p : Nat} (h : op.Destroys p) : op.handle = some p := by
  match op, h with
  | .key (.free _ _), h => exact h.2

theorem commit_destroy (q : Nat) (w : World) : (Final.destroy q).commit w = match w.heap[q]? with
    | some (some _) => .ok ({ err := .ok }, { w with heap := w.heap.set q none })
    | _ => .error .useAfterFree := by
  simp only [Final.commit, bind, StateT.bind, deleteKey]
  generalize w.heap[q]? = x
  rcases x with _ | _ | k <;> rfl

/-- The end of a call keeps all key objects but the one that it destroys, and it does not depend on the number of library calls. -/
theorem commit_ok {f : Final} {w w' : World} {r : ApiReply} (h : f.commit w = .ok (r, w')) :
    w'.calls = w.calls ∧ (∀ c, f.commit ⟨c, w.heap⟩ = .ok (r, ⟨c, w'.heap⟩)) ∧
    ∀ p key, w.heap[p]? = some (some key) → (∀ q, f = .destroy q → q ≠ p) → w'.heap[p]? = some (some key) := by
  cases f with
  | reply r' =>
    cases h
    exact ⟨rfl, fun c => rfl, fun p key hp _ => hp⟩
  | create key =>
    cases h
    refine ⟨rfl, fun c => rfl, fun p key' hp _ => ?_⟩
    show (w.heap ++ [some key])[p]? = _
    rw [List.getElem?_append_left (List.getElem?_eq_some_iff.1 hp).1]
    exact hp
  | destroy q =>
    have hc : ∀ c k, w.heap[q]? = some (some k) → (Final.destroy q).commit ⟨c, w.heap⟩ = .ok ({ err := .ok }, ⟨c, w.heap.set q none⟩) := by
      intro c k hq
      rw [commit_destroy]
      dsimp only
      rw [hq]
    have hw := commit_destroy q w
    rw [h] at hw
    cases hq : w.heap[q]? with
    | none => rw [hq] at hw; cases hw
    | some x =>
      cases x with
      | none => rw [hq] at hw; cases hw
      | some k =>
        rw [hq] at hw
        cases hw
        refine ⟨rfl, fun c => hc c k hq, fun p key hp hne => ?_⟩
        show (w.heap.set q none)[p]? = _
        rw [List.getElem?_set_ne (hne q rfl)]
        exact hp

/-- The end of a call that is undefined is so whatever the number of library calls is. -/
theorem commit_error {f : Final} {w : World} {e : UB} (h : f.commit w = .error e) (c : Nat) : f.commit ⟨c, w.heap⟩ = .error e := by
  cases f with
  | reply r => cases h
  | create key => cases h
  | destroy q =>
    rw [commit_destroy] at h ⊢
    revert h
    dsimp only
    cases w.heap[q]? with
    | none => exact id
    | some x =>
      cases x with
      | none => exact id
      | some k => intro h; cases h

/-! ## Any number of threads -/

theorem history_snoc {lib : Lib} {w w1 w2 : World} {l : List (ApiOp × ApiReply)} {op : ApiOp} {r : ApiReply} (h : ApiHistory lib w l w1) (hl : op.Legal w1)
    (hr : op.run lib w1 = .ok (r, w2)) : ApiHistory lib w (l ++ [(op, r)]) w2 := by
  induction h with
  | nil w => exact .cons hl hr (.nil _)
  | cons h1 h2 _ ih => exact .cons h1 h2 (ih hl hr)

/-- What holds after every step: `ns` are the numbers of the library calls of the calls that returned, `own i` those of the present call of thread `i`. -/
structure Inv (lib : Lib) (w0 : World) (clients : Nat → Client) (s : Pool) (ns : List Nat) (own : Nat → List Nat) : Prop where
  hist : ∀ σ, Numbered σ 0 ns → ApiHistory (lib.renumber σ) ⟨0, w0.heap⟩ (s.log.map Prod.snd) ⟨ns.length, s.world.heap⟩
  busy : ∀ i op p k, s.threads i = .busy op p k → op.Legal s.world ∧ At lib s.world.heap op (own i) p
  idle : ∀ i c, s.threads i = .idle c → own i = []
  compat : ∀ i j op p k op' p' k', i ≠ j → s.threads i = .busy op p k → s.threads j = .busy op' p' k' → Compatible op op'
  nodup : ∀ i, (ns ++ own i).Nodup
  disj : ∀ i j, i ≠ j → ∀ x, x ∈ own i → x ∉ own j
  range : ∀ i, ∀ x ∈ ns ++ own i, w0.calls ≤ x ∧ x < s.world.calls
  le : w0.calls ≤ s.world.calls
  makes : ∀ i, (clients i).Makes (s.logOf i) (s.threads i).client

theorem setAt_self {α : Type} (f : Nat → α) (i : Nat) (v : α) : setAt f i v i = v := if_pos rfl

theorem setAt_ne {α : Type} (f : Nat → α) {i j : Nat} (v : α) (h : j ≠ i) : setAt f i v j = f j := if_neg h

theorem Compatible.symm {a b : ApiOp} (h : Compatible a b) : Compatible b a := fun p => ⟨(h p).2, (h p).1⟩

theorem inv_begin {lib : Lib} {w0 : World} {clients : Nat → Client} {s : Pool} {ns : List Nat} {own : Nat → List Nat} (h : Inv lib w0 clients s ns own) (i : Nat)
    {op : ApiOp} {k : ApiReply → Client} (hi : s.threads i = .idle (.call op k)) (hc : s.Careful i) :
    Inv lib w0 clients { s with threads := setAt s.threads i (.busy op (op.prog lib.fns) k) } ns own := by
  obtain ⟨hl, hcomp⟩ := hc op k hi
  refine ⟨h.hist, ?_, ?_, ?_, h.nodup, h.disj, h.range, h.le, ?_⟩
  · intro j op' p' k' e
    by_cases hj : j = i
    · subst hj
      simp only [setAt_self] at e
      cases e
      refine ⟨hl, ?_⟩
      rw [h.idle j _ hi]
      exact .start
    · simp only [setAt_ne _ _ hj] at e
      exact h.busy j op' p' k' e
  · intro j c e
    by_cases hj : j = i
    · subst hj
      simp only [setAt_self] at e
      cases e
    · simp only [setAt_ne _ _ hj] at e
      exact h.idle j c e
  · intro a b op1 p1 k1 op2 p2 k2 hab e1 e2
    by_cases ha : a = i
    · subst ha
      simp only [setAt_self, setAt_ne _ _ (Ne.symm hab)] at e1 e2
      cases e1
      exact hcomp b _ _ _ e2
    · simp only [setAt_ne _ _ ha] at e1
      by_cases hb : b = i
      · subst hb
        simp only [setAt_self] at e2
        cases e2
        exact (hcomp a _ _ _ e1).symm
      · simp only [setAt_ne _ _ hb] at e2
        exact h.compat a b _ _ _ _ _ _ hab e1 e2
  · intro j
    have := h.makes j
    by_cases hj : j = i
    · subst hj
      rw [hi] at this
      simp only [setAt_self]
      exact this
    · simp only [setAt_ne _ _ hj]
      exact this

theorem inv_load {lib : Lib} {w0 : World} {clients : Nat → Client} {s : Pool} {ns : List Nat} {own : Nat → List Nat} (h : Inv lib w0 clients s ns own) (i : Nat)
    {op : ApiOp} {p : Nat} {l : BsslKey → L Final} {k : ApiReply → Client} (hi : s.threads i = .busy op (.load p l) k) {key : BsslKey}
    (hk : s.world.heap[p]? = some (some key)) : Inv lib w0 clients { s with threads := setAt s.threads i (.busy op (.run (l key)) k) } ns own := by
  obtain ⟨hl, hat⟩ := h.busy i _ _ _ hi
  have hat' : At lib s.world.heap op (own i) (.run (l key)) := by
    generalize hp : CallProg.load p l = pr at hat
    generalize own i = o at hat ⊢
    cases hat with
    | start => exact .load hp.symm hk .start
    | run => cases hp
    | load => cases hp
  refine ⟨h.hist, ?_, ?_, ?_, h.nodup, h.disj, h.range, h.le, ?_⟩
  · intro j op' p' k' e
    by_cases hj : j = i
    · subst hj
      simp only [setAt_self] at e
      cases e
      exact ⟨hl, hat'⟩
    · simp only [setAt_ne _ _ hj] at e
      exact h.busy j op' p' k' e
  · intro j c e
    by_cases hj : j = i
    · subst hj
      simp only [setAt_self] at e
      cases e
    · simp only [setAt_ne _ _ hj] at e
      exact h.idle j c e
  · intro a b op1 p1 k1 op2 p2 k2 hab e1 e2
    by_cases ha : a = i
    · subst ha
      simp only [setAt_self, setAt_ne _ _ (Ne.symm hab)] at e1 e2
      cases e1
      exact h.compat a b _ _ _ _ _ _ hab hi e2
    · simp only [setAt_ne _ _ ha] at e1
      by_cases hb : b = i
      · subst hb
        simp only [setAt_self] at e2
        cases e2
        exact h.compat a b _ _ _ _ _ _ hab e1 hi
      · simp only [setAt_ne _ _ hb] at e2
        exact h.compat a b _ _ _ _ _ _ hab e1 e2
  · intro j
    have := h.makes j
    by_cases hj : j = i
    · subst hj
      rw [hi] at this
      simp only [setAt_self]
      exact this
    · simp only [setAt_ne _ _ hj]
      exact this

theorem inv_call {lib : Lib} {w0 : World} {clients : Nat → Client} {s : Pool} {ns : List Nat} {own : Nat → List Nat} (h : Inv lib w0 clients s ns own) (i : Nat)
    {op : ApiOp} {l : CallAnswer → L Final} {k : ApiReply → Client} (hi : s.threads i = .busy op (.run (.call l)) k) :
    Inv lib w0 clients
      { s with world := { s.world with calls := s.world.calls + 1 }, threads := setAt s.threads i (.busy op (.run (l (lib.answer s.world.calls))) k) }
      ns (setAt own i (own i ++ [s.world.calls])) := by
  obtain ⟨hl, hat⟩ := h.busy i _ _ _ hi
  have hat' : At lib s.world.heap op (own i ++ [s.world.calls]) (.run (l (lib.answer s.world.calls))) := by
    generalize hp : CallProg.run (.call l) = pr at hat
    generalize own i = o at hat ⊢
    cases hat with
    | start => exact .run hp.symm (.call _ .start)
    | run h1 h2 => cases hp; exact .run h1 (.call _ h2)
    | load h1 h2 h3 => cases hp; exact .load h1 h2 (.call _ h3)
  refine ⟨h.hist, ?_, ?_, ?_, ?_, ?_, ?_, Nat.le_succ_of_le h.le, ?_⟩
  · intro j op' p' k' e
    by_cases hj : j = i
    · subst hj
      simp only [setAt_self] at e
      cases e
      rw [setAt_self]
      exact ⟨legal_kept hl fun _ _ _ hp => hp, hat'⟩
    · simp only [setAt_ne _ _ hj] at e
      rw [setAt_ne _ _ hj]
      have := h.busy j op' p' k' e
      exact ⟨legal_kept this.1 fun _ _ _ hp => hp, this.2⟩
  · intro j c e
    by_cases hj : j = i
    · subst hj
      simp only [setAt_self] at e
      cases e
    · simp only [setAt_ne _ _ hj] at e
      rw [setAt_ne _ _ hj]
      exact h.idle j c e
  · intro a b op1 p1 k1 op2 p2 k2 hab e1 e2
    by_cases ha : a = i
    · subst ha
      simp only [setAt_self, setAt_ne _ _ (Ne.symm hab)] at e1 e2
      cases e1
      exact h.compat a b _ _ _ _ _ _ hab hi e2
    · simp only [setAt_ne _ _ ha] at e1
      by_cases hb : b = i
      · subst hb
        simp only [setAt_self] at e2
        cases e2
        exact h.compat a b _ _ _ _ _ _ hab e1 hi
      · simp only [setAt_ne _ _ hb] at e2
        exact h.compat a b _ _ _ _ _ _ hab e1 e2
  · intro j
    by_cases hj : j = i
    · subst hj
      rw [setAt_self, ← List.append_assoc]
      refine List.nodup_append.2 ⟨h.nodup j, by simp, fun a ha b hb => ?_⟩
      rw [List.mem_singleton] at hb
      have := (h.range j a ha).2
      omega
    · rw [setAt_ne _ _ hj]
      exact h.nodup j
  · intro a b hab x hx
    have hfresh : ∀ j x, x ∈ own j → x < s.world.calls := fun j x hx => (h.range j x (List.mem_append_right _ hx)).2
    by_cases ha : a = i
    · subst ha
      rw [setAt_self] at hx
      rw [setAt_ne _ _ (Ne.symm hab)]
      rcases List.mem_append.1 hx with hx | hx
      · exact h.disj a b hab x hx
      · rw [List.mem_singleton] at hx
        intro hb
        have := hfresh b x hb
        omega
    · rw [setAt_ne _ _ ha] at hx
      by_cases hb : b = i
      · subst hb
        rw [setAt_self]
        intro hm
        rcases List.mem_append.1 hm with hm | hm
        · exact h.disj a b hab x hx hm
        · rw [List.mem_singleton] at hm
          have := hfresh a x hx
          omega
      · rw [setAt_ne _ _ hb]
        exact h.disj a b hab x hx
  · intro j x hx
    show w0.calls ≤ x ∧ x < s.world.calls + 1
    by_cases hj : j = i
    · subst hj
      rw [setAt_self, ← List.append_assoc] at hx
      rcases List.mem_append.1 hx with hx | hx
      · have := h.range j x hx
        omega
      · rw [List.mem_singleton] at hx
        have := h.le
        omega
    · rw [setAt_ne _ _ hj] at hx
      have := h.range j x hx
      omega
  · intro j
    have := h.makes j
    by_cases hj : j = i
    · subst hj
      rw [hi] at this
      simp only [setAt_self]
      exact this
    · simp only [setAt_ne _ _ hj]
      exact this

theorem inv_commit {lib : Lib} {w0 : World} {clients : Nat → Client} {s : Pool} {ns : List Nat} {own : Nat → List Nat} (h : Inv lib w0 clients s ns own) (i : Nat)
    {op : ApiOp} {f : Final} {k : ApiReply → Client} (hi : s.threads i = .busy op (.run (.done f)) k) {r : ApiReply} {w : World}
    (hf : f.commit s.world = .ok (r, w)) :
    Inv lib w0 clients ⟨w, setAt s.threads i (.idle (k r)), s.log ++ [(i, op, r)]⟩ (ns ++ own i) (setAt own i []) := by
  obtain ⟨hl, hat⟩ := h.busy i _ _ _ hi
  obtain ⟨hcalls, hcommit, hkeep⟩ := commit_ok hf
  -- the key objects that other calls use
  have hother : ∀ j op' p' k', j ≠ i → s.threads j = .busy op' p' k' → ∀ p key, op'.handle = some p → s.world.heap[p]? = some (some key) →
      w.heap[p]? = some (some key) := by
    intro j op' p' k' hj e p key hp hpk
    refine hkeep p key hpk fun q hq => ?_
    subst hq
    rintro rfl
    exact (h.compat i j _ _ _ _ _ _ (Ne.symm hj) hi e q).1 (at_destroys hat) hp
  refine ⟨?_, ?_, ?_, ?_, ?_, ?_, ?_, ?_, ?_⟩
  · intro σ hσ
    have h1 := h.hist σ hσ.left
    have h2 := hσ.right
    rw [Nat.zero_add] at h2
    have h3 := at_alone hat σ ns.length h2
    have h4 : (do let f ← L.toB (lib.renumber σ) (.done f); f.commit : B ApiReply) ⟨ns.length + (own i).length, s.world.heap⟩
        = f.commit ⟨ns.length + (own i).length, s.world.heap⟩ := rfl
    rw [h4, hcommit] at h3
    rw [List.map_append, List.length_append]
    exact history_snoc h1 (legal_kept hl fun _ _ _ hp => hp) h3
  · intro j op' p' k' e
    by_cases hj : j = i
    · subst hj
      simp only [setAt_self] at e
      cases e
    · simp only [setAt_ne _ _ hj] at e
      rw [setAt_ne _ _ hj]
      have := h.busy j op' p' k' e
      exact ⟨legal_kept this.1 (hother j _ _ _ hj e), this.2.kept (hother j _ _ _ hj e)⟩
  · intro j c e
    by_cases hj : j = i
    · subst hj
      rw [setAt_self]
    · simp only [setAt_ne _ _ hj] at e
      rw [setAt_ne _ _ hj]
      exact h.idle j c e
  · intro a b op1 p1 k1 op2 p2 k2 hab e1 e2
    by_cases ha : a = i
    · subst ha
      simp only [setAt_self] at e1
      cases e1
    · simp only [setAt_ne _ _ ha] at e1
      by_cases hb : b = i
      · subst hb
        simp only [setAt_self] at e2
        cases e2
      · simp only [setAt_ne _ _ hb] at e2
        exact h.compat a b _ _ _ _ _ _ hab e1 e2
  · intro j
    by_cases hj : j = i
    · subst hj
      rw [setAt_self, List.append_nil]
      exact h.nodup j
    · rw [setAt_ne _ _ hj]
      have hj1 := List.nodup_append.1 (h.nodup j)
      refine List.nodup_append.2 ⟨h.nodup i, hj1.2.1, fun a ha b hb => ?_⟩
      rcases List.mem_append.1 ha with ha | ha
      · exact hj1.2.2 a ha b hb
      · rintro rfl
        exact h.disj i j (Ne.symm hj) a ha hb
  · intro a b hab x hx
    by_cases ha : a = i
    · subst ha
      rw [setAt_self] at hx
      cases hx
    · rw [setAt_ne _ _ ha] at hx
      by_cases hb : b = i
      · subst hb
        rw [setAt_self]
        exact List.not_mem_nil
      · rw [setAt_ne _ _ hb]
        exact h.disj a b hab x hx
  · intro j x hx
    show w0.calls ≤ x ∧ x < w.calls
    rw [hcalls]
    by_cases hj : j = i
    · subst hj
      rw [setAt_self, List.append_nil] at hx
      exact h.range j x hx
    · rw [setAt_ne _ _ hj] at hx
      rcases List.mem_append.1 hx with hx | hx
      · exact h.range i x hx
      · exact h.range j x (List.mem_append_right _ hx)
  · show w0.calls ≤ w.calls
    rw [hcalls]
    exact h.le
  · intro j
    have := h.makes j
    by_cases hj : j = i
    · subst hj
      rw [hi] at this
      simp only [setAt_self]
      have hlog : Pool.logOf ⟨w, setAt s.threads j (.idle (k r)), s.log ++ [(j, op, r)]⟩ j = s.logOf j ++ [(op, r)] := by
        simp [Pool.logOf]
      rw [hlog]
      exact .snoc r this rfl
    · simp only [setAt_ne _ _ hj]
      have hlog : Pool.logOf ⟨w, setAt s.threads i (.idle (k r)), s.log ++ [(i, op, r)]⟩ j = s.logOf j := by
        simp [Pool.logOf, Ne.symm hj]
      rw [hlog]
      exact this

/-- Every step that is in line with the rules keeps the invariant; if it is undefined, the call is undefined alone, too. -/
theorem inv_step {lib : Lib} {w0 : World} {clients : Nat → Client} {s : Pool} {ns : List Nat} {own : Nat → List Nat} (h : Inv lib w0 clients s ns own) (i : Nat)
    (hc : s.Careful i) :
    match s.step lib i with
    | .ok s' => ∃ ns' own', Inv lib w0 clients s' ns' own'
    | .error e => ∃ op p k, s.threads i = .busy op p k ∧ op.Legal s.world ∧
        ∀ σ, Numbered σ ns.length (own i) → op.run (lib.renumber σ) ⟨ns.length, s.world.heap⟩ = .error e := by
  unfold Pool.step
  cases hi : s.threads i with
  | idle c =>
    cases c with
    | stop => exact ⟨ns, own, h⟩
    | call op k => exact ⟨ns, own, inv_begin h i hi hc⟩
  | busy op p k =>
    obtain ⟨hl, hat⟩ := h.busy i _ _ _ hi
    cases p with
    | load p l =>
      have hload : ∃ key, s.world.heap[p]? = some (some key) := by
        have hh : op.handle = some p := by
          generalize hp : CallProg.load p l = pr at hat
          generalize own i = o at hat
          cases hat with
          | start => exact load_handle hp.symm
          | run => cases hp
          | load => cases hp
        match op, hl, hh with
        | .key (.kdf _ _ _ _ _), hl, hh => exact hl.1 p hh
        | .key (.sign _ _ _ _ _), hl, hh => exact hl.1 p hh
        | .key (.publicKey _ _ _ _), hl, hh => exact hl.1 p hh
        | .key (.free _ _), hl, hh => exact hl p hh
      obtain ⟨key, hk⟩ := hload
      dsimp only
      rw [hk]
      exact ⟨ns, own, inv_load h i hi hk⟩
    | run l =>
      cases l with
      | fault e => exact ⟨op, _, k, rfl, hl, fun σ hσ => at_alone hat σ ns.length hσ⟩
      | call l => exact ⟨ns, _, inv_call h i hi⟩
      | done f =>
        dsimp only
        cases hf : f.commit s.world with
        | ok x => exact ⟨_, _, inv_commit h i hi hf⟩
        | error e =>
          refine ⟨op, _, k, rfl, hl, fun σ hσ => ?_⟩
          rw [at_alone hat σ ns.length hσ]
          exact commit_error hf _

theorem inv_exec {lib : Lib} {w0 : World} {clients : Nat → Client} (sched : List Nat) : ∀ {s s' : Pool} {ns : List Nat} {own : Nat → List Nat},
    Inv lib w0 clients s ns own → Disciplined lib sched s → s.exec lib sched = .ok s' → ∃ ns' own', Inv lib w0 clients s' ns' own' := by
  induction sched with
  | nil =>
    intro s s' ns own h _ e
    cases e
    exact ⟨ns, own, h⟩
  | cons i rest ih =>
    intro s s' ns own h hd e
    have hs := inv_step h i hd.1
    rw [Pool.exec] at e
    cases hstep : s.step lib i with
    | error u => rw [hstep] at e; cases e
    | ok s1 =>
      rw [hstep] at e hs
      obtain ⟨ns1, own1, h1⟩ := hs
      exact ih h1 (hd.2 s1 hstep) e

theorem inv_start (lib : Lib) (w0 : World) (clients : Nat → Client) : Inv lib w0 clients ⟨w0, fun i => .idle (clients i), []⟩ [] (fun _ => []) where
  hist := fun _ _ => .nil _
  busy := fun _ _ _ _ e => by cases e
  idle := fun _ _ _ => rfl
  compat := fun _ _ _ _ _ _ _ _ _ e => by cases e
  nodup := fun _ => List.nodup_nil
  disj := fun _ _ _ _ hx => by cases hx
  range := fun _ _ hx => by cases hx
  le := Nat.le_refl _
  makes := fun _ => .nil _

/-- The numbers of a list as a function. -/
def numbers (ns : List Nat) : Nat → Nat := fun j => ns.getD j 0

theorem numbers_numbered (ns : List Nat) : Numbered (numbers ns) 0 ns := by
  intro j hj
  unfold numbers
  rw [Nat.zero_add, List.getD_eq_getElem?_getD, List.getElem?_eq_getElem hj]
  rfl

/-- **C81**.  Any number of threads, each of them running any program, use the reference context at the same time, under any schedule; they stick to the rules: every call is legal when it starts, and no key is
destroyed while it is in use.  Then the calls that have returned, in the order in which they returned, are calls that could have been made one after the other, with the same replies and the same key objects in the end.
The library calls are the same, too, each of them made once, in another order.  Each thread has made the calls that its program makes with these replies. -/
theorem C81_one_after_the_other (lib : Lib) (w : World) (clients : Nat → Client) (sched : List Nat) (s : Pool)
    (hd : Disciplined lib sched ⟨w, fun i => .idle (clients i), []⟩) (h : Pool.exec lib sched ⟨w, fun i => .idle (clients i), []⟩ = .ok s) :
    (∃ σ n, ApiHistory (lib.renumber σ) ⟨0, w.heap⟩ (s.log.map Prod.snd) ⟨n, s.world.heap⟩ ∧
      (∀ a < n, w.calls ≤ σ a ∧ σ a < s.world.calls) ∧ ∀ a b, a < n → b < n → σ a = σ b → a = b) ∧
    ∀ i, (clients i).Makes (s.logOf i) (s.threads i).client := by
  obtain ⟨ns, own, hinv⟩ := inv_exec sched (inv_start lib w clients) hd h
  refine ⟨⟨numbers ns, ns.length, hinv.hist _ (numbers_numbered ns), ?_, ?_⟩, hinv.makes⟩
  · intro a ha
    have := numbers_numbered ns a ha
    rw [Nat.zero_add] at this
    rw [this]
    exact hinv.range 0 _ (List.mem_append_left _ (List.getElem_mem ha))
  · intro a b ha hb hab
    have h1 := numbers_numbered ns a ha
    have h2 := numbers_numbered ns b hb
    rw [Nat.zero_add] at h1 h2
    rw [h1, h2] at hab
    have hp := List.pairwise_iff_getElem.1 (List.nodup_append.1 (hinv.nodup 0)).1
    rcases Nat.lt_trichotomy a b with hlt | heq | hlt
    · exact absurd hab (hp a b ha hb hlt)
    · exact heq
    · exact absurd hab.symm (hp b a hb ha hlt)

/-- **C81**.  If, under these rules, a step of a thread is undefined, then it is so because the call that the thread is in would be undefined if it were made after the calls that have returned, with nobody else around. -/
theorem C81_undefined (lib : Lib) (w : World) (clients : Nat → Client) (sched : List Nat) (s : Pool) (i : Nat) (e : UB)
    (hd : Disciplined lib sched ⟨w, fun i => .idle (clients i), []⟩) (h : Pool.exec lib sched ⟨w, fun i => .idle (clients i), []⟩ = .ok s)
    (hc : s.Careful i) (he : s.step lib i = .error e) :
    ∃ σ n op p k, ApiHistory (lib.renumber σ) ⟨0, w.heap⟩ (s.log.map Prod.snd) ⟨n, s.world.heap⟩ ∧ s.threads i = .busy op p k ∧ op.Legal ⟨n, s.world.heap⟩ ∧
      op.run (lib.renumber σ) ⟨n, s.world.heap⟩ = .error e := by
  obtain ⟨ns, own, hinv⟩ := inv_exec sched (inv_start lib w clients) hd h
  have hs := inv_step hinv i hc
  rw [he] at hs
  obtain ⟨op, p, k, h1, h2, h3⟩ := hs
  have hn := numbers_numbered (ns ++ own i)
  have hr := hn.right
  rw [Nat.zero_add] at hr
  exact ⟨numbers (ns ++ own i), ns.length, op, p, k, hinv.hist _ hn.left, h1, legal_kept h2 fun _ _ _ hp => hp, h3 _ hr⟩

/-! ## Programs that deal with keys only -/

/-- The program calls only the functions that deal with keys. -/
inductive Client.KeysOnly : Client → Prop where
  | stop : KeysOnly .stop
  | call {op : KeyOp} {k : ApiReply → Client} : (∀ r, (k r).KeysOnly) → KeysOnly (.call (.key op) k)

theorem makes_keys {c c' : Client} {l : List (ApiOp × ApiReply)} (h : c.Makes l c') (hc : c.KeysOnly) : c'.KeysOnly ∧ ∀ x ∈ l, ∃ op, x.1 = .key op := by
  induction h with
  | nil => exact ⟨hc, fun x hx => by cases hx⟩
  | snoc r _ e ih =>
    obtain ⟨h1, h2⟩ := ih
    cases h1 with
    | @call op k hk =>
      refine ⟨e ▸ hk r, fun x hx => ?_⟩
      rcases List.mem_append.1 hx with hx | hx
      · exact h2 x hx
      · rw [List.mem_singleton] at hx
        exact ⟨op, by rw [hx]⟩

theorem mem_logOf {s : Pool} {x : ApiOp × ApiReply} (h : x ∈ s.log.map Prod.snd) : ∃ i, x ∈ s.logOf i := by
  obtain ⟨y, hy, rfl⟩ := List.mem_map.1 h
  exact ⟨y.1, List.mem_map.2 ⟨y, List.mem_filter.2 ⟨hy, by simp⟩, rfl⟩⟩

/-- A history of calls that deal with keys is one in the sense of `Spec/KeyApi.lean`. -/
theorem keys_history {lib : Lib} {w w' : World} {l : List (ApiOp × ApiReply)} (h : ApiHistory lib w l w') (hk : ∀ x ∈ l, ∃ op, x.1 = .key op) :
    ∃ ops, History lib w ops w' ∧ l.map (fun x => (x.1, x.2.err)) = ops.map (fun x => (ApiOp.key x.1, x.2)) := by
  induction h with
  | nil w => exact ⟨[], .nil w, rfl⟩
  | @cons w w1 w2 op r ops hl hr _ ih =>
    obtain ⟨op', e⟩ := hk (op, r) (by simp)
    dsimp only at e
    subst e
    obtain ⟨ops', h1, h2⟩ := ih fun x hx => hk x (List.mem_cons_of_mem _ hx)
    have hrun := key_run lib op' w
    rw [hr] at hrun
    refine ⟨(op', r.err) :: ops', .cons hl hrun h1, ?_⟩
    rw [List.map_cons, List.map_cons, h2]

theorem Lib.Standard.renumber {lib : Lib} (h : lib.Standard) (σ : Nat → Nat) : (lib.renumber σ).Standard :=
  ⟨h.edPublic, h.edSign, fun c d x n => h.ecSign c d x (σ n)⟩

/-- **C81**.  Threads that deal with keys only, under the rules: whatever the schedule is and whichever library calls fail, every key object that was not destroyed is still what it was when the threads started, all key
objects are intact, and nothing that a thread does is undefined; only a derivation does not end if there is no acceptable candidate for a private key. -/
theorem C81_keys (lib : Lib) (hlib : lib.Standard) (w : World) (hw : w.Ok) (clients : Nat → Client) (hk : ∀ i, (clients i).KeysOnly) (sched : List Nat) (s : Pool)
    (hd : Disciplined lib sched ⟨w, fun i => .idle (clients i), []⟩) (h : Pool.exec lib sched ⟨w, fun i => .idle (clients i), []⟩ = .ok s) :
    s.world.Ok ∧ (∀ p k, Live w p k → (∀ x ∈ s.log, ¬ x.2.1.Destroys p) → Live s.world p k) ∧
    ∀ i, s.Careful i → (∃ s', s.step lib i = .ok s') ∨
      (s.step lib i = .error .diverges ∧ ∃ op p k, s.threads i = .busy (.key op) p k ∧ op.Stuck lib s.world) := by
  obtain ⟨⟨σ, n, hhist, -⟩, hmakes⟩ := C81_one_after_the_other lib w clients sched s hd h
  have hkeys : ∀ x ∈ s.log.map Prod.snd, ∃ op, x.1 = .key op := by
    intro x hx
    obtain ⟨i, hi⟩ := mem_logOf hx
    exact (makes_keys (hmakes i) (hk i)).2 x hi
  obtain ⟨ops, hops, hmap⟩ := keys_history hhist hkeys
  obtain ⟨h1, h2, -⟩ := C57_histories (lib.renumber σ) (hlib.renumber σ) ⟨0, w.heap⟩ hw ops _ hops
  refine ⟨h1, fun p k hp hnot => h2 p k hp fun x hx hdes => ?_, fun i hc => ?_⟩
  · have hm : (ApiOp.key x.1, x.2) ∈ (s.log.map Prod.snd).map (fun x => (x.1, x.2.err)) := by
      rw [hmap]
      exact List.mem_map.2 ⟨x, hx, rfl⟩
    obtain ⟨y, hy, e⟩ := List.mem_map.1 hm
    obtain ⟨z, hz, rfl⟩ := List.mem_map.1 hy
    refine hnot z hz ?_
    have e1 : z.2.1 = ApiOp.key x.1 := congrArg Prod.fst e
    rw [e1]
    exact hdes
  · cases hs : s.step lib i with
    | ok s' => exact .inl ⟨s', rfl⟩
    | error e =>
      right
      obtain ⟨σ', n', op, p, k, hh, hi, hl, hr⟩ := C81_undefined lib w clients sched s i e hd h hc hs
      have hkey : ∃ op', op = .key op' := by
        have h3 := (makes_keys (hmakes i) (hk i)).1
        rw [hi] at h3
        cases h3 with
        | call _ => exact ⟨_, rfl⟩
      obtain ⟨op', rfl⟩ := hkey
      obtain ⟨ops', hops', -⟩ := keys_history hh hkeys
      have hrun := key_run (lib.renumber σ') op' ⟨n', s.world.heap⟩
      rw [hr] at hrun
      rcases (C57_histories (lib.renumber σ') (hlib.renumber σ') ⟨0, w.heap⟩ hw ops' _ hops').2.2 op' hl with ⟨h4, h5⟩ | ⟨e', w'', h4⟩
      · rw [hrun] at h4
        cases h4
        exact ⟨rfl, op', p, k, hi, h5⟩
      · rw [hrun] at h4
        cases h4

/-! ## Examples -/

/-- CallThread 0 signs with the Ed25519 key, thread 1 destroys key `p` and makes a CDI. -/
def someClients (p : Nat) : Nat → Client
  | 0 => .call (.key (.sign (some ()) (some 2) (some ⟨0, none⟩) (some (List.replicate 64 0)) (some 64))) fun _ => .stop
  | 1 => .call (.key (.free (some ()) (some p))) fun _ => .call (.key (.makeSecret (some ()) (some ⟨1, some ⟨[], [7]⟩⟩) (some none))) fun _ => .stop
  | _ => .stop

/-- The steps of thread 1 come between those of thread 0. -/
def someSchedule : List Nat := [0, 1, 0, 0, 1, 0, 1, 0, 1, 0]

/-- What is left when all is done. -/
def outcome (r : Except UB Pool) : Except UB (List (Nat × N20Error × Option (Option Nat)) × Nat × List Bool) :=
  r.map fun s => (s.log.map fun x => (x.1, x.2.2.err, x.2.2.key), s.world.calls, s.world.heap.map Option.isSome)

/-- The signature is made although another key is destroyed and one is made meanwhile. -/
example : outcome (Pool.exec calmLib someSchedule ⟨someKeys, fun i => .idle (someClients 1 i), []⟩) =
    .ok ([(1, .ok, none), (1, .ok, some (some 4)), (0, .ok, none)], 3, [true, false, true, false, true]) := by rfl

/-- That is in line with the rules, so the theorems apply. -/
theorem some_disciplined : Disciplined calmLib someSchedule ⟨someKeys, fun i => .idle (someClients 1 i), []⟩ := by
  have begin0 : ∀ w : World, Live w 2 ⟨3, .inr (.ed25519 (List.replicate 32 8))⟩ → ApiOp.Legal w (.key (.sign (some ()) (some 2) (some ⟨0, none⟩) (some (List.replicate 64 0)) (some 64))) := by
    intro w hw
    refine ⟨fun p hp => ?_, fun g hg => ?_, fun d sz hd hs => ?_⟩
    · cases hp; exact ⟨_, hw⟩
    · cases hg; trivial
    · cases hd; cases hs; rw [List.length_replicate]; decide
  refine ⟨fun op k e => ?_, fun s1 e1 => ?_⟩
  · cases e
    refine ⟨begin0 _ rfl, fun j op' p' k' e => ?_⟩
    cases e
  cases Except.ok.inj e1
  refine ⟨fun op k e => ?_, fun s1 e1 => ?_⟩
  · cases e
    refine ⟨fun p hp => (by cases hp; exact ⟨_, rfl⟩), fun j op' p' k' e => ?_⟩
    match j with
    | 0 =>
      cases e
      exact fun p => ⟨fun h1 h2 => (by cases h2; cases h1.2), fun h => (by cases h)⟩
    | 1 => cases e
    | n + 2 => cases e
  cases Except.ok.inj e1
  refine ⟨fun op k e => (by cases e), fun s1 e1 => ?_⟩
  cases Except.ok.inj e1
  refine ⟨fun op k e => (by cases e), fun s1 e1 => ?_⟩
  cases Except.ok.inj e1
  refine ⟨fun op k e => (by cases e), fun s1 e1 => ?_⟩
  cases Except.ok.inj e1
  refine ⟨fun op k e => (by cases e), fun s1 e1 => ?_⟩
  cases Except.ok.inj e1
  refine ⟨fun op k e => ?_, fun s1 e1 => ?_⟩
  · cases e
    refine ⟨fun s hs => (by cases hs; decide), fun j op' p' k' e => ?_⟩
    match j with
    | 0 =>
      cases e
      exact fun p => ⟨fun h1 h2 => (by cases h1), fun h => (by cases h)⟩
    | 1 => cases e
    | n + 2 => cases e
  cases Except.ok.inj e1
  refine ⟨fun op k e => (by cases e), fun s1 e1 => ?_⟩
  cases Except.ok.inj e1
  refine ⟨fun op k e => (by cases e), fun s1 e1 => ?_⟩
  cases Except.ok.inj e1
  refine ⟨fun op k e => (by cases e), fun s1 e1 => trivial⟩

example : ∀ i, (someClients 1 i).KeysOnly
  | 0 => .call fun _ => .stop
  | 1 => .call fun _ => .call fun _ => .stop
  | _ + 2 => .stop

/-- The rules are needed: if the key is destroyed after the signing call started, its memory is accessed afterwards. -/
example : outcome (Pool.exec calmLib [0, 1, 1, 0] ⟨someKeys, fun i => .idle (someClients 2 i), []⟩) = .error .useAfterFree := by rfl

end Nat20
