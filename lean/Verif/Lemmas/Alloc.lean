import Verif.Spec.Alloc
import Verif.Props.Concurrent
/-!
# Key objects at addresses: the programs of calls
-/

namespace Nat20

open Fips

/-! ## Errors are errors -/

/-- If the program ends with an error code, then it is not `ok`. -/
def L.Errs {α : Type} : L (Except N20Error α) → Prop
  | .done (.error e) => e ≠ .ok
  | .done (.ok _) => True
  | .fault _ => True
  | .call k => ∀ c, (k c).Errs

theorem errs_bind {α β : Type} (m : LE α) (f : α → LE β) (hm : L.Errs m.run) (hf : ∀ a, L.Errs (f a).run) : L.Errs (m >>= f).run := by
  have : ∀ l : L (Except N20Error α), l.Errs → L.Errs (l.bind (ExceptT.bindCont f)) := by
    intro l
    induction l with
    | done r =>
      intro h
      cases r with
      | ok a => exact hf a
      | error e => exact h
    | fault e => exact fun _ => trivial
    | call k ih => exact fun h c => ih c (h c)
  exact this _ hm

theorem errs_lift {α β : Type} (m : L α) (f : α → LE β) (hf : ∀ a, L.Errs (f a).run) : L.Errs ((m : LE α) >>= f).run := by
  refine errs_bind _ f ?_ hf
  show L.Errs (m.bind fun a => .done (.ok a))
  induction m with
  | done a => trivial
  | fault e => trivial
  | call k ih => exact fun c => ih c

theorem errs_pure {α : Type} (a : α) : L.Errs (pure a : LE α).run := trivial

theorem errs_need {e : N20Error} (h : e ≠ .ok) : L.Errs (needL e).run := by
  intro c
  cases hc : c.ok
  · simpa [L.Errs, hc] using h
  · simp [L.Errs, hc]

theorem errs_throw {α : Type} {e : N20Error} (h : e ≠ .ok) : L.Errs (throw e : LE α).run := h

theorem errs_gather (g : Option GatherList) : L.Errs (gatherToVectorL g).run := by
  unfold gatherToVectorL
  cases g with
  | none => exact errs_throw (by decide)
  | some g =>
    dsimp only
    split
    · exact errs_throw (by decide)
    · refine errs_lift _ _ fun r => ?_
      split
      · exact errs_pure _
      · rename_i h
        exact errs_throw h

theorem errs_derive (bits : Bytes) (context : Option GatherList) : L.Errs (bsslDeriveL bits context).run := by
  unfold bsslDeriveL
  refine errs_bind _ _ (errs_gather _) fun c => errs_lift _ _ fun r => ?_
  cases r with
  | ok okm => exact errs_pure _
  | error e => exact errs_throw (by decide)

theorem errs_bn (n k : Nat) : L.Errs (bnPaddedL n k).run := by
  unfold bnPaddedL
  refine errs_bind _ _ (errs_need (by decide)) fun _ => ?_
  split
  · exact errs_pure _
  · exact errs_throw (by decide)

theorem errs_shift (size qlen h1 : Nat) : L.Errs (rfcShiftL size qlen h1).run := by
  unfold rfcShiftL
  split
  · exact errs_bind _ _ (errs_need (by decide)) fun _ => errs_pure _
  · exact errs_pure _

theorem errs_h1 (a : Alg) (m : Bytes) (q : Nat) : L.Errs (rfcH1L a m q).run := by
  unfold rfcH1L
  refine errs_bind _ _ (errs_need (by decide)) fun _ => errs_bind _ _ (errs_need (by decide)) fun _ => errs_bind _ _ (errs_shift _ _ _) fun h1 =>
    errs_bind _ _ (errs_need (by decide)) fun _ => errs_bind _ _ (errs_need (by decide)) fun _ => ?_
  dsimp only
  split <;> exact errs_bn _ _

theorem errs_updateK (a : Alg) (K V : Bytes) (octet : UInt8) (more : Bytes) : L.Errs (rfcUpdateKL a K V octet more).run :=
  errs_bind _ _ (errs_need (by decide)) fun _ => errs_bind _ _ (errs_need (by decide)) fun _ => errs_pure _

theorem errs_updateV (a : Alg) (K V : Bytes) : L.Errs (rfcUpdateVL a K V).run :=
  errs_bind _ _ (errs_need (by decide)) fun _ => errs_pure _

theorem errs_seed (a : Alg) (x h1 K V : Bytes) : L.Errs (rfcSeedL a x h1 K V).run :=
  errs_bind _ _ (errs_updateK _ _ _ _ _) fun _ => errs_bind _ _ (errs_updateV _ _ _) fun _ => errs_bind _ _ (errs_updateK _ _ _ _ _) fun _ =>
    errs_bind _ _ (errs_updateV _ _ _) fun _ => errs_pure _

theorem errs_T (a : Alg) (K : Bytes) (n : Nat) (V T : Bytes) : L.Errs (rfcTL a K n V T).run := by
  induction n generalizing V T with
  | zero => exact errs_pure _
  | succ n ih => exact errs_bind _ _ (errs_updateV _ _ _) fun _ => ih _ _

theorem errs_loop (fns : KeyFns) (a : Alg) (q fuel : Nat) (K V : Bytes) : L.Errs (rfcLoopL fns a q fuel K V).run := by
  induction fuel generalizing K V with
  | zero => trivial
  | succ n ih =>
    unfold rfcLoopL
    refine errs_bind _ _ (errs_T _ _ _ _ _) fun r => errs_bind _ _ (errs_need (by decide)) fun _ => errs_bind _ _ (errs_need (by decide)) fun _ => ?_
    dsimp only
    split
    · exact errs_pure _
    · exact errs_bind _ _ (errs_updateK _ _ _ _ _) fun _ => errs_bind _ _ (errs_updateV _ _ _) fun _ => ih _ _

theorem errs_rfc (fns : KeyFns) (x : Bytes) (m : Option Bytes) (alg : UInt32) (q : Nat) : L.Errs (rfc6979L fns x m alg q).run := by
  unfold rfc6979L
  cases bsslMd alg with
  | none => exact errs_throw (by decide)
  | some a =>
    refine errs_bind _ _ ?_ fun h1 => errs_bind _ _ (errs_need (by decide)) fun _ => errs_bind _ _ (errs_seed _ _ _ _ _) fun r => errs_loop _ _ _ _ _ _
    cases m with
    | none => exact errs_pure _
    | some m => exact errs_h1 _ _ _

theorem errs_ec (fns : KeyFns) (type : UInt32) (derived : Bytes) : L.Errs (bsslEcKeyL fns type derived).run := by
  unfold bsslEcKeyL
  exact errs_bind _ _ (errs_need (by decide)) fun _ => errs_bind _ _ (errs_rfc _ _ _ _ _) fun _ => errs_bind _ _ (errs_need (by decide)) fun _ =>
    errs_bind _ _ (errs_need (by decide)) fun _ => errs_bind _ _ (errs_need (by decide)) fun _ => errs_bind _ _ (errs_need (by decide)) fun _ =>
    errs_bind _ _ (errs_need (by decide)) fun _ => errs_bind _ _ (errs_need (by decide)) fun _ => errs_bind _ _ (errs_need (by decide)) fun _ => errs_pure _

theorem errs_make (fns : KeyFns) (type : UInt32) (derived : Bytes) : L.Errs (bsslMakeKeyL fns type derived).run := by
  unfold bsslMakeKeyL
  split
  · exact errs_bind _ _ (errs_need (by decide)) fun _ => errs_pure _
  · split
    · exact errs_pure _
    · split
      · exact errs_ec _ _ _
      · exact errs_throw (by decide)

theorem errs_kdf (fns : KeyFns) (bits : Bytes) (type : UInt32) (context : Option GatherList) : L.Errs (bsslKdfKeyL fns bits type context).run :=
  errs_bind _ _ (errs_derive _ _) fun _ => errs_make _ _ _

/-! ## Programs that destroy nothing -/

/-- The end of a call that returns a handle only if it made a key object, and destroys none. -/
def Final.Tidy : Final → Prop
  | .reply r => r.err = .ok → r.key = none
  | .create _ => True
  | .destroy _ => False

/-- The same for programs. -/
def L.Tidy : L Final → Prop
  | .done f => f.Tidy
  | .fault _ => True
  | .call k => ∀ c, (k c).Tidy

theorem tidy_bind {α : Type} (m : L α) (f : α → L Final) (h : ∀ a, (f a).Tidy) : (m >>= f).Tidy := by
  induction m with
  | done a => exact h a
  | fault e => trivial
  | call k ih => exact fun c => ih c

theorem tidy_reply (l : L Reply) : (replyL l).Tidy := tidy_bind l _ fun _ _ => rfl

theorem tidy_out (l : L (N20Error × Option Bytes)) : (outL l).Tidy := tidy_bind l _ fun _ _ => rfl

theorem tidy_key (c : LE BsslKey) (old : Option Nat) (h : L.Errs c.run) : (keyFinalL c old).Tidy := by
  unfold keyFinalL
  generalize c.run = l at h
  induction l with
  | done r =>
    cases r with
    | ok key => trivial
    | error e => exact fun he => absurd he h
  | fault e => trivial
  | call k ih => exact fun c => ih c (h c)

theorem tidy_kdf (fns : KeyFns) (k : BsslKey) (type : UInt32) (context : Option GatherList) (keyOut : Option (Option Nat)) :
    (bsslKdfL fns k type context keyOut).Tidy := by
  unfold bsslKdfL
  split
  · exact fun h => nomatch h
  · refine tidy_bind _ _ fun bits => ?_
    cases keyOut with
    | none => exact fun h => nomatch h
    | some old => exact tidy_key _ _ (errs_kdf _ _ _ _)

theorem tidy_secret (ctx : Option Unit) (secret : Option Slice) (keyOut : Option (Option Nat)) : (bsslMakeSecretL ctx secret keyOut).Tidy := by
  unfold bsslMakeSecretL
  repeat' split
  all_goals first | exact tidy_bind _ _ fun _ => trivial | exact fun h => nomatch h

/-- The program of a call with another handle. -/
inductive ProgCases (fns : KeyFns) (φ : Nat → Nat) (op : ApiOp) : Prop where
  | load (p : Nat) (l : BsslKey → L Final) (handle : op.handle = some p) (prog : op.prog fns = .load p l) (renamed : (op.rename φ).prog fns = .load (φ p) l)
      (tidy : ∀ k, (l k).Tidy)
  | run (l : L Final) (prog : op.prog fns = .run l) (renamed : (op.rename φ).prog fns = .run l) (tidy : l.Tidy)
  | free (p : Nat) (handle : op.handle = some p) (destroys : op.Destroys p) (prog : op.prog fns = .run (.done (.destroy p)))
      (renamed : (op.rename φ).prog fns = .run (.done (.destroy (φ p))))

theorem prog_cases (fns : KeyFns) (φ : Nat → Nat) (op : ApiOp) : ProgCases fns φ op := by
  match op with
  | .key (.kdf none _ _ _ _) => exact .run _ rfl rfl fun h => nomatch h
  | .key (.kdf (some _) none _ _ _) => exact .run _ rfl rfl fun h => nomatch h
  | .key (.kdf (some _) (some p) _ _ _) => exact .load p _ rfl rfl rfl fun _ => tidy_kdf _ _ _ _ _
  | .key (.sign none _ _ _ _) => exact .run _ rfl rfl fun h => nomatch h
  | .key (.sign (some _) none _ _ _) => exact .run _ rfl rfl fun h => nomatch h
  | .key (.sign (some _) (some _) _ _ none) => exact .run _ rfl rfl fun h => nomatch h
  | .key (.sign (some _) (some p) _ _ (some _)) => exact .load p _ rfl rfl rfl fun _ => tidy_reply _
  | .key (.publicKey none _ _ _) => exact .run _ rfl rfl fun h => nomatch h
  | .key (.publicKey (some _) none _ _) => exact .run _ rfl rfl fun h => nomatch h
  | .key (.publicKey (some _) (some _) _ none) => exact .run _ rfl rfl fun h => nomatch h
  | .key (.publicKey (some _) (some p) _ (some _)) => exact .load p _ rfl rfl rfl fun _ => tidy_reply _
  | .key (.free none _) => exact .run _ rfl rfl fun h => nomatch h
  | .key (.free (some _) none) => exact .run _ rfl rfl fun _ => rfl
  | .key (.free (some _) (some p)) => exact .free p rfl ⟨rfl, rfl⟩ rfl rfl
  | .key (.makeSecret _ _ _) => exact .run _ rfl rfl (tidy_secret _ _ _)
  | .digest .. => exact .run _ rfl rfl (tidy_reply _)
  | .hmac .. => exact .run _ rfl rfl (tidy_reply _)
  | .hkdf .. => exact .run _ rfl rfl (tidy_out _)
  | .extract .. => exact .run _ rfl rfl (tidy_reply _)
  | .expand .. => exact .run _ rfl rfl (tidy_out _)

/-! ## Calls -/

theorem toB_runFrom {α : Type} (lib : Lib) (l : L α) (n : Nat) (heap : List (Option BsslKey)) :
    L.toB lib l ⟨n, heap⟩ = match l.runFrom lib n with
      | .ok (a, m) => .ok (a, ⟨m, heap⟩)
      | .error e => .error e := by
  induction l generalizing n with
  | done a => rfl
  | fault e => rfl
  | call k ih => exact ih _ (n + 1)

theorem runFinal_world (lib : Lib) (l : L Final) (w : World) :
    (do let f ← L.toB lib l; f.commit : B ApiReply) w = match l.runFrom lib w.calls with
      | .ok (f, n) => f.commit { w with calls := n }
      | .error e => .error e := by
  show Except.bind (L.toB lib l w) (fun x => x.1.commit x.2) = _
  cases w with
  | mk n heap =>
    rw [toB_runFrom]
    dsimp only
    cases l.runFrom lib n <;> rfl

theorem runFrom_tidy {lib : Lib} {l : L Final} {n m : Nat} {f : Final} (h : l.Tidy) (hr : l.runFrom lib n = .ok (f, m)) : f.Tidy := by
  induction l generalizing n with
  | done a => cases hr; exact h
  | fault e => cases hr
  | call k ih => exact ih _ (h _) hr

theorem represents_calls {φ : Nat → Nat} {w : AddrWorld} {w0 : World} (h : Represents φ w w0) (n : Nat) :
    Represents φ { w with calls := n } { w0 with calls := n } := ⟨rfl, h.keys, h.injective, h.complete⟩

theorem setAt_same {α : Type} (f : Nat → α) (i : Nat) (v : α) : setAt f i v i = v := if_pos rfl

theorem setAt_other {α : Type} (f : Nat → α) {i j : Nat} (v : α) (h : j ≠ i) : setAt f i v j = f j := if_neg h

theorem live_lt {w : World} {n : Nat} {k : BsslKey} (h : Live w n k) : n < w.heap.length := by
  have h : w.heap[n]? = some (some k) := h
  rcases Nat.lt_or_ge n w.heap.length with hl | hl
  · exact hl
  · rw [List.getElem?_eq_none hl] at h
    cases h

/-- A new number for an address where there is nothing. -/
theorem represents_fresh {φ : Nat → Nat} {w : AddrWorld} {w0 : World} (h : Represents φ w w0) {fresh : Nat} (hf : w.keys fresh = none) (n : Nat) :
    Represents (setAt φ fresh n) w w0 := by
  have he : ∀ p k, w.keys p = some k → setAt φ fresh n p = φ p := fun p k hp => setAt_other φ n fun e => by rw [e, hf] at hp; cases hp
  refine ⟨h.calls, fun p k hp => ?_, fun p q k k' hp hq e => ?_, fun m k hm => ?_⟩
  · rw [he p k hp]; exact h.keys p k hp
  · rw [he p k hp, he q k' hq] at e; exact h.injective p q k k' hp hq e
  · obtain ⟨p, hp, e⟩ := h.complete m k hm
    exact ⟨p, hp, by rw [he p k hp]; exact e⟩

theorem represents_create {φ : Nat → Nat} {w : AddrWorld} {w0 : World} (h : Represents φ w w0) {fresh : Nat} (hf : w.keys fresh = none) (key : BsslKey) :
    Represents (setAt φ fresh w0.heap.length) { w with keys := setAt w.keys fresh (some key) } { w0 with heap := w0.heap ++ [some key] } := by
  have hnew : Live { w0 with heap := w0.heap ++ [some key] } w0.heap.length key := by
    show (w0.heap ++ [some key])[w0.heap.length]? = some (some key)
    rw [List.getElem?_append_right (Nat.le_refl _), Nat.sub_self]
    rfl
  have hold : ∀ n k, Live w0 n k → Live { w0 with heap := w0.heap ++ [some key] } n k := fun n k hn => by
    show (w0.heap ++ [some key])[n]? = some (some k)
    rw [List.getElem?_append_left (live_lt hn)]
    exact hn
  refine ⟨h.calls, fun p k hp => ?_, fun p q k k' hp hq e => ?_, fun m k hm => ?_⟩
  · dsimp only at hp
    by_cases e : p = fresh
    · subst e
      rw [setAt_same] at hp ⊢
      cases hp
      exact hnew
    · rw [setAt_other _ _ e] at hp ⊢
      exact hold _ _ (h.keys p k hp)
  · dsimp only at hp hq
    by_cases e1 : p = fresh
    · by_cases e2 : q = fresh
      · rw [e1, e2]
      · rw [e1, setAt_same, setAt_other _ _ e2] at e
        rw [setAt_other _ _ e2] at hq
        have := live_lt (h.keys q k' hq)
        omega
    · rw [setAt_other _ _ e1] at hp
      by_cases e2 : q = fresh
      · rw [e2, setAt_same, setAt_other _ _ e1] at e
        have := live_lt (h.keys p k hp)
        omega
      · rw [setAt_other _ _ e1, setAt_other _ _ e2] at e
        rw [setAt_other _ _ e2] at hq
        exact h.injective p q k k' hp hq e
  · have hm : (w0.heap ++ [some key])[m]? = some (some k) := hm
    by_cases hl : m < w0.heap.length
    · rw [List.getElem?_append_left hl] at hm
      obtain ⟨p, hp, e⟩ := h.complete m k hm
      have hne : p ≠ fresh := fun e => by rw [e, hf] at hp; cases hp
      exact ⟨p, by dsimp only; rw [setAt_other _ _ hne]; exact hp, by rw [setAt_other _ _ hne]; exact e⟩
    · by_cases hl' : m = w0.heap.length
      · subst hl'
        rw [List.getElem?_append_right (Nat.le_refl _), Nat.sub_self] at hm
        cases hm
        exact ⟨fresh, setAt_same .., setAt_same ..⟩
      · rw [List.getElem?_eq_none (by rw [List.length_append, List.length_singleton]; omega)] at hm
        cases hm

theorem represents_destroy {φ : Nat → Nat} {w : AddrWorld} {w0 : World} (h : Represents φ w w0) {p : Nat} {key : BsslKey} (hp : w.keys p = some key) :
    Represents φ { w with keys := setAt w.keys p none } { w0 with heap := w0.heap.set (φ p) none } := by
  refine ⟨h.calls, fun q k hq => ?_, fun q q' k k' hq hq' e => ?_, fun m k hm => ?_⟩
  · dsimp only at hq
    by_cases e : q = p
    · rw [e, setAt_same] at hq
      cases hq
    · rw [setAt_other _ _ e] at hq
      have hne : φ p ≠ φ q := fun e' => e (h.injective q p k key hq hp e'.symm)
      show (w0.heap.set (φ p) none)[φ q]? = some (some k)
      rw [List.getElem?_set_ne hne]
      exact h.keys q k hq
  · dsimp only at hq hq'
    by_cases e1 : q = p
    · rw [e1, setAt_same] at hq; cases hq
    · by_cases e2 : q' = p
      · rw [e2, setAt_same] at hq'; cases hq'
      · rw [setAt_other _ _ e1] at hq
        rw [setAt_other _ _ e2] at hq'
        exact h.injective q q' k k' hq hq' e
  · have hm : (w0.heap.set (φ p) none)[m]? = some (some k) := hm
    by_cases e : φ p = m
    · subst e
      rw [List.getElem?_set_self (live_lt (h.keys p key hp))] at hm
      cases hm
    · rw [List.getElem?_set_ne e] at hm
      obtain ⟨q, hq, e'⟩ := h.complete m k hm
      refine ⟨q, ?_, e'⟩
      dsimp only
      rw [setAt_other _ _ fun x => e (by rw [← x, e'])]
      exact hq

/-- The end of a call. -/
theorem commit_tidy {φ : Nat → Nat} {w : AddrWorld} {w0 : World} (h : Represents φ w w0) {fresh : Nat} (hf : w.keys fresh = none) {f : Final} (ht : f.Tidy) :
    ∃ r w' w0', f.commitAt fresh w = .ok (r, w') ∧ f.commit w0 = .ok (r.rename (setAt φ fresh w0.heap.length), w0') ∧
      Represents (setAt φ fresh w0.heap.length) w' w0' := by
  cases f with
  | reply r =>
    refine ⟨r, w, w0, rfl, ?_, represents_fresh h hf _⟩
    have : r.rename (setAt φ fresh w0.heap.length) = r := by
      unfold ApiReply.rename
      split
      · rename_i he
        have hk := ht he
        cases r
        dsimp only at hk
        rw [hk]
        rfl
      · rfl
    rw [this]
    rfl
  | create key =>
    refine ⟨_, _, _, rfl, ?_, represents_create h hf key⟩
    show Except.ok _ = Except.ok _
    unfold ApiReply.rename
    simp [setAt_same]
  | destroy p => exact absurd ht id

theorem commit_destroys {φ : Nat → Nat} {w : AddrWorld} {w0 : World} (h : Represents φ w w0) {fresh : Nat} (hf : w.keys fresh = none) {p : Nat} {key : BsslKey}
    (hp : w.keys p = some key) :
    ∃ r w' w0', (Final.destroy p).commitAt fresh w = .ok (r, w') ∧ (Final.destroy (φ p)).commit w0 = .ok (r.rename (setAt φ fresh w0.heap.length), w0') ∧
      Represents (setAt φ fresh w0.heap.length) w' w0' := by
  refine ⟨{ err := .ok }, { w with keys := setAt w.keys p none }, { w0 with heap := w0.heap.set (φ p) none }, ?_, ?_, ?_⟩
  · unfold Final.commitAt
    dsimp only
    rw [hp]
  · rw [commit_destroy]
    have : w0.heap[φ p]? = some (some key) := h.keys p key hp
    rw [this]
    rfl
  · have hne : p ≠ fresh := fun e => by rw [e, hf] at hp; cases hp
    have hd := represents_destroy h hp
    refine represents_fresh hd ?_ _
    dsimp only
    rw [setAt_other _ _ hne.symm]
    exact hf

end Nat20
