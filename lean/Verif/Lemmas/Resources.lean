import Verif.Spec.Resources
/-!
# Lemmas about library objects
-/

namespace Nat20

open Fips

/-! ## Computations that create and destroy no key objects -/

/-- The heap of key objects is not changed. -/
def KeepsHeap {α : Type} (m : B α) : Prop := ∀ w a w', m w = .ok (a, w') → w'.heap = w.heap

theorem keeps_pure {α : Type} (a : α) : KeepsHeap (Pure.pure a : B α) := by
  intro w b w' h; cases h; rfl

theorem keeps_bind {α β : Type} {m : B α} {k : α → B β} (h : KeepsHeap m) (hk : ∀ a, KeepsHeap (k a)) : KeepsHeap (m >>= k) := by
  intro w b w' hb
  change (do let x ← m w; k x.1 x.2 : Except UB _) = _ at hb
  cases hm : m w with
  | error e => rw [hm] at hb; cases hb
  | ok r =>
    rw [hm] at hb
    exact (hk r.1 r.2 b w' hb).trans (h w r.1 r.2 hm)

theorem keeps_bindE {α β : Type} {m : BE α} {k : α → BE β} (h : KeepsHeap m.run) (hk : ∀ a, KeepsHeap (k a).run) : KeepsHeap (m >>= k).run := by
  refine keeps_bind (k := fun r => ExceptT.bindCont k r) h fun r => ?_
  cases r with
  | error e => exact keeps_pure _
  | ok a => exact hk a

theorem keeps_call (lib : Lib) : KeepsHeap (libCall lib) := by intro w a w' h; cases h; rfl
theorem keeps_junk (lib : Lib) (n : Nat) : KeepsHeap (libJunk lib n) := by intro w a w' h; cases h; rfl

theorem keeps_lift {α : Type} (x : Except UB α) : KeepsHeap (liftB x) := by
  intro w a w' h
  cases x with
  | error e => cases h
  | ok v => cases h; rfl

theorem keeps_need (lib : Lib) (e : N20Error) : KeepsHeap (need lib e).run := by
  intro w a w' h; cases h; rfl

theorem keeps_liftE {α : Type} {m : B α} (h : KeepsHeap m) : KeepsHeap ((ExceptT.lift m : BE α)).run := keeps_bind h fun _ => keeps_pure _

theorem keeps_throw {α : Type} (e : N20Error) : KeepsHeap ((throw e : BE α)).run := keeps_pure _

theorem keeps_load (p : Nat) : KeepsHeap (loadKey p) := by
  intro w a w' h
  unfold loadKey at h
  split at h <;> cases h
  rfl

/-- Goes through the statements of a function. -/
macro "keeps" : tactic => `(tactic| repeat (first
  | exact keeps_pure _ | exact keeps_call _ | exact keeps_junk _ _ | exact keeps_lift _ | exact keeps_need _ _ | exact keeps_throw _
  | exact keeps_load _
  | exact keeps_liftE (keeps_lift _)
  | (refine keeps_bind ?_ fun _ => ?_) | (refine keeps_bindE ?_ fun _ => ?_) | split | assumption))

theorem keeps_expand (lib : Lib) (a : Alg) (prk info : Bytes) (n : Nat) : KeepsHeap (libExpand lib a prk info n) := by
  unfold libExpand; keeps

theorem keeps_hmacFinal (lib : Lib) (a : Alg) (key text d : Bytes) (sz : UInt64) : KeepsHeap (bsslHmacFinal lib a key text d sz) := by
  unfold bsslHmacFinal; keeps

theorem keeps_expandOut (lib : Lib) (a : Alg) (prk info : Bytes) (n : UInt64) (out : Option Bytes) : KeepsHeap (bsslExpandOut lib a prk info n out) := by
  unfold bsslExpandOut
  refine keeps_bind (keeps_expand _ _ _ _ _) fun _ => ?_
  keeps

theorem keeps_hkdf (lib : Lib) (ctx : Option Unit) (alg : UInt32) (ikm salt info : Slice) (n : UInt64) (out : Option Bytes) :
    KeepsHeap (bsslHkdf lib ctx alg ikm salt info n out) := by
  unfold bsslHkdf
  have := keeps_expandOut
  repeat (first | exact keeps_expandOut _ _ _ _ _ _ | exact keeps_pure _ | exact keeps_lift _ | (refine keeps_bind ?_ fun _ => ?_) | split)

theorem keeps_extract (lib : Lib) (ctx : Option Unit) (alg : UInt32) (ikm salt : Slice) (prk : Option Bytes) (size : Option UInt64) :
    KeepsHeap (bsslExtract lib ctx alg ikm salt prk size) := by
  unfold bsslExtract bsslExtractOut; keeps

theorem keeps_hkdfExpand (lib : Lib) (ctx : Option Unit) (alg : UInt32) (prk info : Slice) (n : UInt64) (out : Option Bytes) :
    KeepsHeap (bsslExpand lib ctx alg prk info n out) := by
  unfold bsslExpand
  repeat (first | exact keeps_expandOut _ _ _ _ _ _ | exact keeps_pure _ | exact keeps_lift _ | (refine keeps_bind ?_ fun _ => ?_) | split)

theorem keeps_gather (g : Option GatherList) : KeepsHeap (gatherToVector g).run := by
  unfold gatherToVector
  split
  · exact keeps_throw _
  · split
    · exact keeps_throw _
    · refine keeps_bindE (keeps_liftE (keeps_lift _)) fun _ => ?_
      keeps

theorem keeps_derive (lib : Lib) (bits : Bytes) (g : Option GatherList) : KeepsHeap (bsslDerive lib bits g).run := by
  unfold bsslDerive
  refine keeps_bindE (keeps_gather g) fun c => keeps_bindE (keeps_liftE (keeps_expand _ _ _ _ _)) fun r => ?_
  keeps

theorem keeps_padded (lib : Lib) (n k : Nat) : KeepsHeap (bnPadded lib n k).run := by
  unfold bnPadded; keeps

theorem keeps_shift (lib : Lib) (size qlen h1 : Nat) : KeepsHeap (rfcShift lib size qlen h1).run := by
  unfold rfcShift; keeps

theorem keeps_updateK (lib : Lib) (a : Alg) (K V : Bytes) (o : UInt8) (more : Bytes) : KeepsHeap (rfcUpdateK lib a K V o more).run := by
  unfold rfcUpdateK; keeps

theorem keeps_updateV (lib : Lib) (a : Alg) (K V : Bytes) : KeepsHeap (rfcUpdateV lib a K V).run := by
  unfold rfcUpdateV; keeps

theorem keeps_seed (lib : Lib) (a : Alg) (x h1 K V : Bytes) : KeepsHeap (rfcSeed lib a x h1 K V).run := by
  unfold rfcSeed
  repeat (first | exact keeps_updateK _ _ _ _ _ _ | exact keeps_updateV _ _ _ _ | exact keeps_pure _ | (refine keeps_bindE ?_ fun _ => ?_))

theorem keeps_T (lib : Lib) (a : Alg) (K : Bytes) : ∀ (n : Nat) (V T : Bytes), KeepsHeap (rfcT lib a K n V T).run := by
  intro n
  induction n with
  | zero => intro V T; exact keeps_pure _
  | succ n ih => intro V T; rw [rfcT]; exact keeps_bindE (keeps_updateV _ _ _ _) fun V => ih V _

theorem keeps_signUpdate (lib : Lib) : ∀ (n : Nat) (l : List Slice) (acc : Bytes), KeepsHeap (signUpdate lib n l acc).run := by
  intro n
  induction n with
  | zero => intro l acc; rw [signUpdate]; exact keeps_pure _
  | succ n ih =>
    intro l acc
    cases l with
    | nil => rw [signUpdate]; exact keeps_lift _
    | cons x l =>
      rw [signUpdate]
      split
      · exact ih _ _
      · split
        · exact keeps_throw _
        · exact keeps_bindE (keeps_liftE (keeps_lift _)) fun _ => keeps_bindE (keeps_need _ _) fun _ => ih _ _

theorem keeps_calls : KeepsHeap (fun w => .ok (w.calls, w) : B Nat) := by intro w a w' h; cases h; rfl

theorem keeps_ecFinal (lib : Lib) (a : Alg) (key : PKey) (text : Bytes) (n : UInt64) (rest d : Bytes) :
    KeepsHeap (ecFinal lib a key text n rest d) := by
  unfold ecFinal
  refine keeps_bind keeps_calls fun m => keeps_bind (keeps_call _) fun ok => ?_
  split
  · exact keeps_pure _
  · split
    · exact keeps_lift _
    · simp only
      split
      · exact keeps_pure _
      · exact keeps_bind (keeps_lift _) fun _ => keeps_pure _

theorem keeps_ecSign (lib : Lib) (a : Alg) (key : PKey) (msg : Option GatherList) (n : UInt64) (d : Bytes) (sz : UInt64) :
    KeepsHeap (ecSign lib a key msg n d sz) := by
  unfold ecSign
  refine keeps_bind ?_ fun r => ?_
  · unfold ecMessage
    split
    · exact keeps_throw _
    · split
      · exact keeps_throw _
      · exact keeps_bindE (keeps_need _ _) fun _ => keeps_signUpdate _ _ _ _
  · split
    · exact keeps_pure _
    · exact keeps_bind (keeps_junk _ _) fun rest => keeps_ecFinal _ _ _ _ _ _ _

theorem keeps_edSign (lib : Lib) (key : PKey) (msg : Option GatherList) (d : Bytes) (sz : UInt64) : KeepsHeap (edSign lib key msg d sz) := by
  unfold edSign
  refine keeps_bind (keeps_call _) fun _ => ?_
  split
  · exact keeps_pure _
  · refine keeps_bind (keeps_gather msg) fun r => ?_
    split
    · exact keeps_pure _
    · unfold edFinal; keeps

theorem keeps_edPublicKey (lib : Lib) (type : UInt32) (seed d : Bytes) (sz : UInt64) : KeepsHeap (edPublicKey lib type seed d sz) := by
  unfold edPublicKey; keeps

theorem keeps_copy (info : Bytes) (n : UInt64) (d : Bytes) : KeepsHeap (ecPublicKeyCopy info n d) := by
  unfold ecPublicKeyCopy; keeps

/-! ## Objects that a computation adds -/

/-- From `s` to `s'` the objects `l` are added and nothing else. -/
structure Got (s s' : RWorld) (l : List (Nat × LibObj)) : Prop where
  fresh : ∀ i, s.next ≤ i → s.live i = none
  fresh' : ∀ i, s'.next ≤ i → s'.live i = none
  next : s.next ≤ s'.next
  low : ∀ e ∈ l, s.next ≤ e.1
  live : ∀ i, s'.live i = (l.lookup i).or (s.live i)
  member : s'.member = s.member
  heap : s'.world.heap = s.world.heap

theorem lookup_low {l : List (Nat × LibObj)} {n i : Nat} (h : ∀ e ∈ l, n ≤ e.1) (hi : i < n) : l.lookup i = none := by
  rw [List.lookup_eq_none_iff]
  intro e he
  have := h e he
  simp only [bne_iff_ne, ne_eq]
  omega

theorem got_refl {s : RWorld} (h : ∀ i, s.next ≤ i → s.live i = none) : Got s s [] :=
  ⟨h, h, Nat.le_refl _, by simp, by simp, rfl, rfl⟩

theorem Got.refl' {s s' : RWorld} {l : List (Nat × LibObj)} (h : Got s s' l) : Got s' s' [] := got_refl h.fresh'

theorem Got.trans {s s1 s2 : RWorld} {l l' : List (Nat × LibObj)} (h : Got s s1 l) (h' : Got s1 s2 l') : Got s s2 (l' ++ l) := by
  refine ⟨h.fresh, h'.fresh', Nat.le_trans h.next h'.next, ?_, ?_, h'.member.trans h.member, h'.heap.trans h.heap⟩
  · intro e he
    rcases List.mem_append.1 he with he | he
    · exact Nat.le_trans h.next (h'.low e he)
    · exact h.low e he
  · intro i
    rw [h'.live, h.live, List.lookup_append, Option.or_assoc]

/-- Objects stay. -/
theorem Got.stays {s s' : RWorld} {l : List (Nat × LibObj)} (h : Got s s' l) {i : Nat} {o : LibObj} (hi : s.live i = some o) : s'.live i = some o := by
  have : i < s.next := by
    rcases Nat.lt_or_ge i s.next with h1 | h1
    · exact h1
    · rw [h.fresh i h1] at hi; cases hi
  rw [h.live, lookup_low h.low this, hi]
  rfl

/-- An object that was added exists. -/
theorem Got.head {s s' : RWorld} {l : List (Nat × LibObj)} {i : Nat} {o : LibObj} (h : Got s s' ((i, o) :: l)) : s'.live i = some o := by
  rw [h.live]
  simp

/-- An object that was added can be destroyed. -/
theorem Got.free {s s1 s2 : RWorld} {l : List (Nat × LibObj)} {i : Nat} {k : ObjKind} (h : Got s s1 [(i, ⟨k, none⟩)]) (h' : Got s1 s2 l) :
    ∃ s3, freeObj (some i) s2 = .ok ((), s3) ∧ s3.world = s2.world ∧ Got s s3 l := by
  have h1 : s1.live i = some ⟨k, none⟩ := h.head
  have h2 := h'.stays h1
  have hi : s.next ≤ i := h.low (i, ⟨k, none⟩) (by simp)
  have hn : i < s1.next := by
    rcases Nat.lt_or_ge i s1.next with h3 | h3
    · exact h3
    · rw [h.fresh' i h3] at h1; cases h1
  refine ⟨{ s2 with live := setAt s2.live i none }, ?_, rfl, ?_⟩
  · simp only [freeObj]
    show (do let x ← destroyObj i s2; _ : Except UB (Unit × RWorld)) = _
    unfold destroyObj
    rw [h2]
    rfl
  · refine ⟨h.fresh, ?_, Nat.le_trans h.next h'.next, fun e he => Nat.le_trans h.next (h'.low e he), ?_, h'.member.trans h.member, h'.heap.trans h.heap⟩
    · intro j hj
      show setAt s2.live i none j = none
      unfold setAt
      split
      · rfl
      · exact h'.fresh' j hj
    · intro j
      show setAt s2.live i none j = _
      unfold setAt
      split
      · rename_i e
        rw [e, lookup_low h'.low hn, h.fresh i hi]
        rfl
      · rename_i e
        rw [h'.live, h.live]
        have : List.lookup j [(i, (⟨k, none⟩ : LibObj))] = none := by
          simp [List.lookup, beq_false_of_ne e]
        rw [this]
        rfl

/-! ## Simulation -/

/-- Started in `s`, the computation with objects gives what the one without gives; it ends with the objects of `s0` and those that `P` allows. -/
def Sim {α β : Type} (s0 s : RWorld) (m : B α) (mR : R β) (f : β → α) (P : β → List (Nat × LibObj) → Prop) : Prop :=
  match m s.world with
  | .error e => mR s = .error e
  | .ok (a, w) => ∃ b s' l, mR s = .ok (b, s') ∧ f b = a ∧ s'.world = w ∧ P b l ∧ Got s0 s' l

/-- What `P` allows in case of success; nothing in case of an error. -/
def OnOk {β : Type} (P : β → List (Nat × LibObj) → Prop) : Except N20Error β → List (Nat × LibObj) → Prop
  | .ok b, l => P b l
  | .error _, l => l = []

/-- The same for computations with error codes. -/
def SimE {α β : Type} (s0 s : RWorld) (m : BE α) (mR : RE β) (f : β → α) (P : β → List (Nat × LibObj) → Prop) : Prop :=
  Sim s0 s m.run mR.run (Except.map f) (OnOk P)

theorem sim_bind {α β γ δ : Type} {s0 s : RWorld} {m : B α} {mR : R β} {f : β → α} {P : β → List (Nat × LibObj) → Prop} {k : α → B γ} {kR : β → R δ}
    {g : δ → γ} {Q : δ → List (Nat × LibObj) → Prop} (h : Sim s0 s m mR f P)
    (hk : ∀ b s1 l, P b l → Got s0 s1 l → Sim s0 s1 (k (f b)) (kR b) g Q) : Sim s0 s (m >>= k) (mR >>= kR) g Q := by
  unfold Sim at h ⊢
  have e1 : (m >>= k) s.world = (do let x ← m s.world; k x.1 x.2 : Except UB _) := rfl
  have e2 : (mR >>= kR) s = (do let x ← mR s; kR x.1 x.2 : Except UB _) := rfl
  rw [e1, e2]
  cases hm : m s.world with
  | error e => rw [hm] at h; rw [show mR s = .error e from h]; rfl
  | ok r =>
    rw [hm] at h
    obtain ⟨b, s1, l, h1, h2, h3, h4, h5⟩ := h
    have := hk b s1 l h4 h5
    unfold Sim at this
    rw [h1]
    rw [h2, h3] at this
    exact this

theorem sim_pure {α β : Type} {s0 s : RWorld} {f : β → α} {P : β → List (Nat × LibObj) → Prop} {l : List (Nat × LibObj)} (a : α) (b : β) (h : f b = a)
    (hg : Got s0 s l) (hp : P b l) : Sim s0 s (Pure.pure a) (Pure.pure b) f P := ⟨b, s, l, rfl, h, rfl, hp, hg⟩

theorem sim_mono {α β : Type} {s0 s : RWorld} {m : B α} {mR : R β} {f : β → α} {P Q : β → List (Nat × LibObj) → Prop} (h : Sim s0 s m mR f P)
    (hq : ∀ b l, P b l → Q b l) : Sim s0 s m mR f Q := by
  unfold Sim at h ⊢
  cases hm : m s.world with
  | error e => rw [hm] at h; exact h
  | ok r =>
    rw [hm] at h
    obtain ⟨b, s1, l, h1, h2, h3, h4, h5⟩ := h
    exact ⟨b, s1, l, h1, h2, h3, hq b l h4, h5⟩

/-- Objects that were there before. -/
theorem sim_frame {α β : Type} {s0 s : RWorld} {m : B α} {mR : R β} {f : β → α} {P : β → List (Nat × LibObj) → Prop} {l0 : List (Nat × LibObj)}
    (hg : Got s0 s l0) (h : Sim s s m mR f P) : Sim s0 s m mR f (fun b l => ∃ l', P b l' ∧ l = l' ++ l0) := by
  unfold Sim at h ⊢
  cases hm : m s.world with
  | error e => rw [hm] at h; exact h
  | ok r =>
    rw [hm] at h
    obtain ⟨b, s1, l, h1, h2, h3, h4, h5⟩ := h
    exact ⟨b, s1, _, h1, h2, h3, ⟨l, h4, rfl⟩, hg.trans h5⟩

theorem sim_frame0 {α β : Type} {s0 s : RWorld} {m : B α} {mR : R β} {f : β → α} {P : β → List (Nat × LibObj) → Prop}
    (hg : Got s0 s []) (h : Sim s s m mR f P) : Sim s0 s m mR f P :=
  sim_mono (sim_frame hg h) fun b l ⟨l', h1, h2⟩ => by rw [h2, List.append_nil]; exact h1

theorem sim_use {α β : Type} {s0 s : RWorld} {m : B α} {kR : Unit → R β} {f : β → α} {P : β → List (Nat × LibObj) → Prop} {i : Nat} {o : LibObj}
    (hi : s.live i = some o) (h : Sim s0 s m (kR ()) f P) : Sim s0 s m (useObj (some i) >>= kR) f P := by
  have : (useObj (some i) >>= kR) s = kR () s := by
    show (do let x ← useObj (some i) s; kR x.1 x.2 : Except UB _) = _
    unfold useObj
    simp only [hi]
    rfl
  unfold Sim at h ⊢
  rw [this]
  exact h

theorem sim_lift {α : Type} {s0 s : RWorld} {m : B α} {l : List (Nat × LibObj)} (hk : KeepsHeap m) (hg : Got s0 s l) :
    Sim s0 s m (liftW m) id (fun _ l' => l' = l) := by
  unfold Sim
  cases hm : m s.world with
  | error e => simp only [liftW, hm]
  | ok r =>
    refine ⟨r.1, { s with world := r.2 }, l, by simp only [liftW, hm], rfl, rfl, rfl, ?_⟩
    exact ⟨hg.fresh, hg.fresh', hg.next, hg.low, hg.live, hg.member, (hk _ _ _ hm).trans hg.heap⟩

theorem got_calls {s0 s : RWorld} {l : List (Nat × LibObj)} (hg : Got s0 s l) (n : Nat) : Got s0 { s with world := { s.world with calls := n } } l :=
  ⟨hg.fresh, hg.fresh', hg.next, hg.low, hg.live, hg.member, hg.heap⟩

theorem got_new {s : RWorld} (hf : ∀ i, s.next ≤ i → s.live i = none) (k : ObjKind) (n : Nat) :
    Got s { s with world := { s.world with calls := n }, live := setAt s.live s.next (some ⟨k, none⟩), next := s.next + 1 } [(s.next, ⟨k, none⟩)] := by
  refine ⟨hf, ?_, Nat.le_succ _, by simp, ?_, rfl, rfl⟩
  · intro i hi
    show setAt s.live s.next _ i = none
    have h1 : s.next + 1 ≤ i := hi
    unfold setAt
    rw [if_neg (by omega)]
    exact hf i (by omega)
  · intro i
    show setAt s.live s.next _ i = _
    unfold setAt
    split
    · rename_i e
      simp [List.lookup, e]
    · rename_i e
      simp [List.lookup, beq_false_of_ne e]

/-- Either a new object or NULL. -/
theorem sim_new {s : RWorld} (lib : Lib) (k : ObjKind) (hf : ∀ i, s.next ≤ i → s.live i = none) :
    Sim s s (libCall lib) (newObj lib k) Option.isSome (fun p l => l = p.toList.map fun i => (i, ⟨k, none⟩)) := by
  unfold Sim libCall newObj
  simp only
  cases hfa : lib.fails s.world.calls with
  | true => exact ⟨_, _, [], rfl, rfl, rfl, rfl, got_calls (got_refl hf) _⟩
  | false => exact ⟨_, _, _, rfl, rfl, rfl, rfl, got_new hf k _⟩

theorem sim_scope {α β : Type} {s s1 : RWorld} {m : B α} {body : R β} {f : β → α} {P : β → List (Nat × LibObj) → Prop} {i : Nat} {k : ObjKind}
    (hg : Got s s1 [(i, ⟨k, none⟩)]) (h : Sim s1 s1 m body f P) : Sim s s1 m (scope (some i) body) f P := by
  have e2 : scope (some i) body s1 = (do let x ← body s1; let y ← freeObj (some i) x.2; .ok (x.1, y.2) : Except UB _) := rfl
  unfold Sim at h ⊢
  rw [e2]
  cases hm : m s1.world with
  | error e => rw [hm] at h; rw [show body s1 = .error e from h]; rfl
  | ok r =>
    rw [hm] at h
    obtain ⟨b, s2, l, h1, h2, h3, h4, h5⟩ := h
    obtain ⟨s3, h6, h7, h8⟩ := hg.free h5
    refine ⟨b, s3, l, ?_, h2, h7.trans h3, h4, h8⟩
    rw [h1]
    show (do let y ← freeObj (some i) s2; .ok (b, y.2) : Except UB _) = _
    rw [h6]
    rfl

/-! ### With error codes -/

theorem sim_bindE {α β γ δ : Type} {s0 s : RWorld} {m : BE α} {mR : RE β} {f : β → α} {P : β → List (Nat × LibObj) → Prop} {k : α → BE γ} {kR : β → RE δ}
    {g : δ → γ} {Q : δ → List (Nat × LibObj) → Prop} (h : SimE s0 s m mR f P)
    (hk : ∀ b s1 l, P b l → Got s0 s1 l → SimE s0 s1 (k (f b)) (kR b) g Q) : SimE s0 s (m >>= k) (mR >>= kR) g Q := by
  refine sim_bind (k := fun r => ExceptT.bindCont k r) (kR := fun r => ExceptT.bindCont kR r) h fun r s1 l hp hg => ?_
  cases r with
  | error e => exact sim_pure _ _ rfl hg hp
  | ok b => exact hk b s1 l hp hg

theorem sim_pureE {α β : Type} {s0 s : RWorld} {f : β → α} {P : β → List (Nat × LibObj) → Prop} {l : List (Nat × LibObj)} (a : α) (b : β) (h : f b = a)
    (hg : Got s0 s l) (hp : P b l) : SimE s0 s (Pure.pure a) (Pure.pure b) f P := ⟨.ok b, s, l, rfl, congrArg Except.ok h, rfl, hp, hg⟩

theorem sim_throwE {α β : Type} {s0 s : RWorld} {f : β → α} {P : β → List (Nat × LibObj) → Prop} (e : N20Error) (hg : Got s0 s []) :
    SimE s0 s (throw e) (throw e) f P := ⟨.error e, s, [], rfl, rfl, rfl, rfl, hg⟩

theorem sim_monoE {α β : Type} {s0 s : RWorld} {m : BE α} {mR : RE β} {f : β → α} {P Q : β → List (Nat × LibObj) → Prop} (h : SimE s0 s m mR f P)
    (hq : ∀ b l, P b l → Q b l) : SimE s0 s m mR f Q :=
  sim_mono h fun r l => by
    cases r with
    | error e => exact id
    | ok b => exact hq b l

theorem sim_useE {α β : Type} {s0 s : RWorld} {m : BE α} {kR : Unit → RE β} {f : β → α} {P : β → List (Nat × LibObj) → Prop} {i : Nat} {o : LibObj}
    (hi : s.live i = some o) (h : SimE s0 s m (kR ()) f P) : SimE s0 s m (useObjE i >>= kR) f P := by
  have : (useObjE i >>= kR).run s = (kR ()).run s := by
    show (do let x ← (do let y ← useObj (some i) s; .ok (.ok (), y.2) : Except UB (Except N20Error Unit × RWorld)); ExceptT.bindCont kR x.1 x.2 : Except UB _) = _
    unfold useObj
    simp only [hi]
    rfl
  unfold SimE Sim at h ⊢
  rw [this]
  exact h

theorem sim_liftE {α : Type} {s0 s : RWorld} {m : BE α} (hk : KeepsHeap m.run) (hg : Got s0 s []) :
    SimE s0 s m (liftE m) id (fun _ l' => l' = []) := by
  have h := sim_lift hk hg
  unfold SimE
  have e : (Except.map id : Except N20Error α → Except N20Error α) = id := by funext r; cases r <;> rfl
  rw [e]
  refine sim_mono h fun r l hl => ?_
  cases r <;> exact hl

/-- Either a new object or an error. -/
theorem sim_newE {s0 s : RWorld} (lib : Lib) (k : ObjKind) (e : N20Error) (hg : Got s0 s []) :
    SimE s0 s (need lib e) (newObjE lib k e) (fun _ => ()) (fun i l => l = [(i, ⟨k, none⟩)]) := by
  refine sim_frame0 hg ?_
  have e1 : (newObjE lib k e).run s = (do
    let x ← newObj lib k s
    match x.1 with
    | none => .ok (.error e, x.2)
    | some i => .ok (.ok i, x.2) : Except UB (Except N20Error Nat × RWorld)) := by
    show (do let x ← newObj lib k s; _ : Except UB (Except N20Error Nat × RWorld)) = _
    unfold newObj
    cases lib.fails s.world.calls <;> rfl
  unfold Sim
  rw [e1]
  have e2 : (need lib e).run s.world = .ok (if lib.fails s.world.calls then .error e else .ok (), { s.world with calls := s.world.calls + 1 }) := rfl
  rw [e2]
  unfold newObj
  cases hfa : lib.fails s.world.calls with
  | true => exact ⟨.error e, _, [], rfl, rfl, rfl, rfl, got_calls hg.refl' _⟩
  | false => exact ⟨.ok s.next, _, _, rfl, rfl, rfl, rfl, got_new hg.fresh' k _⟩

theorem sim_scopeE {α β : Type} {s s1 : RWorld} {m : BE α} {body : RE β} {f : β → α} {P : β → List (Nat × LibObj) → Prop} {i : Nat} {k : ObjKind}
    (hg : Got s s1 [(i, ⟨k, none⟩)]) (h : SimE s1 s1 m body f P) : SimE s s1 m (scopeE (some i) body) f P := sim_scope hg h

/-- The object stays in case of success. -/
theorem sim_scopeMove {α β : Type} {s s1 : RWorld} {m : BE α} {body : RE β} {f : β → α} {P : β → List (Nat × LibObj) → Prop} {i : Nat} {k : ObjKind}
    (hg : Got s s1 [(i, ⟨k, none⟩)]) (h : SimE s1 s1 m body f P) :
    SimE s s1 m (scopeMove (some i) body) f (fun b l => ∃ l', P b l' ∧ l = l' ++ [(i, ⟨k, none⟩)]) := by
  have e2 : (scopeMove (some i) body).run s1 = (do
    let x ← body.run s1
    match x.1 with
    | .error e => do
      let y ← freeObj (some i) x.2
      .ok (.error e, y.2)
    | .ok a => .ok (.ok a, x.2) : Except UB (Except N20Error β × RWorld)) := by
    show (do let x ← body.run s1; _ : Except UB (Except N20Error β × RWorld)) = _
    cases body.run s1 with
    | error e => rfl
    | ok r =>
      obtain ⟨r, s2⟩ := r
      cases r <;> rfl
  unfold SimE Sim at h ⊢
  rw [e2]
  cases hm : m.run s1.world with
  | error e => rw [hm] at h; rw [show body.run s1 = .error e from h]; rfl
  | ok r =>
    rw [hm] at h
    obtain ⟨b, s2, l, h1, h2, h3, h4, h5⟩ := h
    rw [h1]
    cases b with
    | ok b => exact ⟨.ok b, s2, l ++ [(i, ⟨k, none⟩)], rfl, h2, h3, ⟨l, h4, rfl⟩, hg.trans h5⟩
    | error e =>
      cases h4
      obtain ⟨s3, h6, h7, h8⟩ := hg.free h5
      refine ⟨.error e, s3, [], ?_, h2, h7.trans h3, rfl, h8⟩
      show (do let y ← freeObj (some i) s2; .ok (.error e, y.2) : Except UB (Except N20Error β × RWorld)) = _
      rw [h6]
      rfl

/-! ## The functions -/

theorem sim_error {α β : Type} {s0 s : RWorld} {f : β → α} {P : β → List (Nat × LibObj) → Prop} (e : UB) :
    Sim s0 s (fun _ => .error e) (fun _ => .error e) f P := rfl

theorem sim_digestMessage (lib : Lib) (a : Alg) (msg : Option (List GatherList)) (count : UInt64) (d : Bytes) (sz : UInt64) {s : RWorld}
    (hf : ∀ i, s.next ≤ i → s.live i = none) :
    Sim s s (bsslDigestMessage lib a msg count d sz) (bsslDigestMessageR lib a msg count d sz) id (fun _ l => l = []) := by
  unfold bsslDigestMessage bsslDigestMessageR
  match msg with
  | none => exact sim_pure _ _ rfl (got_refl hf) rfl
  | some [] => exact sim_error _
  | some (g :: gs) =>
    simp only
    by_cases hg : g.count ≠ 0 ∧ g.list = none
    · rw [if_pos hg, if_pos hg]
      exact sim_pure _ _ rfl (got_refl hf) rfl
    · rw [if_neg hg, if_neg hg]
      refine sim_bind (sim_new lib .mdCtx hf) fun p s1 l hl h1 => ?_
      cases p with
      | none => exact sim_error _
      | some i =>
        subst hl
        refine sim_scope h1 (sim_use h1.head ?_)
        refine sim_bind (sim_lift (keeps_call lib) h1.refl') fun init s2 l hl h2 => ?_
        subst hl
        simp only [id]
        split
        · exact sim_pure _ _ rfl h2 rfl
        · exact sim_use (h2.stays h1.head) (sim_lift (keeps_lift _) h2)

theorem sim_digest (lib : Lib) (ctx : Option Unit) (alg : UInt32) (msg : Option (List GatherList)) (count : UInt64) (out : Option Bytes) (size : Option UInt64)
    {s : RWorld} (hf : ∀ i, s.next ≤ i → s.live i = none) :
    Sim s s (bsslDigest lib ctx alg msg count out size) (bsslDigestR lib ctx alg msg count out size) id (fun _ l => l = []) := by
  have triv : ∀ r : Reply, Sim s s (Pure.pure r) (Pure.pure r) id (fun _ l => l = []) := fun r => sim_pure r r rfl (got_refl hf) rfl
  unfold bsslDigest bsslDigestR
  cases ctx with
  | none => exact triv _
  | some _ =>
    simp only
    cases hb : bsslMd alg with
    | none => exact triv _
    | some a =>
      cases size with
      | none => exact triv _
      | some sz =>
        cases out with
        | none => exact triv _
        | some d =>
          simp only
          split
          · exact triv _
          · exact sim_digestMessage lib a msg count d sz hf

theorem sim_hmacMessage (lib : Lib) (a : Alg) (key : Slice) (msg : Option GatherList) (d : Bytes) (sz : UInt64) {s : RWorld}
    (hf : ∀ i, s.next ≤ i → s.live i = none) {i : Nat} {o : LibObj} (hi : s.live i = some o) :
    Sim s s (bsslHmacMessage lib a key msg d sz) (bsslHmacMessageR lib (some i) a key msg d sz) id (fun _ l => l = []) := by
  unfold bsslHmacMessage bsslHmacMessageR
  cases msg with
  | none => exact sim_pure _ _ rfl (got_refl hf) rfl
  | some g =>
    simp only
    by_cases hg : g.count ≠ 0 ∧ g.list = none
    · rw [if_pos hg, if_pos hg]
      exact sim_pure _ _ rfl (got_refl hf) rfl
    · rw [if_neg hg, if_neg hg]
      refine sim_bind (sim_lift (keeps_lift _) (got_refl hf)) fun k s1 l hl h1 => ?_
      subst hl
      refine sim_use (h1.stays hi) (sim_bind (sim_lift (keeps_call lib) h1) fun init s2 l hl h2 => ?_)
      subst hl
      simp only [id]
      split
      · exact sim_pure _ _ rfl h2 rfl
      · refine sim_bind (sim_lift (keeps_lift _) h2) fun r s3 l hl h3 => ?_
        subst hl
        simp only [id]
        split
        · exact sim_use (h3.stays hi) (sim_lift (keeps_hmacFinal _ _ _ _ _ _) h3)
        · exact sim_pure _ _ rfl h3 rfl

theorem sim_hmac (lib : Lib) (ctx : Option Unit) (alg : UInt32) (key : Slice) (msg : Option GatherList) (out : Option Bytes) (size : Option UInt64)
    {s : RWorld} (hf : ∀ i, s.next ≤ i → s.live i = none) :
    Sim s s (bsslHmac lib ctx alg key msg out size) (bsslHmacR lib ctx alg key msg out size) id (fun _ l => l = []) := by
  unfold bsslHmac bsslHmacR
  cases ctx with
  | none => exact sim_pure _ _ rfl (got_refl hf) rfl
  | some _ =>
    cases size with
    | none => exact sim_pure _ _ rfl (got_refl hf) rfl
    | some sz =>
      refine sim_bind (sim_new lib .hmacCtx hf) fun p s1 l hl h1 => ?_
      subst hl
      cases p with
      | none => exact sim_pure _ _ rfl h1 rfl
      | some i =>
        simp only [Option.isSome_some, Bool.true_eq_false, if_false, reduceCtorEq]
        refine sim_scope h1 ?_
        unfold bsslHmacRestR
        have triv : ∀ r : Reply, Sim s1 s1 (Pure.pure r) (Pure.pure r) id (fun _ l => l = []) := fun r => sim_pure r r rfl h1.refl' rfl
        cases bsslMd alg with
        | none => exact triv _
        | some a =>
          simp only
          by_cases hk : key.buffer = none ∧ key.size ≠ 0
          · rw [if_pos hk, if_pos hk]; exact triv _
          · rw [if_neg hk, if_neg hk]
            cases out with
            | none => exact triv _
            | some d =>
              simp only
              split
              · exact triv _
              · exact sim_hmacMessage lib a key msg d sz h1.fresh' h1.head

theorem sim_reduce (lib : Lib) (rlen h1 q : Nat) {s : RWorld} (hf : ∀ i, s.next ≤ i → s.live i = none) {b1 : Nat} {o : LibObj} (hb : s.live b1 = some o) :
    SimE s s (do
      need lib .noResources
      need lib .noResources
      let h2 : Int := (h1 : Int) - (q : Int)
      if h2 < 0 then bnPadded lib rlen h1 else bnPadded lib rlen h2.toNat) (rfcReduceR lib b1 rlen h1 q) id (fun _ l => l = []) := by
  unfold rfcReduceR
  refine sim_bindE (sim_newE lib .bignum _ (got_refl hf)) fun b2 s1 l hl g1 => ?_
  subst hl
  refine sim_scopeE g1 (sim_useE (g1.stays hb) (sim_useE g1.head ?_))
  refine sim_bindE (sim_liftE (keeps_need _ _) g1.refl') fun _ s2 l hl g2 => ?_
  subst hl
  simp only
  split
  · exact sim_useE (g2.stays (g1.stays hb)) (sim_liftE (keeps_padded _ _ _) g2)
  · exact sim_useE (g2.stays g1.head) (sim_liftE (keeps_padded _ _ _) g2)

theorem sim_h1 (lib : Lib) (a : Alg) (m : Bytes) (q : Nat) {s : RWorld} (hf : ∀ i, s.next ≤ i → s.live i = none) :
    SimE s s (rfcH1 lib a m q) (rfcH1R lib a m q) id (fun _ l => l = []) := by
  unfold rfcH1 rfcH1R
  refine sim_bindE (sim_liftE (keeps_need _ _) (got_refl hf)) fun _ s1 l hl g1 => ?_
  subst hl
  refine sim_bindE (sim_newE lib .bignum _ g1) fun b1 s2 l hl g2 => ?_
  subst hl
  refine sim_scopeE g2 (sim_useE g2.head ?_)
  refine sim_bindE (sim_liftE (keeps_shift _ _ _ _) g2.refl') fun h1 s3 l hl g3 => ?_
  subst hl
  exact sim_frame0 g3 (sim_reduce lib _ h1 q g3.fresh' (g3.stays g2.head))

theorem sim_optH1 (lib : Lib) (a : Alg) (m : Option Bytes) (q : Nat) {s : RWorld} (hf : ∀ i, s.next ≤ i → s.live i = none) :
    SimE s s (rfcOptH1 lib a m q) (rfcOptH1R lib a m q) id (fun _ l => l = []) := by
  unfold rfcOptH1 rfcOptH1R
  cases m with
  | none => exact sim_pureE _ _ rfl (got_refl hf) rfl
  | some m => exact sim_h1 lib a m q hf

/-- The candidate of an iteration. -/
def candObj (k : Option Nat) : List (Nat × LibObj) := k.toList.map fun i => (i, ⟨.bignum, none⟩)

/-- As `sim_scopeMove`, with or without an object. -/
theorem sim_scopeOpt {α β : Type} {s s1 : RWorld} {m : BE α} {body : RE β} {f : β → α} {k : Option Nat} (hg : Got s s1 (candObj k))
    (h : SimE s1 s1 m body f (fun _ l => l = [])) : SimE s s1 m (scopeMove k body) f (fun _ l => l = candObj k) := by
  cases k with
  | some i => exact sim_monoE (sim_scopeMove hg h) fun b l ⟨l', h1, h2⟩ => by rw [h2, h1]; rfl
  | none =>
    have e : (scopeMove none body).run = body.run := by
      show (do let r ← body.run; _ : R (Except N20Error β)) = _
      conv => rhs; rw [← bind_pure body.run]
      refine bind_congr fun r => ?_
      cases r <;> rfl
    unfold SimE
    rw [e]
    refine sim_mono (sim_frame0 hg h) fun r l hl => ?_
    cases r <;> exact hl

theorem run_liftE {α β : Type} {m : R α} {kR : α → RE β} {s s1 : RWorld} {a : α} (h : m s = .ok (a, s1)) :
    ((ExceptT.lift m : RE α) >>= kR).run s = (kR a).run s1 := by
  show (do let x ← (do let y ← m s; .ok (.ok y.1, y.2) : Except UB (Except N20Error α × RWorld)); ExceptT.bindCont kR x.1 x.2 : Except UB _) = _
  rw [h]
  rfl

theorem newObj_cases (lib : Lib) (k : ObjKind) (s : RWorld) (hf : ∀ i, s.next ≤ i → s.live i = none) :
    (lib.fails s.world.calls = true ∧ ∃ s1, newObj lib k s = .ok (none, s1) ∧ s1.world = { s.world with calls := s.world.calls + 1 } ∧ Got s s1 []) ∨
    (lib.fails s.world.calls = false ∧ ∃ i s1, newObj lib k s = .ok (some i, s1) ∧ s1.world = { s.world with calls := s.world.calls + 1 } ∧ Got s s1 [(i, ⟨k, none⟩)]) := by
  unfold newObj
  cases hfa : lib.fails s.world.calls with
  | true => exact .inl ⟨rfl, _, rfl, rfl, got_calls (got_refl hf) _⟩
  | false => exact .inr ⟨rfl, _, _, rfl, rfl, got_new hf k _⟩

/-- A new candidate takes the place of the previous one. -/
theorem sim_assign {α β : Type} {s0 s : RWorld} (lib : Lib) {k : Option Nat} (hg : Got s0 s (candObj k)) {m : BE α} {kR : Nat → RE β} {f : β → α}
    {P : β → List (Nat × LibObj) → Prop} (h : ∀ i s1, Got s0 s1 [(i, ⟨.bignum, none⟩)] → SimE s0 s1 m (kR i) f P) :
    SimE s0 s (need lib .noResources >>= fun _ => m) (do
      let new ← (ExceptT.lift (newObj lib .bignum) : RE _)
      (ExceptT.lift (freeObj k) : RE _)
      match new with
      | none => throw .noResources
      | some i => kR i) f P := by
  have free : ∀ s1 l, Got s s1 l → ∃ s3, freeObj k s1 = .ok ((), s3) ∧ s3.world = s1.world ∧ Got s0 s3 l := by
    intro s1 l h1
    cases k with
    | none => exact ⟨s1, rfl, rfl, by have := hg.trans h1; rwa [show candObj none = [] from rfl, List.append_nil] at this⟩
    | some i => exact hg.free h1
  have e1 : (need lib .noResources >>= fun _ => m : BE α).run s.world =
      if lib.fails s.world.calls then .ok (.error .noResources, { s.world with calls := s.world.calls + 1 }) else m.run { s.world with calls := s.world.calls + 1 } := by
    show (do let x ← need lib .noResources s.world; ExceptT.bindCont (fun _ => m) x.1 x.2 : Except UB _) = _
    unfold need
    cases lib.fails s.world.calls <;> rfl
  unfold SimE Sim
  rw [e1]
  rcases newObj_cases lib .bignum s hg.fresh' with ⟨hfa, s1, hn, hw, g1⟩ | ⟨hfa, i, s1, hn, hw, g1⟩
  · obtain ⟨s3, h1, h2, h3⟩ := free s1 [] g1
    rw [run_liftE hn, run_liftE h1, if_pos hfa]
    exact ⟨.error .noResources, s3, [], rfl, rfl, h2.trans hw, rfl, h3⟩
  · obtain ⟨s3, h1, h2, h3⟩ := free s1 _ g1
    rw [run_liftE hn, run_liftE h1, if_neg (by rw [hfa]; simp)]
    have := h i s3 h3
    unfold SimE Sim at this
    rw [h2, hw] at this
    exact this

theorem loop_again (lib : Lib) (a : Alg) (q fuel : Nat) (K V : Bytes) :
    (do
      let K' ← rfcUpdateK lib a K V 0 []
      let V' ← rfcUpdateV lib a K' V
      rfcLoop lib a q fuel K' V' : BE Nat) =
    (do
      let KV ← (do
        let K' ← rfcUpdateK lib a K V 0 []
        let V' ← rfcUpdateV lib a K' V
        return (K', V'))
      rfcLoop lib a q fuel KV.1 KV.2) := by
  simp only [bind_assoc, pure_bind]

theorem sim_loop (lib : Lib) (a : Alg) (q ctx : Nat) (o : LibObj) : ∀ (fuel : Nat) (k : Option Nat) (K V : Bytes) (s0 s : RWorld), s0.live ctx = some o →
    Got s0 s (candObj k) → SimE s0 s (rfcLoop lib a q fuel K V) (rfcLoopR lib ctx a q fuel k K V) Prod.fst (fun b l => l = [(b.2, ⟨.bignum, none⟩)]) := by
  intro fuel
  induction fuel with
  | zero => intro k K V s0 s _ _; exact sim_error _
  | succ fuel ih =>
    intro k K V s0 s hc hg
    rw [rfcLoop, rfcLoopR]
    refine sim_bindE (sim_scopeOpt hg (sim_liftE (keeps_T _ _ _ _ _ _) hg.refl')) fun r s1 l hl g1 => ?_
    subst hl
    refine sim_assign lib g1 fun i s2 g2 => ?_
    have hn : SimE s2 s2 (need lib .noResources) (do useObjE i; liftE (need lib .noResources)) id (fun _ l => l = []) :=
      sim_useE g2.head (sim_liftE (keeps_need _ _) g2.refl')
    refine sim_bindE (sim_scopeMove g2 hn) fun _ s3 l hl g3 => ?_
    obtain ⟨l', rfl, rfl⟩ := hl
    simp only [id]
    split
    · exact sim_pureE _ _ rfl g3 rfl
    · rw [loop_again]
      have ha : SimE s3 s3 (do
          let K' ← rfcUpdateK lib a K r.1 0 []
          let V' ← rfcUpdateV lib a K' r.1
          return (K', V')) (rfcAgainR lib ctx a K r.1) id (fun _ l => l = []) := by
        unfold rfcAgainR
        refine sim_useE (g3.stays hc) (sim_bindE (sim_liftE (keeps_updateK _ _ _ _ _ _) g3.refl') fun K' s4 l hl g4 => ?_)
        subst hl
        refine sim_bindE (sim_liftE (keeps_updateV _ _ _ _) g4) fun V' s5 l hl g5 => ?_
        subst hl
        exact sim_pureE _ _ rfl g5 rfl
      refine sim_bindE (sim_scopeMove g3 ha) fun KV s4 l hl g4 => ?_
      obtain ⟨l', rfl, rfl⟩ := hl
      exact ih (some i) KV.1 KV.2 s0 s4 hc g4

theorem sim_rfc6979 (lib : Lib) (x : Bytes) (m : Option Bytes) (alg : UInt32) (q : Nat) {s : RWorld} (hf : ∀ i, s.next ≤ i → s.live i = none) :
    SimE s s (rfc6979 lib x m alg q) (rfc6979R lib x m alg q) Prod.fst (fun b l => l = [(b.2, ⟨.bignum, none⟩)]) := by
  unfold rfc6979 rfc6979R
  cases bsslMd alg with
  | none => exact sim_throwE _ (got_refl hf)
  | some a =>
    refine sim_bindE (sim_optH1 lib a m q hf) fun h1 s1 l hl g1 => ?_
    subst hl
    refine sim_bindE (sim_newE lib .hmacCtx _ g1) fun ctx s2 l hl g2 => ?_
    subst hl
    refine sim_scopeE g2 (sim_useE g2.head ?_)
    refine sim_bindE (sim_liftE (keeps_seed _ _ _ _ _ _) g2.refl') fun r s3 l hl g3 => ?_
    subst hl
    exact sim_loop lib a q ctx _ lib.patience none r.1 r.2 s2 s3 g2.head g3

/-- The objects that a new key object needs. -/
inductive NeedsObjs : Bytes ⊕ PKey → Option Nat → List (Nat × LibObj) → Prop where
  | cdi (bits : Bytes) : NeedsObjs (.inl bits) none []
  | ed25519 (seed : Bytes) (i : Nat) : NeedsObjs (.inr (.ed25519 seed)) (some i) [(i, ⟨.pkey, none⟩)]
  | ec (c : Curve) (d i j : Nat) : i ≠ j → NeedsObjs (.inr (.ec c d)) (some i) [(i, ⟨.pkey, some j⟩), (j, ⟨.ecKey, none⟩)]

theorem got_assign {s s' : RWorld} {i j : Nat} {o : LibObj} (h : Got s s' [(i, o)]) (v : LibObj) : Got s { s' with live := setAt s'.live i (some v) } [(i, v)] := by
  have hi : i < s'.next := by
    rcases Nat.lt_or_ge i s'.next with h1 | h1
    · exact h1
    · have := h.fresh' i h1; rw [h.head] at this; cases this
  refine ⟨h.fresh, ?_, h.next, ?_, ?_, h.member, h.heap⟩
  · intro n hn
    have h1 : s'.next ≤ n := hn
    show setAt s'.live i _ n = none
    unfold setAt
    rw [if_neg (by omega)]
    exact h.fresh' n h1
  · intro e he
    simp only [List.mem_singleton] at he
    subst he
    exact h.low (i, o) (by simp)
  · intro n
    show setAt s'.live i _ n = _
    unfold setAt
    split
    · rename_i e
      simp [List.lookup, e]
    · rename_i e
      rw [h.live]
      simp [List.lookup, beq_false_of_ne e]

theorem sim_ecKey (lib : Lib) (type : UInt32) (c : Curve) (d : Nat) (k point : Nat) {s : RWorld} (hf : ∀ i, s.next ≤ i → s.live i = none) {o o' : LibObj}
    (hk : s.live k = some o) (hp : s.live point = some o') :
    SimE s s (do
      need lib .noResources
      need lib .implementationSpecific
      need lib .implementationSpecific
      need lib .implementationSpecific
      need lib .noResources
      return ⟨type, .inr (.ec c d)⟩) (ecKeyR lib ⟨type, .inr (.ec c d)⟩ k point) Prod.fst (fun b l => NeedsObjs b.1.body b.2 l) := by
  unfold ecKeyR
  refine sim_bindE (sim_newE lib .ecKey _ (got_refl hf)) fun ec s1 l hl g1 => ?_
  subst hl
  refine sim_monoE (P := fun b l => ∃ l', (∃ i, b.1.body = .inr (.ec c d) ∧ b.2 = some i ∧ i ≠ ec ∧ l' = [(i, ⟨.pkey, some ec⟩)]) ∧ l = l' ++ [(ec, ⟨.ecKey, none⟩)])
    (sim_scopeMove g1 ?_) ?_
  · refine sim_useE g1.head ?_
    refine sim_bindE (sim_liftE (keeps_need _ _) g1.refl') fun _ s2 l hl g2 => ?_
    subst hl
    refine sim_useE (g2.stays (g1.stays hk)) ?_
    refine sim_bindE (sim_liftE (keeps_need _ _) g2) fun _ s3 l hl g3 => ?_
    subst hl
    refine sim_useE (g3.stays (g1.stays hp)) ?_
    refine sim_bindE (sim_liftE (keeps_need _ _) g3) fun _ s4 l hl g4 => ?_
    subst hl
    refine sim_bindE (sim_newE lib .pkey _ g4) fun i s5 l hl g5 => ?_
    subst hl
    have h1 : s5.live i = some ⟨.pkey, none⟩ := g5.head
    have h2 : s5.live ec = some ⟨.ecKey, none⟩ := g5.stays g1.head
    have hne : i ≠ ec := by
      intro e
      rw [e, h2] at h1
      cases h1
    refine ⟨.ok (⟨type, .inr (.ec c d)⟩, some i), { s5 with live := setAt s5.live i (some ⟨.pkey, some ec⟩) }, _, ?_, rfl, rfl, ⟨i, rfl, rfl, hne, rfl⟩,
      got_assign (j := ec) g5 _⟩
    show (do let x ← assignEcKey i ec s5; _ : Except UB _) = _
    unfold assignEcKey
    rw [h1, h2]
    rfl
  · rintro ⟨⟨t, b⟩, m⟩ l ⟨l', ⟨i, rfl, rfl, hne, rfl⟩, rfl⟩
    exact .ec c d i ec hne

theorem sim_ecPair (lib : Lib) (type : UInt32) (c : Curve) (d : Nat) (k : Nat) {s : RWorld} (hf : ∀ i, s.next ≤ i → s.live i = none) {o : LibObj}
    (hk : s.live k = some o) :
    SimE s s (do
      need lib .noResources
      need lib .implementationSpecific
      need lib .noResources
      need lib .implementationSpecific
      need lib .implementationSpecific
      need lib .implementationSpecific
      need lib .noResources
      return ⟨type, .inr (.ec c d)⟩) (ecPairR lib ⟨type, .inr (.ec c d)⟩ k) Prod.fst (fun b l => NeedsObjs b.1.body b.2 l) := by
  unfold ecPairR
  refine sim_bindE (sim_newE lib .ecPoint _ (got_refl hf)) fun point s1 l hl g1 => ?_
  subst hl
  refine sim_scopeE g1 (sim_useE g1.head (sim_useE (g1.stays hk) ?_))
  refine sim_bindE (sim_liftE (keeps_need _ _) g1.refl') fun _ s2 l hl g2 => ?_
  subst hl
  exact sim_frame0 g2 (sim_ecKey lib type c d k point g2.fresh' (g2.stays (g1.stays hk)) (g2.stays g1.head))

theorem sim_makeKey (lib : Lib) (type : UInt32) (derived : Bytes) {s : RWorld} (hf : ∀ i, s.next ≤ i → s.live i = none) :
    SimE s s (bsslMakeKey lib type derived) (bsslMakeKeyR lib type derived) Prod.fst (fun b l => NeedsObjs b.1.body b.2 l) := by
  unfold bsslMakeKey bsslMakeKeyR
  split
  · refine sim_bindE (sim_newE lib .pkey _ (got_refl hf)) fun i s1 l hl g1 => ?_
    subst hl
    exact sim_pureE _ _ rfl g1 (.ed25519 _ _)
  · split
    · exact sim_pureE _ _ rfl (got_refl hf) (.cdi _)
    · split
      · unfold bsslEcKey bsslEcKeyR
        refine sim_bindE (sim_liftE (keeps_need _ _) (got_refl hf)) fun _ s1 l hl g1 => ?_
        subst hl
        refine sim_bindE (sim_frame0 g1 (sim_rfc6979 lib derived none 3 _ g1.fresh')) fun r s2 l hl g2 => ?_
        have hl' : l = [(r.2, ⟨.bignum, none⟩)] := hl
        subst hl'
        exact sim_scopeE g2 (sim_ecPair lib type _ r.1 r.2 g2.fresh' g2.head)
      · exact sim_throwE _ (got_refl hf)

theorem sim_kdfKey (lib : Lib) (bits : Bytes) (type : UInt32) (context : Option GatherList) {s : RWorld} (hf : ∀ i, s.next ≤ i → s.live i = none) :
    SimE s s (bsslKdfKey lib bits type context) (bsslKdfKeyR lib bits type context) Prod.fst (fun b l => NeedsObjs b.1.body b.2 l) := by
  unfold bsslKdfKey bsslKdfKeyR
  refine sim_bindE (sim_liftE (keeps_derive _ _ _) (got_refl hf)) fun derived s1 l hl g1 => ?_
  subst hl
  exact sim_frame0 g1 (sim_makeKey lib type derived g1.fresh')

theorem sim_signRun (lib : Lib) (m : Nat) (type : UInt32) (key : PKey) (msg : Option GatherList) (out : Option Bytes) (sz : UInt64) {s : RWorld}
    (hf : ∀ i, s.next ≤ i → s.live i = none) {o : LibObj} (hm : s.live m = some o) :
    Sim s s (bsslSignRun lib type key msg out sz) (bsslSignRunR lib (some m) type key msg out sz) id (fun _ l => l = []) := by
  unfold bsslSignRun bsslSignRunR
  refine sim_bind (sim_new lib .mdCtx hf) fun p s1 l hl h1 => ?_
  subst hl
  cases p with
  | none => exact sim_pure _ _ rfl h1 rfl
  | some i =>
    simp only [Option.isSome_some, Bool.true_eq_false, if_false, reduceCtorEq]
    refine sim_scope h1 ?_
    unfold bsslSignRestR
    have triv : ∀ r : Reply, Sim s1 s1 (Pure.pure r) (Pure.pure r) id (fun _ l => l = []) := fun r => sim_pure r r rfl h1.refl' rfl
    cases signatureSize type with
    | none => exact triv _
    | some n =>
      cases out with
      | none => exact triv _
      | some d =>
        simp only
        split
        · exact triv _
        · refine sim_use h1.head (sim_use (h1.stays hm) ?_)
          split
          · exact sim_lift (keeps_edSign _ _ _ _ _) h1.refl'
          · split
            · exact sim_lift (keeps_ecSign _ _ _ _ _ _ _) h1.refl'
            · exact sim_lift (keeps_ecSign _ _ _ _ _ _ _) h1.refl'

theorem sim_ecPublicKey (lib : Lib) (m : Nat) (type : UInt32) (c : Curve) (x : Nat) (n : UInt64) (d : Bytes) (sz : UInt64) {s : RWorld}
    (hf : ∀ i, s.next ≤ i → s.live i = none) {o : LibObj} (hm : s.live m = some o) :
    Sim s s (ecPublicKey lib type c x n d sz) (ecPublicKeyR lib (some m) type c x n d sz) id (fun _ l => l = []) := by
  unfold ecPublicKey ecPublicKeyR
  by_cases ht : type ≠ 1 ∧ type ≠ 2
  · rw [if_pos ht, if_pos ht]; exact sim_pure _ _ rfl (got_refl hf) rfl
  · rw [if_neg ht, if_neg ht]
    refine sim_use hm (sim_bind (sim_new lib .buffer hf) fun p s1 l hl h1 => ?_)
    subst hl
    cases p with
    | none => exact sim_pure _ _ rfl h1 rfl
    | some i =>
      simp only [Option.isSome_some, Bool.true_eq_false, if_false, reduceCtorEq]
      exact sim_scope h1 (sim_use h1.head (sim_lift (keeps_copy _ _ _) h1.refl'))

theorem sim_edPublicKey (lib : Lib) (m : Nat) (type : UInt32) (seed d : Bytes) (sz : UInt64) {s : RWorld}
    (hf : ∀ i, s.next ≤ i → s.live i = none) {o : LibObj} (hm : s.live m = some o) :
    Sim s s (edPublicKey lib type seed d sz) (edPublicKeyR lib (some m) type seed d sz) id (fun _ l => l = []) := by
  unfold edPublicKeyR
  exact sim_use hm (sim_lift (keeps_edPublicKey _ _ _ _ _) (got_refl hf))

end Nat20
