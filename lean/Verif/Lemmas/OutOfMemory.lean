import Verif.Lemmas.Resources
import Verif.Spec.OutOfMemory
/-!
# Lemmas about exceptions
-/

namespace Nat20

open Fips

/-- Started in `s`, a computation that may throw ends in the way of the one that does not, or it throws because memory is short; in this case, and in that of an
error, the objects are those of `s0`. -/
def SimX {α β : Type} (mem : AllocOk) (s0 s : RWorld) (m : BE α) (mX : XE β) (f : β → α) (P : β → List (Nat × LibObj) → Prop) : Prop :=
  match mX.run s with
  | .error u => m.run s.world = .error u
  | .ok (.error .badAlloc, s') => mem.Short ∧ Got s0 s' []
  | .ok (.error (.code e), s') => m.run s.world = .ok (.error e, s'.world) ∧ Got s0 s' []
  | .ok (.ok b, s') => ∃ l, m.run s.world = .ok (.ok (f b), s'.world) ∧ P b l ∧ Got s0 s' l

theorem run_bindX {α β : Type} (m : XE α) (k : α → XE β) (s : RWorld) :
    (m >>= k).run s = (do let x ← m.run s; ExceptT.bindCont k x.1 x.2 : Except UB _) := rfl

theorem run_bindB {α β : Type} (m : BE α) (k : α → BE β) (w : World) :
    (m >>= k).run w = (do let x ← m.run w; ExceptT.bindCont k x.1 x.2 : Except UB _) := rfl

theorem simX_bind {α β γ δ : Type} {mem : AllocOk} {s0 s : RWorld} {m : BE α} {mX : XE β} {f : β → α} {P : β → List (Nat × LibObj) → Prop} {k : α → BE γ}
    {kX : β → XE δ} {g : δ → γ} {Q : δ → List (Nat × LibObj) → Prop} (h : SimX mem s0 s m mX f P)
    (hk : ∀ b s1 l, P b l → Got s0 s1 l → SimX mem s0 s1 (k (f b)) (kX b) g Q) : SimX mem s0 s (m >>= k) (mX >>= kX) g Q := by
  unfold SimX at h ⊢
  rw [run_bindX, run_bindB]
  cases hm : mX.run s with
  | error u =>
    rw [hm] at h
    show (do let x ← m.run s.world; _ : Except UB _) = _
    rw [show m.run s.world = .error u from h]; rfl
  | ok r =>
    obtain ⟨r, s1⟩ := r
    rw [hm] at h
    cases r with
    | error e =>
      cases e with
      | badAlloc => exact h
      | code e =>
        obtain ⟨h1, h2⟩ := h
        refine ⟨?_, h2⟩
        show (do let x ← m.run s.world; _ : Except UB _) = _
        rw [h1]; rfl
    | ok b =>
      obtain ⟨l, h1, h2, h3⟩ := h
      have := hk b s1 l h2 h3
      unfold SimX at this
      rw [h1]
      exact this

theorem simX_pure {α β : Type} {mem : AllocOk} {s0 s : RWorld} {f : β → α} {P : β → List (Nat × LibObj) → Prop} {l : List (Nat × LibObj)} (a : α) (b : β)
    (h : f b = a) (hg : Got s0 s l) (hp : P b l) : SimX mem s0 s (Pure.pure a) (Pure.pure b) f P := ⟨l, h ▸ rfl, hp, hg⟩

theorem simX_throw {α β : Type} {mem : AllocOk} {s0 s : RWorld} {f : β → α} {P : β → List (Nat × LibObj) → Prop} (e : N20Error) (hg : Got s0 s []) :
    SimX mem s0 s (throw e) (throw (.code e)) f P := ⟨rfl, hg⟩

theorem simX_mono {α β : Type} {mem : AllocOk} {s0 s : RWorld} {m : BE α} {mX : XE β} {f : β → α} {P Q : β → List (Nat × LibObj) → Prop}
    (h : SimX mem s0 s m mX f P) (hq : ∀ b l, P b l → Q b l) : SimX mem s0 s m mX f Q := by
  unfold SimX at h ⊢
  split
  · rename_i e; rw [e] at h; exact h
  · rename_i e; rw [e] at h; exact h
  · rename_i e; rw [e] at h; exact h
  · rename_i e; rw [e] at h
    obtain ⟨l, h1, h2, h3⟩ := h
    exact ⟨l, h1, hq _ _ h2, h3⟩

theorem simX_frame0 {α β : Type} {mem : AllocOk} {s0 s : RWorld} {m : BE α} {mX : XE β} {f : β → α} {P : β → List (Nat × LibObj) → Prop}
    (hg : Got s0 s []) (h : SimX mem s s m mX f P) : SimX mem s0 s m mX f P := by
  unfold SimX at h ⊢
  split
  · rename_i e; rw [e] at h; exact h
  · rename_i e; rw [e] at h; exact ⟨h.1, hg.trans h.2⟩
  · rename_i e; rw [e] at h; exact ⟨h.1, hg.trans h.2⟩
  · rename_i e; rw [e] at h
    obtain ⟨l, h1, h2, h3⟩ := h
    exact ⟨l, h1, h2, by have := hg.trans h3; rwa [List.append_nil] at this⟩

theorem simX_alloc {α β : Type} {mem : AllocOk} {s0 s : RWorld} {m : BE α} {kX : Unit → XE β} {f : β → α} {P : β → List (Nat × LibObj) → Prop} {site : AllocSite}
    (hg : Got s0 s []) (h : SimX mem s0 s m (kX ()) f P) : SimX mem s0 s m (allocX mem site >>= kX) f P := by
  have e : (allocX mem site >>= kX).run s = if mem site s.world.calls then (kX ()).run s else .ok (.error .badAlloc, s) := by
    show (do let x ← allocX mem site s; ExceptT.bindCont kX x.1 x.2 : Except UB _) = _
    unfold allocX
    split <;> rfl
  unfold SimX at h ⊢
  rw [e]
  cases hm : mem site s.world.calls with
  | true => exact h
  | false => exact ⟨⟨_, _, hm⟩, hg⟩

theorem simX_use {α β : Type} {mem : AllocOk} {s0 s : RWorld} {m : BE α} {kX : Unit → XE β} {f : β → α} {P : β → List (Nat × LibObj) → Prop} {i : Nat} {o : LibObj}
    (hi : s.live i = some o) (h : SimX mem s0 s m (kX ()) f P) : SimX mem s0 s m (useObjX i >>= kX) f P := by
  have : (useObjX i >>= kX).run s = (kX ()).run s := by
    show (do let x ← (do let y ← useObj (some i) s; .ok (.ok (), y.2) : Except UB (Except Stop Unit × RWorld)); ExceptT.bindCont kX x.1 x.2 : Except UB _) = _
    unfold useObj
    simp only [hi]
    rfl
  unfold SimX at h ⊢
  rw [this]
  exact h

theorem simX_lift {α : Type} {mem : AllocOk} {s0 s : RWorld} {m : BE α} (hk : KeepsHeap m.run) (hg : Got s0 s []) :
    SimX mem s0 s m (liftX m) id (fun _ l' => l' = []) := by
  have e : (liftX m).run s = match m.run s.world with
    | .error u => .error u
    | .ok (.error e, w) => .ok (.error (.code e), { s with world := w })
    | .ok (.ok a, w) => .ok (.ok a, { s with world := w }) := rfl
  unfold SimX
  rw [e]
  cases hm : m.run s.world with
  | error u => rfl
  | ok r =>
    obtain ⟨r, w⟩ := r
    have g : Got s0 { s with world := w } [] := ⟨hg.fresh, hg.fresh', hg.next, hg.low, hg.live, hg.member, (hk _ _ _ hm).trans hg.heap⟩
    cases r with
    | error e => exact ⟨rfl, g⟩
    | ok a => exact ⟨[], rfl, rfl, g⟩

theorem simX_new {mem : AllocOk} {s0 s : RWorld} (lib : Lib) (k : ObjKind) (e : N20Error) (hg : Got s0 s []) :
    SimX mem s0 s (need lib e) (newObjX lib k e) (fun _ => ()) (fun i l => l = [(i, ⟨k, none⟩)]) := by
  refine simX_frame0 hg ?_
  have e1 : (newObjX lib k e).run s = (do
    let x ← newObj lib k s
    match x.1 with
    | none => .ok (.error (.code e), x.2)
    | some i => .ok (.ok i, x.2) : Except UB (Except Stop Nat × RWorld)) := by
    show (do let x ← newObj lib k s; _ : Except UB (Except Stop Nat × RWorld)) = _
    unfold newObj
    cases lib.fails s.world.calls <;> rfl
  have e2 : (need lib e).run s.world = .ok (if lib.fails s.world.calls then .error e else .ok (), { s.world with calls := s.world.calls + 1 }) := rfl
  unfold SimX
  rw [e1, e2]
  unfold newObj
  cases hfa : lib.fails s.world.calls with
  | true => exact ⟨rfl, got_calls hg.refl' _⟩
  | false => exact ⟨_, rfl, rfl, got_new hg.fresh' k _⟩

theorem simX_scope {α β : Type} {mem : AllocOk} {s s1 : RWorld} {m : BE α} {body : XE β} {f : β → α} {P : β → List (Nat × LibObj) → Prop} {i : Nat} {k : ObjKind}
    (hg : Got s s1 [(i, ⟨k, none⟩)]) (h : SimX mem s1 s1 m body f P) : SimX mem s s1 m (scopeX (some i) body) f P := by
  have e2 : (scopeX (some i) body).run s1 = (do let x ← body.run s1; let y ← freeObj (some i) x.2; .ok (x.1, y.2) : Except UB _) := rfl
  unfold SimX at h ⊢
  rw [e2]
  cases hm : body.run s1 with
  | error u => rw [hm] at h; exact h
  | ok r =>
    obtain ⟨r, s2⟩ := r
    rw [hm] at h
    have fr : ∀ l, Got s1 s2 l → ∃ s3, (do let x ← (.ok (r, s2) : Except UB (Except Stop β × RWorld)); let y ← freeObj (some i) x.2; .ok (x.1, y.2) : Except UB _) = .ok (r, s3) ∧
        s3.world = s2.world ∧ Got s s3 l := by
      intro l g
      obtain ⟨s3, h6, h7, h8⟩ := hg.free g
      refine ⟨s3, ?_, h7, h8⟩
      show (do let y ← freeObj (some i) s2; .ok (r, y.2) : Except UB _) = _
      rw [h6]; rfl
    cases r with
    | error e =>
      cases e with
      | badAlloc =>
        obtain ⟨s3, e3, -, g3⟩ := fr [] h.2
        rw [e3]
        exact ⟨h.1, g3⟩
      | code e =>
        obtain ⟨s3, e3, w3, g3⟩ := fr [] h.2
        rw [e3]
        exact ⟨by rw [w3]; exact h.1, g3⟩
    | ok b =>
      obtain ⟨l, h1, h2, h3⟩ := h
      obtain ⟨s3, e3, w3, g3⟩ := fr l h3
      rw [e3]
      exact ⟨l, by rw [w3]; exact h1, h2, g3⟩

theorem run_scopeMoveX {β : Type} (p : Option Nat) (body : XE β) (s1 : RWorld) : (scopeMoveX p body).run s1 = (do
    let x ← body.run s1
    match x.1 with
    | .error e => do
      let y ← freeObj p x.2
      .ok (.error e, y.2)
    | .ok a => .ok (.ok a, x.2) : Except UB (Except Stop β × RWorld)) := by
  show (do let x ← body.run s1; _ : Except UB (Except Stop β × RWorld)) = _
  cases body.run s1 with
  | error e => rfl
  | ok r =>
    obtain ⟨r, s2⟩ := r
    cases r <;> rfl

/-- The object stays in case of success. -/
theorem simX_scopeMove {α β : Type} {mem : AllocOk} {s s1 : RWorld} {m : BE α} {body : XE β} {f : β → α} {P : β → List (Nat × LibObj) → Prop} {i : Nat} {k : ObjKind}
    (hg : Got s s1 [(i, ⟨k, none⟩)]) (h : SimX mem s1 s1 m body f P) :
    SimX mem s s1 m (scopeMoveX (some i) body) f (fun b l => ∃ l', P b l' ∧ l = l' ++ [(i, ⟨k, none⟩)]) := by
  unfold SimX at h ⊢
  rw [run_scopeMoveX]
  cases hm : body.run s1 with
  | error u => rw [hm] at h; exact h
  | ok r =>
    obtain ⟨r, s2⟩ := r
    rw [hm] at h
    cases r with
    | ok b =>
      obtain ⟨l, h1, h2, h3⟩ := h
      exact ⟨l ++ [(i, ⟨k, none⟩)], h1, ⟨l, h2, rfl⟩, hg.trans h3⟩
    | error e =>
      have g : Got s1 s2 [] := by cases e <;> exact h.2
      obtain ⟨s3, h6, h7, h8⟩ := hg.free g
      have e3 : (do
        let x ← (.ok (.error e, s2) : Except UB (Except Stop β × RWorld))
        match x.1 with
        | .error e => do
          let y ← freeObj (some i) x.2
          .ok (.error e, y.2)
        | .ok a => .ok (.ok a, x.2) : Except UB (Except Stop β × RWorld)) = .ok (.error e, s3) := by
        show (do let y ← freeObj (some i) s2; .ok (.error e, y.2) : Except UB (Except Stop β × RWorld)) = _
        rw [h6]; rfl
      rw [e3]
      cases e with
      | badAlloc => exact ⟨h.1, h8⟩
      | code e => exact ⟨by rw [h7]; exact h.1, h8⟩

theorem simX_scopeOpt {α β : Type} {mem : AllocOk} {s s1 : RWorld} {m : BE α} {body : XE β} {f : β → α} {k : Option Nat} (hg : Got s s1 (candObj k))
    (h : SimX mem s1 s1 m body f (fun _ l => l = [])) : SimX mem s s1 m (scopeMoveX k body) f (fun _ l => l = candObj k) := by
  cases k with
  | some i => exact simX_mono (simX_scopeMove hg h) fun b l ⟨l', h1, h2⟩ => by rw [h2, h1]; rfl
  | none =>
    have e : (scopeMoveX none body).run = body.run := by
      show (do let r ← body.run; _ : R (Except Stop β)) = _
      conv => rhs; rw [← bind_pure body.run]
      refine bind_congr fun r => ?_
      cases r <;> rfl
    have h' := simX_frame0 hg h
    unfold SimX at h' ⊢
    rw [e]
    exact h'

theorem run_liftX {α β : Type} {m : R α} {kX : α → XE β} {s s1 : RWorld} {a : α} (h : m s = .ok (a, s1)) :
    ((ExceptT.lift m : XE α) >>= kX).run s = (kX a).run s1 := by
  show (do let x ← (do let y ← m s; .ok (.ok y.1, y.2) : Except UB (Except Stop α × RWorld)); ExceptT.bindCont kX x.1 x.2 : Except UB _) = _
  rw [h]
  rfl

theorem simX_assign {α β : Type} {mem : AllocOk} {s0 s : RWorld} (lib : Lib) {k : Option Nat} (hg : Got s0 s (candObj k)) {m : BE α} {kX : Nat → XE β} {f : β → α}
    {P : β → List (Nat × LibObj) → Prop} (h : ∀ i s1, Got s0 s1 [(i, ⟨.bignum, none⟩)] → SimX mem s0 s1 m (kX i) f P) :
    SimX mem s0 s (need lib .noResources >>= fun _ => m) (do
      let new ← (ExceptT.lift (newObj lib .bignum) : XE _)
      (ExceptT.lift (freeObj k) : XE _)
      match new with
      | none => throw (.code .noResources)
      | some i => kX i) f P := by
  have free : ∀ s1 l, Got s s1 l → ∃ s3, freeObj k s1 = .ok ((), s3) ∧ s3.world = s1.world ∧ Got s0 s3 l := by
    intro s1 l h1
    cases k with
    | none => exact ⟨s1, rfl, rfl, by have := hg.trans h1; rwa [show candObj none = [] from rfl, List.append_nil] at this⟩
    | some i => exact hg.free h1
  have e1 : (need lib .noResources >>= fun _ => m : BE α).run s.world =
      if lib.fails s.world.calls then .ok (.error .noResources, { s.world with calls := s.world.calls + 1 }) else m.run { s.world with calls := s.world.calls + 1 } := by
    show (do let x ← need lib .noResources s.world; ExceptT.bindCont (fun _ => m) x.1 x.2 : Except UB _) = _
    unfold need
    cases lib.fails s.world.calls <;> rfl
  unfold SimX
  rw [e1]
  rcases newObj_cases lib .bignum s hg.fresh' with ⟨hfa, s1, hn, hw, g1⟩ | ⟨hfa, i, s1, hn, hw, g1⟩
  · obtain ⟨s3, h1, h2, h3⟩ := free s1 [] g1
    rw [run_liftX hn, run_liftX h1, if_pos hfa]
    refine ⟨?_, h3⟩
    rw [← hw, ← h2]
  · obtain ⟨s3, h1, h2, h3⟩ := free s1 _ g1
    rw [run_liftX hn, run_liftX h1, if_neg (by rw [hfa]; simp)]
    have := h i s3 h3
    unfold SimX at this
    rw [h2, hw] at this
    exact this

theorem simX_error {α β : Type} {mem : AllocOk} {s0 s : RWorld} {f : β → α} {P : β → List (Nat × LibObj) → Prop} (u : UB) :
    SimX mem s0 s (fun _ => .error u) (fun _ => .error u) f P := rfl

/-! ## The functions -/

/-- The loop of `gatherToVector`. -/
def gatherLoop (n : Nat) (l : List Slice) (acc : Bytes) : BE Bytes := do
  let r ← (liftB (bsslSlices n l acc) : B _)
  if r.1 = .ok then return r.2 else throw r.1

theorem simX_gatherSlices (mem : AllocOk) : ∀ (n i : Nat) (l : List Slice) (acc : Bytes) (s : RWorld), (∀ i, s.next ≤ i → s.live i = none) →
    SimX mem s s (gatherLoop n l acc) (gatherSlicesX mem i n l acc) id (fun _ l => l = []) := by
  intro n
  induction n with
  | zero =>
    intro i l acc s hf
    rw [gatherSlicesX]
    exact simX_pure acc acc rfl (got_refl hf) rfl
  | succ n ih =>
    intro i l acc s hf
    cases l with
    | nil => rw [gatherSlicesX]; rfl
    | cons x l =>
      rw [gatherSlicesX]
      by_cases hx : x.size = 0
      · rw [if_pos hx]
        have : gatherLoop (n + 1) (x :: l) acc = gatherLoop n l acc := by unfold gatherLoop; rw [bsslSlices, if_pos hx]
        rw [this]
        exact ih (i + 1) l acc s hf
      · rw [if_neg hx]
        cases hb : x.buffer with
        | none =>
          have : gatherLoop (n + 1) (x :: l) acc = throw .nullSlice := by
            unfold gatherLoop; rw [bsslSlices, if_neg hx, hb]; rfl
          rw [this]
          exact simX_throw _ (got_refl hf)
        | some p =>
          have : gatherLoop (n + 1) (x :: l) acc = (do
              let bs ← (ExceptT.lift (liftB (readSlice p x.size)) : BE _)
              gatherLoop n l (acc ++ bs)) := by
            unfold gatherLoop; rw [bsslSlices, if_neg hx, hb]
            dsimp only
            cases hr : readSlice p x.size with
            | error u => rfl
            | ok bs => rfl
          rw [this]
          refine simX_alloc (got_refl hf) (simX_bind (simX_lift (keeps_liftE (keeps_lift _)) (got_refl hf)) fun bs s1 l' hl g1 => ?_)
          subst hl
          exact simX_frame0 g1 (ih (i + 1) l (acc ++ bs) s1 g1.fresh')

theorem simX_gather (mem : AllocOk) (g : Option GatherList) {s : RWorld} (hf : ∀ i, s.next ≤ i → s.live i = none) :
    SimX mem s s (gatherToVector g) (gatherToVectorX mem g) id (fun _ l => l = []) := by
  unfold gatherToVector gatherToVectorX
  cases g with
  | none => exact simX_throw _ (got_refl hf)
  | some g =>
    simp only
    by_cases hg : g.count ≠ 0 ∧ g.list = none
    · rw [if_pos hg, if_pos hg]
      exact simX_throw _ (got_refl hf)
    · rw [if_neg hg, if_neg hg]
      have h := simX_gatherSlices mem g.count.toNat 0 (g.list.getD []) [] s hf
      have e : gatherLoop g.count.toNat (g.list.getD []) [] = gatherLoop g.count.toNat (g.list.getD []) [] >>= Pure.pure := (bind_pure _).symm
      rw [e] at h
      show SimX mem s s (gatherLoop g.count.toNat (g.list.getD []) []) _ _ _
      rw [e]
      rw [← e] at h
      refine simX_bind h fun bytes s1 l hl g1 => ?_
      subst hl
      exact simX_alloc g1 (simX_pure _ _ rfl g1 rfl)

theorem keeps_expandDerived (lib : Lib) (bits c : Bytes) : KeepsHeap (expandDerived lib bits c).run := by
  unfold expandDerived
  refine keeps_bindE (keeps_liftE (keeps_expand _ _ _ _ _)) fun r => ?_
  keeps

theorem simX_derive (lib : Lib) (mem : AllocOk) (bits : Bytes) (g : Option GatherList) {s : RWorld} (hf : ∀ i, s.next ≤ i → s.live i = none) :
    SimX mem s s (bsslDerive lib bits g) (bsslDeriveX lib mem bits g) id (fun _ l => l = []) := by
  show SimX mem s s (gatherToVector g >>= fun c => expandDerived lib bits c) _ _ _
  unfold bsslDeriveX
  refine simX_bind (simX_gather mem g hf) fun c s1 l hl g1 => ?_
  subst hl
  exact simX_alloc g1 (simX_lift (keeps_expandDerived _ _ _) g1)

theorem simX_loop (lib : Lib) (mem : AllocOk) (a : Alg) (q ctx : Nat) (o : LibObj) : ∀ (fuel : Nat) (k : Option Nat) (K V : Bytes) (s0 s : RWorld), s0.live ctx = some o →
    Got s0 s (candObj k) → SimX mem s0 s (rfcLoop lib a q fuel K V) (rfcLoopX lib mem ctx a q fuel k K V) Prod.fst (fun b l => l = [(b.2, ⟨.bignum, none⟩)]) := by
  intro fuel
  induction fuel with
  | zero => intro k K V s0 s _ _; exact simX_error _
  | succ fuel ih =>
    intro k K V s0 s hc hg
    rw [rfcLoop, rfcLoopX]
    refine simX_bind (simX_scopeOpt hg (simX_alloc hg.refl' (simX_lift (keeps_T _ _ _ _ _ _) hg.refl'))) fun r s1 l hl g1 => ?_
    subst hl
    refine simX_assign lib g1 fun i s2 g2 => ?_
    have hn : SimX mem s2 s2 (need lib .noResources) (do useObjX i; liftX (need lib .noResources)) id (fun _ l => l = []) :=
      simX_use g2.head (simX_lift (keeps_need _ _) g2.refl')
    refine simX_bind (simX_scopeMove g2 hn) fun _ s3 l hl g3 => ?_
    obtain ⟨l', rfl, rfl⟩ := hl
    simp only [id]
    split
    · exact simX_pure _ _ rfl g3 rfl
    · rw [loop_again]
      have ha : SimX mem s3 s3 (do
          let K' ← rfcUpdateK lib a K r.1 0 []
          let V' ← rfcUpdateV lib a K' r.1
          return (K', V')) (rfcAgainX lib ctx a K r.1) id (fun _ l => l = []) := by
        unfold rfcAgainX
        refine simX_use (g3.stays hc) (simX_bind (simX_lift (keeps_updateK _ _ _ _ _ _) g3.refl') fun K' s4 l hl g4 => ?_)
        subst hl
        refine simX_bind (simX_lift (keeps_updateV _ _ _ _) g4) fun V' s5 l hl g5 => ?_
        subst hl
        exact simX_pure _ _ rfl g5 rfl
      refine simX_bind (simX_scopeMove g3 ha) fun KV s4 l hl g4 => ?_
      obtain ⟨l', rfl, rfl⟩ := hl
      exact ih (some i) KV.1 KV.2 s0 s4 hc g4

theorem simX_rfc6979 (lib : Lib) (mem : AllocOk) (x : Bytes) (alg : UInt32) (q : Nat) {s : RWorld} (hf : ∀ i, s.next ≤ i → s.live i = none) :
    SimX mem s s (rfc6979 lib x none alg q) (rfc6979X lib mem x alg q) Prod.fst (fun b l => l = [(b.2, ⟨.bignum, none⟩)]) := by
  unfold rfc6979 rfc6979X
  cases bsslMd alg with
  | none => exact simX_throw _ (got_refl hf)
  | some a =>
    simp only [rfcOptH1, pure_bind]
    refine simX_alloc (got_refl hf) (simX_alloc (got_refl hf) ?_)
    refine simX_bind (simX_new lib .hmacCtx _ (got_refl hf)) fun ctx s2 l hl g2 => ?_
    subst hl
    refine simX_scope g2 (simX_use g2.head ?_)
    refine simX_bind (simX_lift (keeps_seed _ _ _ _ _ _) g2.refl') fun r s3 l hl g3 => ?_
    subst hl
    exact simX_loop lib mem a q ctx _ lib.patience none r.1 r.2 s2 s3 g2.head g3

/-- If `new` throws, the library objects of the key are destroyed. -/
theorem simX_newKey {α β : Type} {mem : AllocOk} {s0 s : RWorld} {m : BE α} {kX : Unit → XE β} {f : β → α} {P : β → List (Nat × LibObj) → Prop} {i : Nat} {k : ObjKind}
    (hg : Got s0 s [(i, ⟨k, none⟩)]) (h : SimX mem s0 s m (kX ()) f P) : SimX mem s0 s m (scopeMoveX (some i) (allocX mem .newKey) >>= kX) f P := by
  obtain ⟨s3, h6, -, h8⟩ := hg.free hg.refl'
  have e : (scopeMoveX (some i) (allocX mem .newKey) >>= kX).run s = if mem .newKey s.world.calls then (kX ()).run s else .ok (.error .badAlloc, s3) := by
    rw [run_bindX, run_scopeMoveX]
    show (do let x ← (do let x ← allocX mem .newKey s; _ : Except UB (Except Stop Unit × RWorld)); _ : Except UB _) = _
    unfold allocX
    split
    · rfl
    · show (do let x ← (do let y ← freeObj (some i) s; .ok (.error .badAlloc, y.2) : Except UB (Except Stop Unit × RWorld)); ExceptT.bindCont kX x.1 x.2 : Except UB _) = _
      rw [h6]; rfl
  unfold SimX at h ⊢
  rw [e]
  cases hm : mem .newKey s.world.calls with
  | true => exact h
  | false => exact ⟨⟨_, _, hm⟩, h8⟩

theorem Got.freePair {s s1 : RWorld} {i j : Nat} {k k' : ObjKind} (h : Got s s1 [(i, ⟨k, some j⟩), (j, ⟨k', none⟩)]) (hne : i ≠ j) :
    ∃ s3, freeObj (some i) s1 = .ok ((), s3) ∧ Got s s3 [] := by
  have h1 : s1.live i = some ⟨k, some j⟩ := h.head
  have h2 : s1.live j = some ⟨k', none⟩ := by
    rw [h.live]
    have : (j == i) = false := beq_false_of_ne fun e => hne e.symm
    simp [List.lookup, this]
  refine ⟨{ s1 with live := setAt (setAt s1.live i none) j none }, ?_, ?_⟩
  · have d1 : destroyObj i s1 = .ok (⟨k, some j⟩, { s1 with live := setAt s1.live i none }) := by unfold destroyObj; rw [h1]
    have d2 : destroyObj j { s1 with live := setAt s1.live i none } = .ok (⟨k', none⟩, { s1 with live := setAt (setAt s1.live i none) j none }) := by
      unfold destroyObj
      simp only [setAt, if_neg fun e : j = i => hne e.symm, h2]
    show (do let x ← destroyObj i s1; _ : Except UB (Unit × RWorld)) = _
    rw [d1]
    show (do let x ← destroyObj j { s1 with live := setAt s1.live i none }; _ : Except UB (Unit × RWorld)) = _
    rw [d2]
    rfl
  · have li := h.low (i, ⟨k, some j⟩) (by simp)
    have lj := h.low (j, ⟨k', none⟩) (by simp)
    refine ⟨h.fresh, ?_, h.next, by simp, ?_, h.member, h.heap⟩
    · intro n hn
      show setAt (setAt s1.live i none) j none n = none
      unfold setAt
      split
      · rfl
      · split
        · rfl
        · exact h.fresh' n hn
    · intro n
      show setAt (setAt s1.live i none) j none n = s.live n
      unfold setAt
      split
      · rename_i e; rw [e]; exact (h.fresh j lj).symm
      · split
        · rename_i e; rw [e]; exact (h.fresh i li).symm
        · rename_i e1 e2
          rw [h.live]
          simp [List.lookup, beq_false_of_ne e1, beq_false_of_ne e2]

/-- The same for an EC key. -/
theorem simX_newEcKey {α β : Type} {mem : AllocOk} {s0 s : RWorld} {m : BE α} {kX : Unit → XE β} {f : β → α} {P : β → List (Nat × LibObj) → Prop} {i j : Nat}
    {k k' : ObjKind} (hg : Got s0 s [(i, ⟨k, some j⟩), (j, ⟨k', none⟩)]) (hne : i ≠ j) (h : SimX mem s0 s m (kX ()) f P) :
    SimX mem s0 s m (scopeMoveX (some i) (allocX mem .newKey) >>= kX) f P := by
  obtain ⟨s3, h6, h8⟩ := hg.freePair hne
  have e : (scopeMoveX (some i) (allocX mem .newKey) >>= kX).run s = if mem .newKey s.world.calls then (kX ()).run s else .ok (.error .badAlloc, s3) := by
    rw [run_bindX, run_scopeMoveX]
    show (do let x ← (do let x ← allocX mem .newKey s; _ : Except UB (Except Stop Unit × RWorld)); _ : Except UB _) = _
    unfold allocX
    split
    · rfl
    · show (do let x ← (do let y ← freeObj (some i) s; .ok (.error .badAlloc, y.2) : Except UB (Except Stop Unit × RWorld)); ExceptT.bindCont kX x.1 x.2 : Except UB _) = _
      rw [h6]; rfl
  unfold SimX at h ⊢
  rw [e]
  cases hm : mem .newKey s.world.calls with
  | true => exact h
  | false => exact ⟨⟨_, _, hm⟩, h8⟩

theorem simX_ecPkey (lib : Lib) (mem : AllocOk) (k point : Nat) {s : RWorld} (hf : ∀ i, s.next ≤ i → s.live i = none) {o o' : LibObj}
    (hk : s.live k = some o) (hp : s.live point = some o') :
    SimX mem s s (do
      need lib .noResources
      need lib .implementationSpecific
      need lib .implementationSpecific
      need lib .implementationSpecific
      need lib .noResources) (ecPkeyX lib k point) (fun _ => ()) (fun i l => ∃ j, i ≠ j ∧ l = [(i, ⟨.pkey, some j⟩), (j, ⟨.ecKey, none⟩)]) := by
  unfold ecPkeyX
  refine simX_bind (simX_new lib .ecKey _ (got_refl hf)) fun ec s1 l hl g1 => ?_
  subst hl
  refine simX_mono (P := fun b l => ∃ l', (b ≠ ec ∧ l' = [(b, ⟨.pkey, some ec⟩)]) ∧ l = l' ++ [(ec, ⟨.ecKey, none⟩)])
    (simX_scopeMove g1 ?_) ?_
  · refine simX_use g1.head ?_
    refine simX_bind (simX_lift (keeps_need _ _) g1.refl') fun _ s2 l hl g2 => ?_
    subst hl
    refine simX_use (g2.stays (g1.stays hk)) ?_
    refine simX_bind (simX_lift (keeps_need _ _) g2) fun _ s3 l hl g3 => ?_
    subst hl
    refine simX_use (g3.stays (g1.stays hp)) ?_
    refine simX_bind (simX_lift (keeps_need _ _) g3) fun _ s4 l hl g4 => ?_
    subst hl
    have e : (need lib .noResources : BE Unit) = need lib .noResources >>= Pure.pure := (bind_pure _).symm
    rw [e]
    refine simX_bind (simX_new lib .pkey _ g4) fun i s5 l hl g5 => ?_
    subst hl
    have h1 : s5.live i = some ⟨.pkey, none⟩ := g5.head
    have h2 : s5.live ec = some ⟨.ecKey, none⟩ := g5.stays g1.head
    have hne : i ≠ ec := by
      intro e
      rw [e, h2] at h1
      cases h1
    have e3 : (do assignEcKeyX i ec; return i : XE Nat).run s5 = .ok (.ok i, { s5 with live := setAt s5.live i (some ⟨.pkey, some ec⟩) }) := by
      show (do let x ← assignEcKeyX i ec s5; _ : Except UB _) = _
      unfold assignEcKeyX
      rw [h1, h2]
      rfl
    unfold SimX
    rw [e3]
    exact ⟨_, rfl, ⟨hne, rfl⟩, got_assign (j := ec) g5 _⟩
  · rintro i l ⟨l', ⟨hne, rfl⟩, rfl⟩
    exact ⟨ec, hne, rfl⟩

theorem simX_ecKey (lib : Lib) (mem : AllocOk) (type : UInt32) (c : Curve) (d : Nat) (k point : Nat) {s : RWorld} (hf : ∀ i, s.next ≤ i → s.live i = none) {o o' : LibObj}
    (hk : s.live k = some o) (hp : s.live point = some o') :
    SimX mem s s (do
      need lib .noResources
      need lib .implementationSpecific
      need lib .implementationSpecific
      need lib .implementationSpecific
      need lib .noResources
      return ⟨type, .inr (.ec c d)⟩) (ecKeyX lib mem ⟨type, .inr (.ec c d)⟩ k point) Prod.fst (fun b l => NeedsObjs b.1.body b.2 l) := by
  have e : (do
      need lib .noResources
      need lib .implementationSpecific
      need lib .implementationSpecific
      need lib .implementationSpecific
      need lib .noResources
      return ⟨type, .inr (.ec c d)⟩ : BE BsslKey) = (do
      (do
        need lib .noResources
        need lib .implementationSpecific
        need lib .implementationSpecific
        need lib .implementationSpecific
        need lib .noResources)
      return ⟨type, .inr (.ec c d)⟩) := by simp only [bind_assoc]
  rw [e]
  unfold ecKeyX
  refine simX_bind (simX_ecPkey lib mem k point hf hk hp) fun i s1 l hl g1 => ?_
  obtain ⟨j, hne, rfl⟩ := hl
  exact simX_newEcKey g1 hne (simX_pure _ _ rfl g1 (.ec c d i j hne))

theorem simX_ecPair (lib : Lib) (mem : AllocOk) (type : UInt32) (c : Curve) (d : Nat) (k : Nat) {s : RWorld} (hf : ∀ i, s.next ≤ i → s.live i = none) {o : LibObj}
    (hk : s.live k = some o) :
    SimX mem s s (do
      need lib .noResources
      need lib .implementationSpecific
      need lib .noResources
      need lib .implementationSpecific
      need lib .implementationSpecific
      need lib .implementationSpecific
      need lib .noResources
      return ⟨type, .inr (.ec c d)⟩) (ecPairX lib mem ⟨type, .inr (.ec c d)⟩ k) Prod.fst (fun b l => NeedsObjs b.1.body b.2 l) := by
  unfold ecPairX
  refine simX_bind (simX_new lib .ecPoint _ (got_refl hf)) fun point s1 l hl g1 => ?_
  subst hl
  refine simX_scope g1 (simX_use g1.head (simX_use (g1.stays hk) ?_))
  refine simX_bind (simX_lift (keeps_need _ _) g1.refl') fun _ s2 l hl g2 => ?_
  subst hl
  exact simX_frame0 g2 (simX_ecKey lib mem type c d k point g2.fresh' (g2.stays (g1.stays hk)) (g2.stays g1.head))

theorem simX_makeKey (lib : Lib) (mem : AllocOk) (type : UInt32) (derived : Bytes) {s : RWorld} (hf : ∀ i, s.next ≤ i → s.live i = none) :
    SimX mem s s (bsslMakeKey lib type derived) (bsslMakeKeyX lib mem type derived) Prod.fst (fun b l => NeedsObjs b.1.body b.2 l) := by
  unfold bsslMakeKey bsslMakeKeyX
  split
  · refine simX_bind (simX_new lib .pkey _ (got_refl hf)) fun i s1 l hl g1 => ?_
    subst hl
    exact simX_newKey g1 (simX_pure _ _ rfl g1 (.ed25519 _ _))
  · split
    · exact simX_alloc (got_refl hf) (simX_pure _ _ rfl (got_refl hf) (.cdi _))
    · split
      · unfold bsslEcKey bsslEcKeyX
        refine simX_bind (simX_lift (keeps_need _ _) (got_refl hf)) fun _ s1 l hl g1 => ?_
        subst hl
        refine simX_bind (simX_frame0 g1 (simX_rfc6979 lib mem derived 3 _ g1.fresh')) fun r s2 l hl g2 => ?_
        have hl' : l = [(r.2, ⟨.bignum, none⟩)] := hl
        subst hl'
        exact simX_scope g2 (simX_ecPair lib mem type _ r.1 r.2 g2.fresh' g2.head)
      · exact simX_throw _ (got_refl hf)

theorem simX_kdfKey (lib : Lib) (mem : AllocOk) (bits : Bytes) (type : UInt32) (context : Option GatherList) {s : RWorld} (hf : ∀ i, s.next ≤ i → s.live i = none) :
    SimX mem s s (bsslKdfKey lib bits type context) (bsslKdfKeyX lib mem bits type context) Prod.fst (fun b l => NeedsObjs b.1.body b.2 l) := by
  unfold bsslKdfKey bsslKdfKeyX
  refine simX_bind (simX_derive lib mem bits context hf) fun derived s1 l hl g1 => ?_
  subst hl
  exact simX_frame0 g1 (simX_makeKey lib mem type derived g1.fresh')

end Nat20
