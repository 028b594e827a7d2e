import Verif.Lemmas.OutOfMemory
import Verif.Props.Resources
/-!
# The reference context when memory runs out
-/

namespace Nat20

open Fips

/-! ## Signatures -/

/-- As `SimX`, for whole calls: either the call returns what it returns with enough memory, or it throws and leaves `v`. -/
def SimT {α β : Type} (mem : AllocOk) (s0 s : RWorld) (m : B α) (mX : R (Ended α β)) (v : β) : Prop :=
  match mX s with
  | .error u => m s.world = .error u
  | .ok (.returned r, s') => m s.world = .ok (r, s'.world) ∧ Got s0 s' []
  | .ok (.threw l, s') => mem.Short ∧ l = v ∧ Got s0 s' []

theorem simT_pure {α β : Type} {mem : AllocOk} {s0 s : RWorld} {v : β} (r : α) (hg : Got s0 s []) : SimT mem s0 s (Pure.pure r) (Pure.pure (.returned r)) v := ⟨rfl, hg⟩

theorem simT_use {α β : Type} {mem : AllocOk} {s0 s : RWorld} {m : B α} {kX : Unit → R (Ended α β)} {v : β} {i : Nat} {o : LibObj} (hi : s.live i = some o)
    (h : SimT mem s0 s m (kX ()) v) : SimT mem s0 s m (useObj (some i) >>= kX) v := by
  have : (useObj (some i) >>= kX) s = kX () s := by
    show (do let x ← useObj (some i) s; kX x.1 x.2 : Except UB _) = _
    unfold useObj
    simp only [hi]
    rfl
  unfold SimT at h ⊢
  rw [this]
  exact h

theorem liftW_run {α : Type} {m : B α} (hk : KeepsHeap m) {s0 s : RWorld} (hg : Got s0 s []) :
    (∃ u, m s.world = .error u ∧ liftW m s = .error u) ∨ ∃ a s1, m s.world = .ok (a, s1.world) ∧ liftW m s = .ok (a, s1) ∧ Got s0 s1 [] ∧ s1.member = s.member := by
  cases hm : m s.world with
  | error u => exact .inl ⟨u, rfl, by simp only [liftW, hm]⟩
  | ok r =>
    refine .inr ⟨r.1, { s with world := r.2 }, rfl, by simp only [liftW, hm], ?_, rfl⟩
    exact ⟨hg.fresh, hg.fresh', hg.next, hg.low, hg.live, hg.member, (hk _ _ _ hm).trans hg.heap⟩

theorem simT_bind {α β γ : Type} {mem : AllocOk} {s0 s : RWorld} {m : B γ} (hk : KeepsHeap m) {k : γ → B α} {kX : γ → R (Ended α β)} {v : β} (hg : Got s0 s [])
    (h : ∀ a s1, m s.world = .ok (a, s1.world) → Got s0 s1 [] → SimT mem s0 s1 (k a) (kX a) v) : SimT mem s0 s (m >>= k) (liftW m >>= kX) v := by
  have e1 : (m >>= k) s.world = (do let x ← m s.world; k x.1 x.2 : Except UB _) := rfl
  have e2 : (liftW m >>= kX) s = (do let x ← liftW m s; kX x.1 x.2 : Except UB _) := rfl
  unfold SimT
  rw [e1, e2]
  rcases liftW_run hk hg with ⟨u, h1, h2⟩ | ⟨a, s1, h1, h2, h3, -⟩
  · rw [h1, h2]; rfl
  · rw [h1, h2]; exact h a s1 h1 h3

theorem simT_lift {α β : Type} {mem : AllocOk} {s0 s : RWorld} {m : B α} (hk : KeepsHeap m) {v : β} (hg : Got s0 s []) :
    SimT mem s0 s m (do return .returned (← liftW m)) v := by
  have h : SimT mem s0 s (m >>= Pure.pure) (liftW m >>= fun r => Pure.pure (.returned r)) v :=
    simT_bind hk hg fun a s1 _ g => simT_pure a g
  rwa [bind_pure] at h

theorem simT_scope {α β : Type} {mem : AllocOk} {s s1 : RWorld} {m : B α} {body : R (Ended α β)} {v : β} {i : Nat} {k : ObjKind} (hg : Got s s1 [(i, ⟨k, none⟩)])
    (h : SimT mem s1 s1 m body v) : SimT mem s s1 m (scope (some i) body) v := by
  have e2 : scope (some i) body s1 = (do let x ← body s1; let y ← freeObj (some i) x.2; .ok (x.1, y.2) : Except UB _) := rfl
  unfold SimT at h ⊢
  rw [e2]
  cases hm : body s1 with
  | error u => rw [hm] at h; exact h
  | ok r =>
    obtain ⟨r, s2⟩ := r
    rw [hm] at h
    have fr : Got s1 s2 [] → ∃ s3, (do let x ← (.ok (r, s2) : Except UB (Ended α β × RWorld)); let y ← freeObj (some i) x.2; .ok (x.1, y.2) : Except UB _) = .ok (r, s3) ∧
        s3.world = s2.world ∧ Got s s3 [] := by
      intro g
      obtain ⟨s3, h6, h7, h8⟩ := hg.free g
      refine ⟨s3, ?_, h7, h8⟩
      show (do let y ← freeObj (some i) s2; .ok (r, y.2) : Except UB _) = _
      rw [h6]; rfl
    cases r with
    | returned r =>
      obtain ⟨s3, e3, w3, g3⟩ := fr h.2
      rw [e3]
      exact ⟨by rw [w3]; exact h.1, g3⟩
    | threw l =>
      obtain ⟨s3, e3, w3, g3⟩ := fr h.2.2
      rw [e3]
      exact ⟨h.1, h.2.1, g3⟩

theorem simT_edSign (lib : Lib) (mem : AllocOk) (key : PKey) (msg : Option GatherList) (d : Bytes) (sz : UInt64) {s : RWorld}
    (hf : ∀ i, s.next ≤ i → s.live i = none) : SimT mem s s (edSign lib key msg d sz) (edSignX lib mem key msg d sz) (some d, some sz) := by
  unfold edSign edSignX
  refine simT_bind (keeps_call lib) (got_refl hf) fun init s1 _ g1 => ?_
  split
  · exact simT_pure _ g1
  · have hx := simX_gather mem msg g1.fresh'
    unfold SimX at hx
    unfold SimT
    have e1 : ∀ K : Except N20Error Bytes → B Reply, ((gatherToVector msg).run >>= K) s1.world = (do let x ← (gatherToVector msg).run s1.world; K x.1 x.2 : Except UB _) := fun _ => rfl
    have e2 : ∀ K : Except Stop Bytes → R (Ended Reply (Option Bytes × Option UInt64)), ((gatherToVectorX mem msg).run >>= K) s1 =
        (do let x ← (gatherToVectorX mem msg).run s1; K x.1 x.2 : Except UB _) := fun _ => rfl
    rw [e1, e2]
    cases hm : (gatherToVectorX mem msg).run s1 with
    | error u =>
      rw [hm] at hx
      show (do let x ← (gatherToVector msg).run s1.world; _ : Except UB _) = _
      rw [show (gatherToVector msg).run s1.world = .error u from hx]; rfl
    | ok r =>
      obtain ⟨r, s2⟩ := r
      rw [hm] at hx
      cases r with
      | error e =>
        cases e with
        | badAlloc => exact ⟨hx.1, rfl, g1.trans hx.2⟩
        | code e =>
          refine ⟨?_, g1.trans hx.2⟩
          show (do let x ← (gatherToVector msg).run s1.world; _ : Except UB _) = _
          rw [hx.1]; rfl
      | ok text =>
        obtain ⟨l, h1, h2, h3⟩ := hx
        subst h2
        have hl : SimT mem s s2 (edFinal lib key text d sz) (do return .returned (← liftW (edFinal lib key text d sz))) (some d, some sz) :=
          simT_lift (by unfold edFinal; keeps) (g1.trans h3)
        rw [h1]
        exact hl

theorem simT_signRun (lib : Lib) (mem : AllocOk) (m : Nat) (type : UInt32) (key : PKey) (msg : Option GatherList) (out : Option Bytes) (sz : UInt64) {s : RWorld}
    (hf : ∀ i, s.next ≤ i → s.live i = none) {o : LibObj} (hm : s.live m = some o) :
    SimT mem s s (bsslSignRun lib type key msg out sz) (bsslSignRunX lib mem (some m) type key msg out sz) (out, some sz) := by
  have e1 : ∀ K : Bool → B Reply, (libCall lib >>= K) s.world = K (!lib.fails s.world.calls) { s.world with calls := s.world.calls + 1 } := fun _ => rfl
  have e2 : ∀ K : Option Nat → R (Ended Reply (Option Bytes × Option UInt64)), (newObj lib .mdCtx >>= K) s = (do let x ← newObj lib .mdCtx s; K x.1 x.2 : Except UB _) := fun _ => rfl
  unfold bsslSignRun bsslSignRunX SimT
  rw [e1, e2]
  rcases newObj_cases lib .mdCtx s hf with ⟨hfa, s1, hn, hw, g1⟩ | ⟨hfa, i, s1, hn, hw, g1⟩
  · rw [hn, hfa, ← hw]
    exact ⟨rfl, g1⟩
  · rw [hn, hfa, ← hw]
    show SimT mem s s1 (match signatureSize type, out with
      | none, _ => return ⟨.invalidKey, out, some sz⟩
      | some n, none => return ⟨.insufficientBufferSize, out, some n⟩
      | some n, some d =>
        if sz < n then return ⟨.insufficientBufferSize, out, some n⟩
        else if type = 3 then edSign lib key msg d sz
        else if type = 1 then ecSign lib .sha256 key msg n d sz
        else ecSign lib .sha384 key msg n d sz) (scope (some i) (bsslSignRestX lib mem (some i) (some m) type key msg out sz)) (out, some sz)
    refine simT_scope g1 ?_
    unfold bsslSignRestX
    have triv : ∀ r : Reply, SimT mem s1 s1 (Pure.pure r) (Pure.pure (.returned r)) (out, some sz) := fun r => simT_pure r g1.refl'
    cases signatureSize type with
    | none => exact triv _
    | some n =>
      cases out with
      | none => exact triv _
      | some d =>
        simp only
        split
        · exact triv _
        · refine simT_use g1.head (simT_use (g1.stays hm) ?_)
          split
          · exact simT_edSign lib mem key msg d sz g1.fresh'
          · split
            · exact simT_lift (keeps_ecSign _ _ _ _ _ _ _) g1.refl'
            · exact simT_lift (keeps_ecSign _ _ _ _ _ _ _) g1.refl'

/-! ## Calls -/

/-- From `s` on, a call returns what it returns with enough memory, or it throws, having changed at most the key objects, as `H` says; all objects are accounted for. -/
def EndsX {α β : Type} (mem : AllocOk) (s : RWorld) (m : B α) (mX : R (Ended α β)) (v : β) (H : List (Option BsslKey) → Prop) : Prop :=
  match mX s with
  | .error u => m s.world = .error u
  | .ok (.returned r, s') => m s.world = .ok (r, s'.world) ∧ s'.Accounted
  | .ok (.threw l, s') => mem.Short ∧ l = v ∧ s'.live = s.live ∧ s'.Accounted ∧ H s'.world.heap

theorem endsX_pure {α β : Type} {mem : AllocOk} {s : RWorld} {v : β} {H : List (Option BsslKey) → Prop} (h : s.Accounted) (r : α) :
    EndsX mem s (Pure.pure r) (Pure.pure (.returned r)) v H := ⟨rfl, h⟩

theorem endsX_simT {α β : Type} {mem : AllocOk} {s : RWorld} {m : B α} {mX : R (Ended α β)} {v : β} (h : s.Accounted) (hs : SimT mem s s m mX v) :
    EndsX mem s m mX v (fun hp => hp = s.world.heap) := by
  unfold SimT at hs
  unfold EndsX
  split
  · rename_i e; rw [e] at hs; exact hs
  · rename_i e; rw [e] at hs; exact ⟨hs.1, h.kept hs.2⟩
  · rename_i e; rw [e] at hs; exact ⟨hs.1, hs.2.1, hs.2.2.live_eq, h.kept hs.2.2, hs.2.2.heap⟩

theorem endsX_bind {α β γ : Type} {mem : AllocOk} {s : RWorld} {m : B γ} (hk : KeepsHeap m) {k : γ → B α} {kX : γ → R (Ended α β)} {v : β} {H : List (Option BsslKey) → Prop}
    (hs : s.Accounted) (h : ∀ a s1, m s.world = .ok (a, s1.world) → Got s s1 [] → EndsX mem s1 (k a) (kX a) v H) : EndsX mem s (m >>= k) (liftW m >>= kX) v H := by
  have e1 : (m >>= k) s.world = (do let x ← m s.world; k x.1 x.2 : Except UB _) := rfl
  have e2 : (liftW m >>= kX) s = (do let x ← liftW m s; kX x.1 x.2 : Except UB _) := rfl
  unfold EndsX
  rw [e1, e2]
  rcases liftW_run hk (got_refl hs.fresh) with ⟨u, h1, h2⟩ | ⟨a, s1, h1, h2, h3, -⟩
  · rw [h1, h2]; rfl
  · rw [h1, h2]
    have := h a s1 h1 h3
    unfold EndsX at this
    rw [← h3.live_eq]
    exact this

theorem endsX_map {α β α' β' : Type} {mem : AllocOk} {s : RWorld} {m : B α} {mX : R (Ended α β)} {v : β} {H : List (Option BsslKey) → Prop} (f : α → α') (g : β → β')
    (h : EndsX mem s m mX v H) : EndsX mem s (do return f (← m)) (do return (← mX).map f g) (g v) H := by
  have e1 : (do return f (← m) : B α') s.world = (do let x ← m s.world; .ok (f x.1, x.2) : Except UB _) := rfl
  have e2 : (do return (← mX).map f g : R (Ended α' β')) s = (do let x ← mX s; .ok (x.1.map f g, x.2) : Except UB _) := rfl
  unfold EndsX at h ⊢
  rw [e1, e2]
  cases hm : mX s with
  | error u =>
    rw [hm] at h
    show (do let x ← m s.world; _ : Except UB _) = _
    rw [show m s.world = .error u from h]; rfl
  | ok r =>
    obtain ⟨r, s1⟩ := r
    rw [hm] at h
    cases r with
    | returned r =>
      refine ⟨?_, h.2⟩
      show (do let x ← m s.world; _ : Except UB _) = _
      rw [h.1]; rfl
    | threw l => exact ⟨h.1, congrArg g h.2.1, h.2.2⟩

theorem endsX_refines {α β : Type} {mem : AllocOk} {s : RWorld} {m : B α} {mR : R α} {v : β} {H : List (Option BsslKey) → Prop} (h : Refines s m mR) :
    EndsX mem s m (do return .returned (← mR)) v H := by
  have e2 : (do return .returned (← mR) : R (Ended α β)) s = (do let x ← mR s; .ok (.returned x.1, x.2) : Except UB _) := rfl
  unfold Refines at h
  unfold EndsX
  rw [e2]
  cases hm : m s.world with
  | error u => rw [hm] at h; rw [show mR s = .error u from h]; rfl
  | ok r =>
    rw [hm] at h
    obtain ⟨s', h1, h2, h3⟩ := h
    rw [h1]
    exact ⟨by rw [h2], h3⟩

theorem endsX_sign (lib : Lib) (mem : AllocOk) (ctx : Option Unit) (key : Option Nat) (msg : Option GatherList) (out : Option Bytes) (size : Option UInt64)
    {s : RWorld} (h : s.Accounted) :
    EndsX mem s (bsslSign lib ctx key msg out size) (bsslSignX lib mem ctx key msg out size) (out, size) (fun hp => hp = s.world.heap) := by
  unfold bsslSign bsslSignX
  cases ctx with
  | none => exact endsX_pure h _
  | some _ =>
    cases key with
    | none => exact endsX_pure h _
    | some p =>
      cases size with
      | none => exact endsX_pure h _
      | some sz =>
        refine endsX_bind (keeps_load p) h fun k s1 hk g => ?_
        have h1 := h.kept g
        obtain ⟨hp, -⟩ := loadKey_live hk
        split
        · exact endsX_pure h1 _
        · refine endsX_bind (keeps_lift _) h1 fun key s2 hc g2 => ?_
          have h2 := h1.kept g2
          have hp2 : Live s2.world p k := by unfold Live at hp ⊢; rw [g2.heap, g.heap]; exact hp
          obtain ⟨l, hh⟩ := h2.holds p k hp2
          obtain ⟨i, o, hm, hi⟩ := member_evp hh (castEvp_body hc)
          have e : (memberOf p >>= fun m => bsslSignRunX lib mem m k.type key msg out sz) s2 = bsslSignRunX lib mem (some i) k.type key msg out sz s2 := by
            show bsslSignRunX lib mem (s2.member p) k.type key msg out sz s2 = _
            rw [hm]
          unfold EndsX
          rw [e]
          have hw : s.world.heap = s2.world.heap := by rw [g2.heap, g.heap]
          rw [hw]
          exact endsX_simT h2 (simT_signRun lib mem i k.type key msg out sz h2.fresh hi)

theorem endsX_kdfRun (lib : Lib) (mem : AllocOk) (bits : Bytes) (type : UInt32) (context : Option GatherList) (old : Option Nat) {s : RWorld} (h : s.Accounted) :
    EndsX mem s (keyReply (bsslKdfRun lib bits type context) old) (keyReplyX (bsslKdfRunX lib mem bits type context) old) (some old) (fun hp => hp = s.world.heap) := by
  have hx := simX_kdfKey lib mem bits type context h.fresh
  have e1 : keyReply (bsslKdfRun lib bits type context) old s.world = (do
      let y ← (do let x ← (bsslKdfKey lib bits type context).run s.world; ExceptT.bindCont (fun key => (ExceptT.lift (newKey key) : BE Nat)) x.1 x.2 : Except UB _)
      (match y.1 with
        | .ok p => (return (.ok, some (some p)) : B KeyReply)
        | .error e => return (e, some old)) y.2 : Except UB _) := rfl
  have e2 : keyReplyX (bsslKdfRunX lib mem bits type context) old s = (do
      let y ← (do let x ← (bsslKdfKeyX lib mem bits type context).run s; ExceptT.bindCont (fun key => (ExceptT.lift (newKeyR key.1 key.2) : XE Nat)) x.1 x.2 : Except UB _)
      (match y.1 with
        | .ok p => (return .returned (.ok, some (some p)) : R (Ended KeyReply (Option (Option Nat))))
        | .error (.code e) => return .returned (e, some old)
        | .error .badAlloc => return .threw (some old)) y.2 : Except UB _) := rfl
  unfold SimX at hx
  unfold EndsX
  rw [e1, e2]
  cases hm : (bsslKdfKeyX lib mem bits type context).run s with
  | error u =>
    rw [hm] at hx
    rw [show (bsslKdfKey lib bits type context).run s.world = .error u from hx]; rfl
  | ok r =>
    obtain ⟨r, s1⟩ := r
    rw [hm] at hx
    cases r with
    | error e =>
      cases e with
      | badAlloc => exact ⟨hx.1, rfl, hx.2.live_eq, h.kept hx.2, hx.2.heap⟩
      | code e => rw [hx.1]; exact ⟨rfl, h.kept hx.2⟩
    | ok key =>
      obtain ⟨l, h1, h2, h3⟩ := hx
      obtain ⟨s', h4, h5, h6⟩ := accounted_new h h3 h2
      rw [h1]
      have e3 : ExceptT.bindCont (fun key => (ExceptT.lift (newKeyR key.1 key.2) : XE Nat)) (.ok key) s1 = .ok (.ok s1.world.heap.length, s') := by
        show (do let y ← newKeyR key.1 key.2 s1; .ok (.ok y.1, y.2) : Except UB (Except Stop Nat × RWorld)) = _
        rw [h4]; rfl
      have e4 : (do let x ← (.ok (.ok key, s1) : Except UB (Except Stop (BsslKey × Option Nat) × RWorld)); ExceptT.bindCont (fun key => (ExceptT.lift (newKeyR key.1 key.2) : XE Nat)) x.1 x.2 : Except UB _) =
          .ok (.ok s1.world.heap.length, s') := e3
      rw [e4]
      refine ⟨?_, h6⟩
      rw [h5]; rfl

theorem endsX_kdf (lib : Lib) (mem : AllocOk) (ctx : Option Unit) (keyIn : Option Nat) (type : UInt32) (context : Option GatherList) (keyOut : Option (Option Nat))
    {s : RWorld} (h : s.Accounted) :
    EndsX mem s (bsslKdf lib ctx keyIn type context keyOut) (bsslKdfX lib mem ctx keyIn type context keyOut) keyOut (fun hp => hp = s.world.heap) := by
  unfold bsslKdf bsslKdfX
  cases ctx with
  | none => exact endsX_pure h _
  | some _ =>
    cases keyIn with
    | none => exact endsX_pure h _
    | some p =>
      refine endsX_bind (keeps_load p) h fun k s1 _ g => ?_
      have h1 := h.kept g
      by_cases ht : k.type ≠ 4
      · rw [if_pos ht, if_pos ht]; exact endsX_pure h1 _
      · rw [if_neg ht, if_neg ht]
        refine endsX_bind (keeps_lift _) h1 fun bits s2 _ g2 => ?_
        have h2 := h1.kept g2
        cases keyOut with
        | none => exact endsX_pure h2 _
        | some old =>
          have hw : s.world.heap = s2.world.heap := by rw [g2.heap, g.heap]
          rw [hw]
          exact endsX_kdfRun lib mem bits type context old h2

theorem run_alloc {β : Type} (mem : AllocOk) (site : AllocSite) (kX : Unit → XE β) (s : RWorld) :
    (allocX mem site >>= kX).run s = if mem site s.world.calls then (kX ()).run s else .ok (.error .badAlloc, s) := by
  show (do let x ← allocX mem site s; ExceptT.bindCont kX x.1 x.2 : Except UB _) = _
  unfold allocX
  split <;> rfl

theorem endsX_makeSecretRun (mem : AllocOk) (p : Ptr) (size : UInt64) (old : Option Nat) {s : RWorld} (h : s.Accounted) :
    EndsX mem s (do
      let bits ← liftB (readSlice p size)
      let h ← newKey ⟨4, .inl bits⟩
      return (.ok, some (some h)) : B KeyReply) (keyReplyX (makeSecretRunX mem p size) old) (some old)
      (fun hp => hp = s.world.heap ∨ hp = s.world.heap ++ [some emptySecret]) := by
  obtain ⟨s1, h1, h2, h3⟩ := accounted_new h (got_refl h.fresh) (key := emptySecret) (m := none) (NeedsObjs.cdi [])
  have hm : s1 = { s with world := { s.world with heap := s.world.heap ++ [some emptySecret] }, member := setAt s.member s.world.heap.length none } := by
    have : newKeyR emptySecret none s = .ok (s.world.heap.length, { s with world := { s.world with heap := s.world.heap ++ [some emptySecret] }, member := setAt s.member s.world.heap.length none }) := rfl
    rw [this] at h1
    cases h1; rfl
  have e2 : (makeSecretRunX mem p size).run s =
      if mem .newKey s.world.calls then
        if mem .bits s.world.calls then
          match readSlice p size with
          | .error u => .error u
          | .ok bits => .ok (.ok s.world.heap.length, { s1 with world := { s1.world with heap := s1.world.heap.set s.world.heap.length (some ⟨4, .inl bits⟩) } })
        else .ok (.error .badAlloc, s1)
      else .ok (.error .badAlloc, s) := by
    unfold makeSecretRunX
    rw [run_alloc]
    split
    · rw [run_liftX (m := newKeyR ⟨4, .inl []⟩ none) h1, run_alloc, show s1.world.calls = s.world.calls by rw [h2]]
      split
      · cases readSlice p size <;> rfl
      · rfl
    · rfl
  have e1 : ((do
      let bits ← liftB (readSlice p size)
      let h ← newKey ⟨4, .inl bits⟩
      return (.ok, some (some h)) : B KeyReply) s.world : Except UB _) = match readSlice p size with
      | .error u => .error u
      | .ok bits => .ok ((.ok, some (some s.world.heap.length)), { s.world with heap := s.world.heap ++ [some ⟨4, .inl bits⟩] }) := by
    show (do let x ← liftB (readSlice p size) s.world; _ : Except UB (KeyReply × World)) = _
    cases readSlice p size <;> rfl
  have e3 : keyReplyX (makeSecretRunX mem p size) old s = (do
      let y ← (makeSecretRunX mem p size).run s
      (match y.1 with
        | .ok p => (return .returned (.ok, some (some p)) : R (Ended KeyReply (Option (Option Nat))))
        | .error (.code e) => return .returned (e, some old)
        | .error .badAlloc => return .threw (some old)) y.2 : Except UB _) := rfl
  unfold EndsX
  rw [e3, e2, e1]
  by_cases ha : mem .newKey s.world.calls = true
  · rw [if_pos ha]
    by_cases hb : mem .bits s.world.calls = true
    · rw [if_pos hb]
      cases hr : readSlice p size with
      | error u => rfl
      | ok bits =>
        obtain ⟨s', h4, h5, h6⟩ := accounted_new h (got_refl h.fresh) (key := ⟨4, .inl bits⟩) (m := none) (NeedsObjs.cdi bits)
        have hs' : s' = { s1 with world := { s1.world with heap := s1.world.heap.set s.world.heap.length (some ⟨4, .inl bits⟩) } } := by
          have : newKeyR ⟨4, .inl bits⟩ none s = .ok (s.world.heap.length, { s with world := { s.world with heap := s.world.heap ++ [some ⟨4, .inl bits⟩] }, member := setAt s.member s.world.heap.length none }) := rfl
          rw [this] at h4
          cases h4
          rw [hm]
          simp
        show _ ∧ RWorld.Accounted _
        rw [← hs']
        exact ⟨by rw [h5], h6⟩
    · rw [if_neg hb]
      exact ⟨⟨_, _, by simpa using hb⟩, rfl, by rw [hm], h3, .inr (by rw [h2])⟩
  · rw [if_neg ha]
    exact ⟨⟨_, _, by simpa using ha⟩, rfl, rfl, h, .inl rfl⟩

theorem endsX_makeSecret (mem : AllocOk) (ctx : Option Unit) (secret : Option Slice) (keyOut : Option (Option Nat)) {s : RWorld} (h : s.Accounted) :
    EndsX mem s (bsslMakeSecret ctx secret keyOut) (bsslMakeSecretX mem ctx secret keyOut) keyOut
      (fun hp => hp = s.world.heap ∨ hp = s.world.heap ++ [some emptySecret]) := by
  unfold bsslMakeSecret bsslMakeSecretX
  cases ctx with
  | none => exact endsX_pure h _
  | some _ =>
    cases secret with
    | none => exact endsX_pure h _
    | some x =>
      cases hb : x.buffer with
      | none => simp only [hb]; exact endsX_pure h _
      | some p =>
        simp only [hb]
        split
        · exact endsX_pure h _
        · cases keyOut with
          | none => exact endsX_pure h _
          | some old => exact endsX_makeSecretRun mem p x.size old h

theorem endsX_op (lib : Lib) (mem : AllocOk) (op : ApiOp) {s : RWorld} (h : s.Accounted) :
    EndsX mem s (op.run lib) (op.runX lib mem) op.vars (fun hp => hp = s.world.heap ∨ (op.GivesSecret ∧ hp = s.world.heap ++ [some emptySecret])) := by
  have mono : ∀ {α β : Type} {m : B α} {mX : R (Ended α β)} {v : β} {H H' : List (Option BsslKey) → Prop}, EndsX mem s m mX v H → (∀ x, H x → H' x) → EndsX mem s m mX v H' := by
    intro α β m mX v H H' h hh
    unfold EndsX at h ⊢
    split
    · rename_i e; rw [e] at h; exact h
    · rename_i e; rw [e] at h; exact h
    · rename_i e; rw [e] at h; exact ⟨h.1, h.2.1, h.2.2.1, h.2.2.2.1, hh _ h.2.2.2.2⟩
  cases op with
  | key op =>
    cases op with
    | kdf ctx keyIn type context keyOut => exact mono (endsX_map _ _ (endsX_kdf lib mem ctx keyIn type context keyOut h)) fun _ e => .inl e
    | sign ctx k msg out size => exact mono (endsX_map _ _ (endsX_sign lib mem ctx k msg out size h)) fun _ e => .inl e
    | makeSecret ctx secret keyOut => exact mono (endsX_map _ _ (endsX_makeSecret mem ctx secret keyOut h)) fun _ e => e.imp id fun e => ⟨trivial, e⟩
    | publicKey ctx k out size => exact endsX_refines (refines_op lib _ h)
    | free ctx k => exact endsX_refines (refines_op lib _ h)
  | digest ctx alg msg count out size => exact endsX_refines (refines_op lib _ h)
  | hmac ctx alg k msg out size => exact endsX_refines (refines_op lib _ h)
  | hkdf ctx alg ikm salt info n out => exact endsX_refines (refines_op lib _ h)
  | extract ctx alg ikm salt prk size => exact endsX_refines (refines_op lib _ h)
  | expand ctx alg prk info n out => exact endsX_refines (refines_op lib _ h)

/-! ## C87 -/

/-- C87, what holds: if memory runs out at any point of any call, then either the call returns what it would return with enough memory, or an exception leaves it.  In
the latter case an allocation failed, the variables of the caller are as before the call, the library objects are those of before, and so are the key objects, except
that an empty one may have been added by a call that gives a secret to the context.  No call does anything undefined that it would not do with enough memory.  Missing: the
call should return `n20_error_crypto_no_resources_e` (`C87_exception`), and no key object should be added (`C87_leak`). -/
theorem C87_calls_partial (lib : Lib) (mem : AllocOk) (op : ApiOp) (s : RWorld) (h : s.Accounted) :
    (∀ u, op.runX lib mem s = .error u → op.run lib s.world = .error u) ∧
    (∀ r s', op.runX lib mem s = .ok (.returned r, s') → op.run lib s.world = .ok (r, s'.world) ∧ s'.Accounted) ∧
    ∀ v s', op.runX lib mem s = .ok (.threw v, s') → mem.Short ∧ v = op.vars ∧ s'.live = s.live ∧ s'.Accounted ∧
      (s'.world.heap = s.world.heap ∨ (op.GivesSecret ∧ s'.world.heap = s.world.heap ++ [some emptySecret])) := by
  have hx := endsX_op lib mem op h
  unfold EndsX at hx
  refine ⟨?_, ?_, ?_⟩
  · intro u e; rw [e] at hx; exact hx
  · intro r s' e; rw [e] at hx; exact hx
  · intro v s' e; rw [e] at hx; exact hx

/-- C87: as long as there is memory, no exception is thrown. -/
theorem C87_enough (lib : Lib) (op : ApiOp) (s : RWorld) (h : s.Accounted) :
    (∀ u, op.run lib s.world = .error u → op.runX lib .always s = .error u) ∧
    ∀ r w, op.run lib s.world = .ok (r, w) → ∃ s', op.runX lib .always s = .ok (.returned r, s') ∧ s'.world = w ∧ s'.Accounted := by
  obtain ⟨h1, h2, h3⟩ := C87_calls_partial lib .always op s h
  have no : ¬ AllocOk.Short .always := by rintro ⟨_, _, h⟩; cases h
  cases hx : op.runX lib .always s with
  | error u =>
    have := h1 u hx
    refine ⟨fun u' e => ?_, fun r w e => ?_⟩
    · rw [this] at e; cases e; rfl
    · rw [this] at e; cases e
  | ok x =>
    obtain ⟨x, s'⟩ := x
    cases x with
    | returned r =>
      obtain ⟨h4, h5⟩ := h2 r s' hx
      refine ⟨fun u' e => ?_, fun r w e => ?_⟩
      · rw [h4] at e; cases e
      · rw [h4] at e; cases e; exact ⟨s', rfl, rfl, h5⟩
    | threw v => exact absurd (h3 v s' hx).1 no

/-- C87, what holds: after any sequence of calls during which memory ran out any number of times, the library objects that exist are those of the key objects that exist. -/
theorem C87_histories_partial (lib : Lib) (ops : List (ApiOp × Ended ApiReply CallerVars)) (s s' : RWorld) (h : s.Accounted) (hist : XHistory lib s ops s') :
    s'.Accounted := by
  induction hist with
  | nil s => exact h
  | @cons s s1 s2 op mem r ops hr hh ih =>
    refine ih ?_
    obtain ⟨-, h2, h3⟩ := C87_calls_partial lib mem op s h
    cases r with
    | returned r => exact (h2 r s1 hr).2
    | threw v => exact (h3 v s1 hr).2.2.2.1

/-- C87, what holds: a legal call that deals with keys returns, or it throws, or no private key is found; it does nothing undefined, however little memory there is. -/
theorem C87_legal_calls_partial (lib : Lib) (hlib : lib.Standard) (mem : AllocOk) (op : KeyOp) (s : RWorld) (h : s.Accounted) (hw : s.world.Ok) (hl : op.Legal s.world) :
    ((ApiOp.key op).runX lib mem s = .error .diverges ∧ op.Stuck lib s.world) ∨
    (∃ r s', (ApiOp.key op).runX lib mem s = .ok (.returned r, s') ∧ s'.world.Ok ∧ s'.Accounted) ∨
    ∃ s', (ApiOp.key op).runX lib mem s = .ok (.threw (ApiOp.key op).vars, s') ∧ s'.Accounted := by
  obtain ⟨h1, h2, h3⟩ := C87_calls_partial lib mem (.key op) s h
  have hr := key_run lib op s.world
  cases hx : (ApiOp.key op).runX lib mem s with
  | error u =>
    have e := h1 u hx
    rw [e] at hr
    rcases C57_step lib hlib op s.world hw hl with ⟨e', hs⟩ | ⟨_, _, e', -⟩
    · rw [e'] at hr; cases hr
      exact .inl ⟨rfl, hs⟩
    · rw [e'] at hr; cases hr
  | ok x =>
    obtain ⟨x, s'⟩ := x
    cases x with
    | returned r =>
      obtain ⟨h4, h5⟩ := h2 r s' hx
      rw [h4] at hr
      rcases C57_step lib hlib op s.world hw hl with ⟨e', hs⟩ | ⟨_, _, e', hok, -⟩
      · rw [e'] at hr; cases hr
      · rw [e'] at hr; cases hr
        exact .inr (.inl ⟨r, s', rfl, hok, h5⟩)
    | threw v =>
      obtain ⟨-, h4, -, h5, -⟩ := h3 v s' hx
      exact .inr (.inr ⟨s', by rw [h4], h5⟩)

/-- C87 does not hold: whatever the library does, a secret that is passed correctly is answered by an exception if there is no memory for the key object, although
`n20_error_crypto_no_resources_e` stands for "memory allocation errors" (`error.h` 208-211) and the code looks for a null pointer (`bssl.cpp` 1064). -/
theorem C87_exception (lib : Lib) (mem : AllocOk) (s : RWorld) (p : Ptr) (size : UInt64) (old : Option Nat) (hs : size ≠ 0) (hm : mem .newKey s.world.calls = false) :
    (ApiOp.key (.makeSecret (some ()) (some ⟨size, some p⟩) (some old))).runX lib mem s = .ok (.threw { key := some old }, s) := by
  have e : (makeSecretRunX mem p size).run s = .ok (.error .badAlloc, s) := by
    unfold makeSecretRunX
    rw [run_alloc, hm]
    rfl
  show (do let x ← (if size = 0 then _ else _ : R _) s; _ : Except UB _) = _
  rw [if_neg hs]
  show (do let x ← (do let y ← (makeSecretRunX mem p size).run s; _ : Except UB _); _ : Except UB _) = _
  rw [e]
  rfl

/-- C87 does not hold: if there is memory for the key object but not for its contents, then the key object is lost.  There is one more afterwards, and the caller has
no handle to it, because `*key_out` was not assigned. -/
theorem C87_leak (lib : Lib) (mem : AllocOk) (s : RWorld) (p : Ptr) (size : UInt64) (old : Option Nat) (hs : size ≠ 0) (hm : mem .newKey s.world.calls = true)
    (hb : mem .bits s.world.calls = false) :
    ∃ s', (ApiOp.key (.makeSecret (some ()) (some ⟨size, some p⟩) (some old))).runX lib mem s = .ok (.threw { key := some old }, s') ∧
      s'.world.heap = s.world.heap ++ [some emptySecret] := by
  let s1 : RWorld := { s with world := { s.world with heap := s.world.heap ++ [some emptySecret] }, member := setAt s.member s.world.heap.length none }
  have h1 : newKeyR ⟨4, .inl []⟩ none s = .ok (s.world.heap.length, s1) := rfl
  have e : (makeSecretRunX mem p size).run s = .ok (.error .badAlloc, s1) := by
    unfold makeSecretRunX
    rw [run_alloc, hm, if_pos rfl, run_liftX h1, run_alloc, show s1.world.calls = s.world.calls from rfl, hb]
    rfl
  refine ⟨s1, ?_, rfl⟩
  show (do let x ← (if size = 0 then _ else _ : R _) s; _ : Except UB _) = _
  rw [if_neg hs]
  show (do let x ← (do let y ← (makeSecretRunX mem p size).run s; _ : Except UB _); _ : Except UB _) = _
  rw [e]
  rfl

/-! ## Examples -/

/-- What can be seen of the end of a call: how it ended, which library objects exist and how many key objects. -/
def seenX (r : Except UB (Ended ApiReply CallerVars × RWorld)) : Except UB (Ended N20Error CallerVars × List (Option LibObj) × Nat) :=
  r.map fun x => (x.1.map (·.err) id, (List.range x.2.next).map x.2.live, x.2.world.heap.length)

/-- Memory that runs out at one place. -/
def shortAt (site : AllocSite) : AllocOk := fun site' _ => site' != site

/-- The theorems apply to `someObjs`, which has a CDI, a P-256 key and an Ed25519 key. -/
example : someObjs.Accounted ∧ someObjs.world.Ok ∧ calmLib.Standard ∧ (shortAt .t).Short :=
  ⟨someObjs_accounted, someKeys_ok, calmLib_standard, .t, 0, rfl⟩

/-- The derivation of a P-256 key: when memory runs out in the loop, the `HMAC_CTX` is destroyed. -/
example : seenX ((ApiOp.key (.kdf (some ()) (some 0) 1 (some ⟨0, none⟩) (some none))).runX calmLib (shortAt .t) someObjs) =
      .ok (.threw { key := some none }, [some ⟨.pkey, some 1⟩, some ⟨.ecKey, none⟩, some ⟨.pkey, none⟩, none], 4) := by
  decide +kernel

/-- That of an Ed25519 key, without and with enough memory. -/
example : seenX ((ApiOp.key (.kdf (some ()) (some 0) 3 (some ⟨0, none⟩) (some none))).runX calmLib (shortAt .newKey) someObjs) =
      .ok (.threw { key := some none }, [some ⟨.pkey, some 1⟩, some ⟨.ecKey, none⟩, some ⟨.pkey, none⟩, none], 4) ∧
    seenX ((ApiOp.key (.kdf (some ()) (some 0) 3 (some ⟨0, none⟩) (some none))).runX calmLib .always someObjs) =
      .ok (.returned .ok, [some ⟨.pkey, some 1⟩, some ⟨.ecKey, none⟩, some ⟨.pkey, none⟩, some ⟨.pkey, none⟩], 5) := by
  decide +kernel

/-- The end of the derivation of a P-256 key: a number, a point, an `EC_KEY` and an `EVP_PKEY` are made, and all of them are destroyed if there is no memory for the key
object; otherwise the last two stay. -/
def ecEnd (mem : AllocOk) : Except UB (Bool × List (Option LibObj)) :=
  ((do
    let k ← newObjX calmLib .bignum .noResources
    scopeX (some k) (ecPairX calmLib mem ⟨1, .inr (.ec .p256 5)⟩ k) : XE _).run someObjs).map fun x => (x.1.isOk, (List.range x.2.next).map x.2.live)

example : ecEnd (shortAt .newKey) = .ok (false, [some ⟨.pkey, some 1⟩, some ⟨.ecKey, none⟩, some ⟨.pkey, none⟩, none, none, none, none]) ∧
    ecEnd .always = .ok (true, [some ⟨.pkey, some 1⟩, some ⟨.ecKey, none⟩, some ⟨.pkey, none⟩, none, none, some ⟨.ecKey, none⟩, some ⟨.pkey, some 5⟩]) := by
  decide +kernel

/-- A signature with the Ed25519 key, when there is no memory for the message. -/
example : seenX ((ApiOp.key (.sign (some ()) (some 2) (some ⟨1, some [⟨1, some ⟨[], [7]⟩⟩]⟩) (some (List.replicate 64 0)) (some 64))).runX calmLib (shortAt (.insert 0)) someObjs) =
      .ok (.threw { out := some (List.replicate 64 0), size := some 64 }, [some ⟨.pkey, some 1⟩, some ⟨.ecKey, none⟩, some ⟨.pkey, none⟩, none], 4) ∧
    seenX ((ApiOp.key (.sign (some ()) (some 2) (some ⟨1, some [⟨1, some ⟨[], [7]⟩⟩]⟩) (some (List.replicate 64 0)) (some 64))).runX calmLib (shortAt (.insert 1)) someObjs) =
      .ok (.returned .ok, [some ⟨.pkey, some 1⟩, some ⟨.ecKey, none⟩, some ⟨.pkey, none⟩, none], 4) := by
  decide +kernel

/-- A history with an exception after which no key can be destroyed any more, but one exists. -/
example : ∃ ops s, ops.length = 1 ∧ XHistory calmLib RWorld.start ops s ∧ Live s.world 0 emptySecret :=
  ⟨[(.key (.makeSecret (some ()) (some ⟨1, some ⟨[], [7]⟩⟩) (some none)), .threw { key := some none })], _, rfl, .cons (mem := shortAt .bits) rfl (.nil _), rfl⟩

end Nat20
