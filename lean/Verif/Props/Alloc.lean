import Verif.Lemmas.AllocThreads
/-!
# C86: key handles are addresses
-/

namespace Nat20

open Fips

/-! ## One call -/

/-- What a call does to the key objects. -/
inductive KeyEffect (fresh : Nat) (op : ApiOp) (w : AddrWorld) (r : ApiReply) (w' : AddrWorld) : Prop where
  | none (keys : w'.keys = w.keys) (reply : r.err = .ok → r.key = none)
  | create (key : BsslKey) (keys : w'.keys = setAt w.keys fresh (some key)) (reply : r = { err := .ok, key := some (some fresh) })
  | destroy (p : Nat) (key : BsslKey) (destroys : op.Destroys p) (live : w.keys p = some key) (keys : w'.keys = setAt w.keys p none) (reply : r = { err := .ok })

theorem final_effect {lib : Lib} {fresh : Nat} {op : ApiOp} {l : L Final} {w w' : AddrWorld} {r : ApiReply} (ht : l.Tidy)
    (h : runFinalAt lib fresh l w = .ok (r, w')) : KeyEffect fresh op w r w' := by
  unfold runFinalAt at h
  cases hr : l.runFrom lib w.calls with
  | error e => rw [hr] at h; cases h
  | ok x =>
    obtain ⟨f, n⟩ := x
    rw [hr] at h
    have hf := runFrom_tidy ht hr
    cases f with
    | reply r' =>
      cases h
      exact .none rfl hf
    | create key =>
      cases h
      exact .create key rfl rfl
    | destroy p => exact absurd hf id

/-- The proof of `C86_effect`. -/
theorem runAt_effect {lib : Lib} {fresh : Nat} {op : ApiOp} {w w' : AddrWorld} {r : ApiReply} (h : op.runAt lib fresh w = .ok (r, w')) :
    KeyEffect fresh op w r w' := by
  unfold ApiOp.runAt at h
  cases prog_cases lib.fns id op with
  | load p l _ h1 _ ht =>
    rw [h1] at h
    unfold CallProg.runAt at h
    dsimp only at h
    cases hp : w.keys p with
    | none => rw [hp] at h; cases h
    | some key =>
      rw [hp] at h
      exact final_effect (ht key) h
  | run l h1 _ ht =>
    rw [h1] at h
    exact final_effect ht h
  | free p _ hd h1 _ =>
    rw [h1] at h
    have h : (Final.destroy p).commitAt fresh { w with calls := w.calls } = .ok (r, w') := h
    unfold Final.commitAt at h
    dsimp only at h
    cases hp : w.keys p with
    | none => rw [hp] at h; cases h
    | some key =>
      rw [hp] at h
      cases h
      exact .destroy p key hd hp rfl rfl

theorem final_sim {φ : Nat → Nat} {w : AddrWorld} {w0 : World} (hr : Represents φ w w0) (lib : Lib) {fresh : Nat} (hf : w.keys fresh = none) {l : L Final} (ht : l.Tidy) :
    match runFinalAt lib fresh l w with
    | .error e => (do let f ← L.toB lib l; f.commit : B ApiReply) w0 = .error e
    | .ok (r, w') => ∃ w0', (do let f ← L.toB lib l; f.commit : B ApiReply) w0 = .ok (r.rename (setAt φ fresh w0.heap.length), w0') ∧
        Represents (setAt φ fresh w0.heap.length) w' w0' := by
  unfold runFinalAt
  rw [runFinal_world, ← hr.calls]
  cases h : l.runFrom lib w.calls with
  | error e => rfl
  | ok x =>
    obtain ⟨f, n⟩ := x
    obtain ⟨r, w', w0', h1, h2, h3⟩ := commit_tidy (represents_calls hr n) (fresh := fresh) hf (runFrom_tidy ht h)
    dsimp only
    rw [h1]
    exact ⟨w0', h2, h3⟩

/-- **C86** (one call).  The reference context with key objects at addresses, of which the allocator may choose any that is not in use, and the same key objects under numbers that are never used again: a call that gets
the handle of a key object that was not destroyed does the same with the address as with the number.  It is undefined in one case if and only if it is so in the other.  A new key object gets the next number. -/
theorem C86_call (lib : Lib) (φ : Nat → Nat) (w : AddrWorld) (w0 : World) (hr : Represents φ w w0) (op : ApiOp)
    (hl : ∀ p, op.handle = some p → ∃ k, w.keys p = some k) (fresh : Nat) (hf : w.keys fresh = none) :
    match op.runAt lib fresh w with
    | .error e => (op.rename φ).run lib w0 = .error e
    | .ok (r, w') => ∃ w0', (op.rename φ).run lib w0 = .ok (r.rename (setAt φ fresh w0.heap.length), w0') ∧
        Represents (setAt φ fresh w0.heap.length) w' w0' := by
  unfold ApiOp.runAt
  rw [← prog_alone]
  cases prog_cases lib.fns φ op with
  | load p l hh h1 h2 ht =>
    obtain ⟨key, hk⟩ := hl p hh
    rw [h1, h2]
    have hload : (CallProg.load (φ p) l).alone lib w0 = (do let f ← L.toB lib (l key); f.commit : B ApiReply) w0 := by
      have : w0.heap[φ p]? = some (some key) := hr.keys p key hk
      show Except.bind (loadKey (φ p) w0) _ = _
      unfold loadKey
      rw [this]
      rfl
    rw [hload]
    unfold CallProg.runAt
    dsimp only
    rw [hk]
    exact final_sim hr lib hf (ht key)
  | run l h1 h2 ht =>
    rw [h1, h2]
    exact final_sim hr lib hf ht
  | free p hh hd h1 h2 =>
    obtain ⟨key, hk⟩ := hl p hh
    rw [h1, h2]
    obtain ⟨r, w', w0', e1, e2, e3⟩ := commit_destroys hr hf hk
    have e1' : (CallProg.run (.done (.destroy p))).runAt lib fresh w = .ok (r, w') := e1
    rw [e1']
    exact ⟨w0', e2, e3⟩

/-- **C86** (what a call does to the key objects).  A call that returns a handle with `ok` has made a key object at the address that the allocator chose, and changed nothing else; only `key_free` destroys a key object,
which is the one that it gets; all other calls change no key object. -/
theorem C86_effect (lib : Lib) (fresh : Nat) (op : ApiOp) (w w' : AddrWorld) (r : ApiReply) (h : op.runAt lib fresh w = .ok (r, w')) :
    (∀ p, r.err = .ok → r.key = some (some p) → p = fresh ∧ (∃ key, w'.keys p = some key) ∧ ∀ q, q ≠ p → w'.keys q = w.keys q) ∧
    (∀ p, op.Destroys p → w'.keys p = none ∧ ∀ q, q ≠ p → w'.keys q = w.keys q) ∧
    ((∀ p, ¬ op.Destroys p) → (r.err ≠ .ok ∨ r.key = none) → w'.keys = w.keys) := by
  have hfree : ∀ p, op.Destroys p → (∃ key, w.keys p = some key) ∧ r = { err := .ok } ∧ w'.keys = setAt w.keys p none := by
    intro p hd
    match op, hd with
    | .key (.free ctx k), hd =>
      obtain ⟨rfl, rfl⟩ := hd
      have h : (Final.destroy p).commitAt fresh { w with calls := w.calls } = .ok (r, w') := h
      unfold Final.commitAt at h
      dsimp only at h
      cases hp : w.keys p with
      | none => rw [hp] at h; cases h
      | some key =>
        rw [hp] at h
        cases h
        exact ⟨⟨key, rfl⟩, rfl, rfl⟩
  refine ⟨fun p he hk => ?_, fun p hd => ?_, fun hd hk => ?_⟩
  · cases runAt_effect h with
    | none _ h2 => rw [h2 he] at hk; cases hk
    | create key h1 h2 =>
      rw [h2] at hk
      cases hk
      exact ⟨rfl, ⟨key, by rw [h1, setAt_self]⟩, fun q hq => by rw [h1, setAt_ne _ _ hq]⟩
    | destroy q key _ _ _ h2 => rw [h2] at hk; cases hk
  · obtain ⟨-, -, h1⟩ := hfree p hd
    exact ⟨by rw [h1, setAt_self], fun q hq => by rw [h1, setAt_ne _ _ hq]⟩
  · cases runAt_effect h with
    | none h1 _ => exact h1
    | create key _ h2 =>
      rw [h2] at hk
      rcases hk with hk | hk
      · exact absurd rfl hk
      · cases hk
    | destroy q key h1 _ _ _ => exact absurd h1 (hd q)

/-! ## Histories -/

theorem rename_legal {φ : Nat → Nat} {w : AddrWorld} {w0 : World} (hr : Represents φ w w0) {op : ApiOp} (h : op.LegalAt w) : (op.rename φ).Legal w0 := by
  have hh : ∀ key : Option Nat, op.handle = key → HandleOk w0 (key.map φ) := by
    intro key e n hn
    cases key with
    | none => cases hn
    | some p =>
      cases hn
      obtain ⟨k, hk⟩ := h.1 p e
      exact ⟨k, hr.keys p k hk⟩
  match op, h.2, hh with
  | .key (.kdf _ _ _ _ _), h, hh => exact ⟨hh _ rfl, h⟩
  | .key (.sign _ _ _ _ _), h, hh => exact ⟨hh _ rfl, h⟩
  | .key (.publicKey _ _ _ _), h, hh => exact ⟨hh _ rfl, h⟩
  | .key (.free _ _), _, hh => exact hh _ rfl
  | .key (.makeSecret _ _ _), h, _ => exact h
  | .digest .., _, _ => trivial
  | .hmac .., _, _ => trivial
  | .hkdf .., _, _ => trivial
  | .extract .., _, _ => trivial
  | .expand .., _, _ => trivial

/-- **C86** (histories).  Whatever the allocator does: every history of legal calls with key objects at addresses, some of which are used again and again, is a history of the same calls and replies with numbers that are
never used again. -/
theorem C86_history (lib : Lib) (φ : Nat → Nat) (w w' : AddrWorld) (w0 : World) (hr : Represents φ w w0) (ops : List (Nat × ApiOp × ApiReply))
    (h : AddrHistory lib w ops w') :
    ∃ φ' ops0 w0', ApiHistory lib w0 ops0 w0' ∧ Renamed φ ops ops0 φ' ∧ Represents φ' w' w0' := by
  induction h generalizing φ w0 with
  | nil w => exact ⟨φ, [], w0, .nil _, .nil _, hr⟩
  | @cons w w1 w2 fresh op r ops hl hf hrun _ ih =>
    have hc := C86_call lib φ w w0 hr op hl.1 fresh hf
    rw [hrun] at hc
    obtain ⟨w01, h1, h2⟩ := hc
    obtain ⟨φ', ops0, w0', h3, h4, h5⟩ := ih _ _ h2
    exact ⟨φ', _, w0', .cons (rename_legal hr hl) h1 h3, .cons (fun q hq => setAt_ne _ _ hq) h4, h5⟩

theorem represents_start : Represents id AddrWorld.start ⟨0, []⟩ :=
  ⟨rfl, fun _ _ h => (nomatch h), fun _ _ _ _ h => (nomatch h), fun _ _ h => by cases h⟩

/-- **C86** (handles).  In every history of legal calls, the key object behind a handle that is not destroyed stays the same, and no other key object gets the same handle in the meantime. -/
theorem C86_kept (lib : Lib) (w w' : AddrWorld) (ops : List (Nat × ApiOp × ApiReply)) (h : AddrHistory lib w ops w') (p : Nat) (k : BsslKey) (hp : w.keys p = some k)
    (hd : ∀ x ∈ ops, ¬ x.2.1.Destroys p) : w'.keys p = some k ∧ ∀ x ∈ ops, x.2.2.err = .ok → x.2.2.key ≠ some (some p) := by
  induction h with
  | nil w => exact ⟨hp, fun _ hx => nomatch hx⟩
  | @cons w w1 w2 fresh op r ops hl hf hrun _ ih =>
    have hne : p ≠ fresh := fun e => by rw [e, hf] at hp; cases hp
    have hstep : w1.keys p = some k ∧ (r.err = .ok → r.key ≠ some (some p)) := by
      cases runAt_effect hrun with
      | none h1 h2 => exact ⟨by rw [h1]; exact hp, fun he hk => by rw [h2 he] at hk; cases hk⟩
      | create key h1 h2 =>
        refine ⟨by rw [h1, setAt_ne _ _ hne]; exact hp, fun _ hk => ?_⟩
        rw [h2] at hk
        cases hk
        exact hne rfl
      | destroy q key h1 h2 h3 h4 =>
        have hq : p ≠ q := fun e => hd _ List.mem_cons_self (e ▸ h1)
        exact ⟨by rw [h3, setAt_ne _ _ hq]; exact hp, fun _ hk => by rw [h4] at hk; cases hk⟩
    obtain ⟨h1, h2⟩ := ih hstep.1 fun x hx => hd x (List.mem_cons_of_mem _ hx)
    refine ⟨h1, fun x hx => ?_⟩
    rcases List.mem_cons.1 hx with rfl | hx
    · exact hstep.2
    · exact h2 x hx

theorem rename_key {φ : Nat → Nat} (op : KeyOp) : ∃ op', (ApiOp.key op).rename φ = .key op' := by
  cases op <;> exact ⟨_, rfl⟩

theorem renamed_keys {φ φ' : Nat → Nat} {ops : List (Nat × ApiOp × ApiReply)} {ops0 : List (ApiOp × ApiReply)} (h : Renamed φ ops ops0 φ')
    (hk : ∀ x ∈ ops, ∃ op, x.2.1 = .key op) : ∀ x ∈ ops0, ∃ op, x.1 = .key op := by
  induction h with
  | nil => exact fun _ hx => nomatch hx
  | @cons φ φ1 φ2 fresh op r ops ops0 _ _ ih =>
    intro x hx
    rcases List.mem_cons.1 hx with rfl | hx
    · obtain ⟨op', e⟩ := hk _ List.mem_cons_self
      dsimp only at e
      subst e
      exact rename_key op'
    · exact ih (fun y hy => hk y (List.mem_cons_of_mem _ hy)) x hx

theorem stuck_at {lib : Lib} {φ : Nat → Nat} {w : AddrWorld} {w0 : World} (hr : Represents φ w w0) {op op' : KeyOp} (hl : ∀ p, (ApiOp.key op).handle = some p → ∃ k, w.keys p = some k)
    (e : (ApiOp.key op).rename φ = .key op') (h : op'.Stuck lib w0) : op.StuckAt lib w := by
  obtain ⟨ctx, n, type, g, keyOut, cdi, rfl, h1, h2⟩ := h
  cases op with
  | kdf ctx' keyIn type' context' keyOut' =>
    cases keyIn with
    | none => cases e
    | some p =>
      cases e
      obtain ⟨k, hk⟩ := hl p rfl
      have hk' : w0.heap[φ p]? = some (some k) := hr.keys p k hk
      have h1' : w0.heap[φ p]? = some (some ⟨4, .inl cdi⟩) := h1
      rw [hk'] at h1'
      cases h1'
      exact ⟨ctx, p, type, g, keyOut, cdi, rfl, hk, h2⟩
  | sign => cases e
  | publicKey => cases e
  | free => cases e
  | makeSecret => cases e

/-- **C86** (safety).  After every history of legal calls that deal with keys, starting without key objects, whatever the allocator and the library did: every further legal call is defined; it returns, unless no candidate
for a private key is acceptable. -/
theorem C86_safe (lib : Lib) (hlib : lib.Standard) (ops : List (Nat × ApiOp × ApiReply)) (w : AddrWorld) (h : AddrHistory lib AddrWorld.start ops w)
    (hk : ∀ x ∈ ops, ∃ op, x.2.1 = .key op) (op : KeyOp) (hl : (ApiOp.key op).LegalAt w) (fresh : Nat) (hf : w.keys fresh = none) :
    (∃ r w', (ApiOp.key op).runAt lib fresh w = .ok (r, w')) ∨ ((ApiOp.key op).runAt lib fresh w = .error .diverges ∧ op.StuckAt lib w) := by
  obtain ⟨φ, ops0, w0, h1, h2, h3⟩ := C86_history lib id _ _ _ represents_start ops h
  obtain ⟨kops, hops, -⟩ := keys_history h1 (renamed_keys h2 hk)
  obtain ⟨hok, -, -⟩ := C57_histories lib hlib _ (fun p k hp => by cases hp) kops _ hops
  have hc := C86_call lib φ w w0 h3 (.key op) hl.1 fresh hf
  obtain ⟨op', e⟩ := rename_key (φ := φ) op
  have hl' := rename_legal h3 hl
  rw [e] at hc hl'
  cases hr : (ApiOp.key op).runAt lib fresh w with
  | ok x => exact .inl ⟨x.1, x.2, rfl⟩
  | error u =>
    rw [hr] at hc
    have hrun := key_run lib op' w0
    dsimp only at hc
    rw [hc] at hrun
    rcases C57_step lib hlib op' w0 hok hl' with ⟨h4, h5⟩ | ⟨e', w'', h4, -⟩
    · have hu := hrun.symm.trans h4
      cases hu
      exact .inr ⟨rfl, stuck_at h3 hl.1 e h5⟩
    · have hu := hrun.symm.trans h4
      cases hu

/-! ## Threads -/

/-- **C86** (threads).  Any number of threads, each of them running any program, use the reference context at the same time, under any schedule, and the allocator chooses any address that is not in use; they stick to the
rules: every call is legal when it starts, and no key is destroyed while it is in use.  Then the calls that have returned, in the order in which they returned, are calls that could have been made one after the other, with
the same addresses and replies and the same key objects at the same addresses in the end.  The library calls are the same, too, each of them made once, in another order.  Each thread has made the calls that its program
makes with these replies. -/
theorem C86_threads (lib : Lib) (w : AddrWorld) (clients : Nat → Client) (sched : List (Nat × Nat)) (s : AddrPool)
    (hd : AddrDisciplined lib sched ⟨w, fun i => .idle (clients i), []⟩) (h : AddrPool.exec lib sched ⟨w, fun i => .idle (clients i), []⟩ = .ok s) :
    (∃ σ n, AddrHistory (lib.renumber σ) ⟨0, w.keys⟩ (s.log.map AddrCall.call) ⟨n, s.world.keys⟩ ∧
      (∀ a < n, w.calls ≤ σ a ∧ σ a < s.world.calls) ∧ ∀ a b, a < n → b < n → σ a = σ b → a = b) ∧
    ∀ i, (clients i).Makes (s.logOf i) (s.threads i).client := by
  obtain ⟨ns, own, hinv⟩ := Addr.inv_exec sched (Addr.inv_start lib w clients) hd h
  refine ⟨⟨numbers ns, ns.length, hinv.hist _ (numbers_numbered ns), ?_, ?_⟩, hinv.makes⟩
  · intro a ha
    have := numbers_numbered ns a ha
    rw [Nat.zero_add] at this
    rw [this]
    exact hinv.range 0 _ (List.mem_append_left _ (List.getElem_mem ha))
  · intro a b ha hb hab
    have h1 := numbers_numbered ns a ha
    have h2 := numbers_numbered ns b hb
    rw [Nat.zero_add] at h1 h2
    rw [h1, h2] at hab
    have hp := List.pairwise_iff_getElem.1 (List.nodup_append.1 (hinv.nodup 0)).1
    rcases Nat.lt_trichotomy a b with hlt | heq | hlt
    · exact absurd hab (hp a b ha hb hlt)
    · exact heq
    · exact absurd hab.symm (hp b a hb ha hlt)

/-- **C86** (threads).  If, under these rules, a step of a thread is undefined, then it is so because the call that the thread is in would be undefined if it were made after the calls that have returned, with nobody else around. -/
theorem C86_threads_undefined (lib : Lib) (w : AddrWorld) (clients : Nat → Client) (sched : List (Nat × Nat)) (s : AddrPool) (i fresh : Nat) (e : UB)
    (hd : AddrDisciplined lib sched ⟨w, fun i => .idle (clients i), []⟩) (h : AddrPool.exec lib sched ⟨w, fun i => .idle (clients i), []⟩ = .ok s)
    (hc : s.Careful i fresh) (he : s.step lib i fresh = .error e) :
    ∃ σ n op p k, AddrHistory (lib.renumber σ) ⟨0, w.keys⟩ (s.log.map AddrCall.call) ⟨n, s.world.keys⟩ ∧ s.threads i = .busy op p k ∧ op.LegalAt ⟨n, s.world.keys⟩ ∧
      op.runAt (lib.renumber σ) fresh ⟨n, s.world.keys⟩ = .error e := by
  obtain ⟨ns, own, hinv⟩ := Addr.inv_exec sched (Addr.inv_start lib w clients) hd h
  have hs := Addr.inv_step hinv i fresh hc
  rw [he] at hs
  obtain ⟨op, p, k, h1, h2, h3⟩ := hs
  have hn := numbers_numbered (ns ++ own i)
  have hr := hn.right
  rw [Nat.zero_add] at hr
  exact ⟨numbers (ns ++ own i), ns.length, op, p, k, hinv.hist _ hn.left, h1, Addr.legal_kept h2 fun _ _ _ hp => hp, h3 _ hr⟩

/-! ## Examples -/

/-- Some secret. -/
def secretOp (b : UInt8) : ApiOp := .key (.makeSecret (some ()) (some ⟨1, some ⟨[], [b]⟩⟩) (some none))

/-- A secret, which is destroyed, and another one, which gets the same address: the theorems on histories apply. -/
theorem some_reuse : AddrHistory calmLib AddrWorld.start
    [(9, secretOp 7, { err := .ok, key := some (some 9) }), (5, .key (.free (some ()) (some 9)), { err := .ok }), (9, secretOp 8, { err := .ok, key := some (some 9) })]
    ⟨0, setAt (setAt (setAt (fun _ => none) 9 (some ⟨4, .inl [7]⟩)) 9 none) 9 (some ⟨4, .inl [8]⟩)⟩ := by
  refine .cons ⟨fun p hp => (by cases hp), fun s hs => (by cases hs; decide)⟩ rfl rfl ?_
  refine .cons ⟨fun p hp => (by cases hp; exact ⟨_, rfl⟩), trivial⟩ rfl rfl ?_
  exact .cons ⟨fun p hp => (by cases hp), fun s hs => (by cases hs; decide)⟩ rfl rfl (.nil _)

/-- With numbers, the two are different. -/
example : Renamed id
    [(9, secretOp 7, { err := .ok, key := some (some 9) }), (5, .key (.free (some ()) (some 9)), { err := .ok }), (9, secretOp 8, { err := .ok, key := some (some 9) })]
    [(secretOp 7, { err := .ok, key := some (some 0) }), (.key (.free (some ()) (some 0)), { err := .ok }), (secretOp 8, { err := .ok, key := some (some 1) })]
    (setAt (setAt (setAt id 9 0) 5 1) 9 1) :=
  .cons (φ1 := setAt id 9 0) (fun _ h => setAt_ne _ _ h) (.cons (φ1 := setAt (setAt id 9 0) 5 1) (fun _ h => setAt_ne _ _ h) (.cons (fun _ h => setAt_ne _ _ h) (.nil _)))

/-- So a program that keeps a handle after it destroyed the key is not told so: at that address there is another key now.  (With numbers, the call is undefined.) -/
example : (∃ w, (ApiOp.key (.free (some ()) (some 9))).runAt calmLib 5 ⟨0, setAt (setAt (setAt (fun _ => none) 9 (some ⟨4, .inl [7]⟩)) 9 none) 9 (some ⟨4, .inl [8]⟩)⟩
      = .ok ({ err := .ok }, w)) ∧
    (ApiOp.key (.free (some ()) (some 0))).run calmLib ⟨0, [none, some ⟨4, .inl [8]⟩]⟩ = .error .useAfterFree :=
  ⟨⟨_, rfl⟩, rfl⟩

/-- The key objects of `someKeys` at addresses. -/
def someAddrs : AddrWorld := ⟨0, fun p => (someKeys.heap[p]?).join⟩

/-- As `someSchedule`; the new key object gets the address of the one that was destroyed. -/
def someAddrSchedule : List (Nat × Nat) := [(0, 9), (1, 9), (0, 9), (0, 9), (1, 9), (0, 9), (1, 9), (0, 9), (1, 1), (0, 9)]

/-- What is left when all is done. -/
def addrOutcome (r : Except UB AddrPool) : Except UB (List (Nat × N20Error × Option (Option Nat)) × Nat × List Bool) :=
  r.map fun s => (s.log.map fun x => (x.thread, x.reply.err, x.reply.key), s.world.calls, (List.range 6).map fun p => (s.world.keys p).isSome)

/-- The signature is made although another key is destroyed and one is made meanwhile, which gets the address of the former. -/
example : addrOutcome (AddrPool.exec calmLib someAddrSchedule ⟨someAddrs, fun i => .idle (someClients 1 i), []⟩) =
    .ok ([(1, .ok, none), (1, .ok, some (some 1)), (0, .ok, none)], 3, [true, true, true, false, false, false]) := by rfl

/-- That is in line with the rules, so the theorems on threads apply. -/
theorem some_addr_disciplined : AddrDisciplined calmLib someAddrSchedule ⟨someAddrs, fun i => .idle (someClients 1 i), []⟩ := by
  refine ⟨⟨rfl, fun op k e => ?_⟩, fun s1 e1 => ?_⟩
  · cases e
    refine ⟨⟨fun p hp => (by cases hp; exact ⟨_, rfl⟩), fun g hg => (by cases hg; trivial), fun d sz hd hs => ?_⟩, fun j op' p' k' e => (by cases e)⟩
    cases hd; cases hs; rw [List.length_replicate]; decide
  cases Except.ok.inj e1
  refine ⟨⟨rfl, fun op k e => ?_⟩, fun s1 e1 => ?_⟩
  · cases e
    refine ⟨⟨fun p hp => (by cases hp; exact ⟨_, rfl⟩), trivial⟩, fun j op' p' k' e => ?_⟩
    match j with
    | 0 =>
      cases e
      exact fun p => ⟨fun h1 h2 => (by cases h2; cases h1.2), fun h => (by cases h)⟩
    | 1 => cases e
    | n + 2 => cases e
  cases Except.ok.inj e1
  refine ⟨⟨rfl, fun op k e => (by cases e)⟩, fun s1 e1 => ?_⟩
  cases Except.ok.inj e1
  refine ⟨⟨rfl, fun op k e => (by cases e)⟩, fun s1 e1 => ?_⟩
  cases Except.ok.inj e1
  refine ⟨⟨rfl, fun op k e => (by cases e)⟩, fun s1 e1 => ?_⟩
  cases Except.ok.inj e1
  refine ⟨⟨rfl, fun op k e => (by cases e)⟩, fun s1 e1 => ?_⟩
  cases Except.ok.inj e1
  refine ⟨⟨rfl, fun op k e => ?_⟩, fun s1 e1 => ?_⟩
  · cases e
    refine ⟨⟨fun p hp => (by cases hp), fun s hs => (by cases hs; decide)⟩, fun j op' p' k' e => ?_⟩
    match j with
    | 0 =>
      cases e
      exact fun p => ⟨fun h1 h2 => (by cases h1), fun h => (by cases h)⟩
    | 1 => cases e
    | n + 2 => cases e
  cases Except.ok.inj e1
  refine ⟨⟨rfl, fun op k e => (by cases e)⟩, fun s1 e1 => ?_⟩
  cases Except.ok.inj e1
  refine ⟨⟨rfl, fun op k e => (by cases e)⟩, fun s1 e1 => ?_⟩
  cases Except.ok.inj e1
  refine ⟨⟨rfl, fun op k e => (by cases e)⟩, fun s1 e1 => trivial⟩

end Nat20
