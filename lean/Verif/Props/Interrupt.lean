import Verif.Spec.Interrupt
import Verif.Props.Writers
/-!
# Property C82: calls that are cut off can be repeated
-/

namespace Nat20

open Pki Fips

/-! ## Rendering -/

/-- **C82** (no octet is written twice).  Whatever is in memory, whatever is rendered and on whatever stream, no octet is written more than once. -/
theorem C82_once (n : Nat) (cs : Content n) (v : Option SVars) (m : Memory) :
    (storesOf ((Content.prog n cs v).trace m)).Nodup ∧ ∀ a ∈ storesOf ((Content.prog n cs v).trace m), Unwritten v a :=
  once_trace ((follows_content (m0 := fun _ => []) (L := Content.Reads n cs) n cs (mayRead_of_reads n cs) (fun _ h => h) fun _ h => h).once v) m

/-- **C82** (rendering).  Take any sequence of calls of rendering functions that has a result.  If they are started and cut off any number of times, each time
after any number of accesses to memory, then every octet of the memory is what it was before or what it is after the complete calls, only the unwritten part of the
buffer has changed, and if the calls are then made once more, their result and the memory are those of the calls without any interruption. -/
theorem C82_rendering (n : Nat) (cs : Content n) (m m' : Memory) (v v' : Option SVars) (havoid : ∀ a, Content.MayRead n cs a → ¬ Unwritten v a)
    (h : (Content.prog n cs v).run m = .ok (((), v'), m')) (ks : List Nat) :
    (∀ a, (interrupted (Content.prog n cs v) m ks).get a = m.get a ∨ (interrupted (Content.prog n cs v) m ks).get a = m'.get a) ∧
    (∀ a, ¬ Unwritten v a → (interrupted (Content.prog n cs v) m ks).get a = m.get a) ∧
    (Content.prog n cs v).run (interrupted (Content.prog n cs v) m ks) = .ok (((), v'), m') := by
  have hf := (follows_content (m0 := fun _ => []) (L := Content.Reads n cs) (L' := Content.MayRead n cs) n cs (mayRead_of_reads n cs) (fun _ h => h) fun _ h => h).once v
  induction ks generalizing m with
  | nil => exact ⟨fun _ => .inl rfl, fun _ _ => rfl, h⟩
  | cons k ks ih =>
    obtain ⟨l, h1, h2, h3, h4, h5⟩ := once_run hf m m' _ h
    obtain ⟨j, hj⟩ := h5 k
    have hsub : ∀ a, a ∈ (l.take j).map (·.1) → a ∈ l.map (·.1) := fun a ha => by
      rw [List.map_take] at ha
      exact List.mem_of_mem_take ha
    -- what the cut off run has written is final
    have hval : ∀ a, (m.pokeAll (l.take j)).get a = m.get a ∨ (m.pokeAll (l.take j)).get a = m'.get a := by
      intro a
      by_cases ha : a ∈ (l.take j).map (·.1)
      · refine .inr ?_
        have hd : a ∉ (l.drop j).map (·.1) := by
          intro hc
          rw [← List.take_append_drop j l, List.map_append, List.nodup_append] at h1
          exact h1.2.2 a ha a hc rfl
        rw [h3]
        conv => rhs; rw [← List.take_append_drop j l]
        rw [pokeAll_append, pokeAll_other _ _ _ hd]
      · exact .inl (pokeAll_other _ _ _ ha)
    have hout : ∀ a, ¬ Unwritten v a → (m.pokeAll (l.take j)).get a = m.get a := fun a ha => pokeAll_other _ _ _ fun hc => ha (h2 a (hsub a hc))
    have hshape : (m.pokeAll (l.take j)).SameShape m := fun r => pokeAll_length _ r m
    have hrun : (Content.prog n cs v).run (m.pokeAll (l.take j)) = .ok (((), v'), m') := by
      rw [h4 _ hshape fun a ha => hout a (havoid a ha)]
      congr 2
      refine memory_ext _ _ fun a => ?_
      by_cases ha : a ∈ l.map (·.1)
      · rw [h3]
        exact pokeAll_written l a _ _ hshape ha
      · rw [h3, pokeAll_other _ _ _ ha, pokeAll_other _ _ _ ha, pokeAll_other _ _ _ fun hc => ha (hsub a hc)]
    simp only [interrupted]
    rw [hj]
    obtain ⟨i1, i2, i3⟩ := ih _ hrun
    refine ⟨fun a => ?_, fun a ha => (i2 a ha).trans (hout a ha), i3⟩
    rcases i1 a with hi | hi
    · rw [hi]; exact hval a
    · exact .inr hi

theorem steps_seq_done {α β : Type} (g : α → β) (k : Nat) : ∀ (p : Prog α) (m : Memory),
    Prog.steps k (p.seq fun r => .done (g r), m) = ((Prog.steps k (p, m)).1.seq fun r => .done (g r), (Prog.steps k (p, m)).2) := by
  induction k with
  | zero => intro p m; rfl
  | succ k ih =>
    intro p m
    simp only [Prog.steps]
    rw [← ih]
    congr 1
    cases p <;> simp only [Prog.seq, Prog.step]
    · cases m.get _ <;> rfl
    · cases m.get _ <;> rfl

theorem interrupted_seq_done {α β : Type} (g : α → β) (p : Prog α) (ks : List Nat) : ∀ m : Memory, interrupted (p.seq fun r => .done (g r)) m ks = interrupted p m ks := by
  induction ks with
  | nil => intro m; rfl
  | cons k ks ih => intro m; simp only [interrupted]; rw [steps_seq_done]; exact ih _

/-- **C82** (certificates).  A certificate is rendered into a buffer that overlaps with none of its fields (nor with the octets next to the serial number).  If this is cut
off any number of times at any point and then done once more, the certificate is at the end of the buffer, it is the DER encoding of the field values, and nothing else has changed. -/
theorem C82_certificate (k : Nat) (fr : Frame) (c : RX509 (Content k)) (content : Extension → Bytes) (m : Memory) (h : CertArg fr content ((c.map (Content.value m k)).value m))
    (b : Addr) (size : UInt64) (hroom : b.off + size.toNat ≤ (m b.region).length) (havoid : ∀ a, c.Has (Content.MayRead k) RSlice.Near a → ¬ b.Covers size.toNat a.region a.off)
    (bs : Bytes) (hbs : bs = (certValue content ((c.map (Content.value m k)).value m)).der.encode) (hfit : bs.length ≤ size.toNat) (ks : List Nat) :
    (x509CertP fr (some (c.map (Content.prog k))) (some (streamInitP (some b) size))).run
        (interrupted (x509CertP fr (some (c.map (Content.prog k))) (some (streamInitP (some b) size))) m ks) =
      .ok (((), some ⟨some b, size, UInt64.ofNat bs.length, false, false⟩), m.write (b.plus (size.toNat - bs.length)) bs) ∧
    Der.parse bs = some (certValue content ((c.map (Content.value m k)).value m)).der := by
  obtain ⟨hrun, hparse⟩ := C75_certificate k fr c content m h b size hroom
    (fun a ha => havoid a (RX509.Has.mono (mayRead_of_reads k) c a ha)) bs hbs hfit
  refine ⟨?_, hparse⟩
  have e : ∀ v, Content.prog (k + 1) [.cert fr (some c)] v = (x509CertP fr (some (c.map (Content.prog k))) v).seq fun r => .done ((), r.2) := fun v => rfl
  have hr : ∀ v m, (Content.prog (k + 1) [.cert fr (some c)] v).run m = (x509CertP fr (some (c.map (Content.prog k))) v).run m := by
    intro v m
    rw [e, run_seq]
    cases (x509CertP fr (some (c.map (Content.prog k))) v).run m <;> rfl
  have := (C82_rendering (k + 1) [.cert fr (some c)] m _ (some (streamInitP (some b) size)) _ (fun a ha hu => by
    obtain ⟨d, hd, ha⟩ := ha
    cases hd with
    | head => obtain ⟨x, hx, ha⟩ := ha; cases hx; exact havoid a ha ((unwritten_init _ _ _).1 hu)
    | tail _ hd => cases hd) ((hr _ _).trans hrun) ks).2.2
  rw [hr, e, interrupted_seq_done (fun r : Unit × Option SVars => ((), r.2))] at this
  exact this

/-! ## Digests -/

section
variable {ι : Type} [DecidableEq ι]

theorem step_length {α : Type} {L S : Addr → Prop} {A : Region → Prop} {Q : α → Prop} {p : Prog α} (h : p.Within L S A Q) (hA : ∀ r, A r → r.Local) (m : Memory) (n : Nat) :
    ((p.step m).2 (.caller n)).length = (m (.caller n)).length := by
  cases h with
  | done x h => rfl
  | crash u => rfl
  | load a k h hk => simp only [Prog.step]; cases m.get a <;> rfl
  | store a b k h hk =>
    simp only [Prog.step]
    cases m.get a with
    | none => rfl
    | some c => exact poke_length m a b _
  | note e k hk => rfl
  | alloc r i k h hk => exact congrArg List.length (Memory.set_other _ _ _ _ (hA r h n).symm)
  | free r s k h hk =>
    simp only [Prog.step]
    rw [Memory.set_other _ _ _ _ (hA r h n).symm]
    cases s with
    | false => rfl
    | true =>
      simp only [if_true, Memory.bury]
      rw [Memory.set_other _ _ _ _ (by simp)]
  | leave b k hk =>
    simp only [Prog.step, Memory.bury]
    rw [Memory.set_other _ _ _ _ (by simp)]

theorem step_within {α : Type} {L S : Addr → Prop} {A : Region → Prop} {Q : α → Prop} {p : Prog α} (h : p.Within L S A Q) (m : Memory) : (p.step m).1.Within L S A Q := by
  cases h with
  | done x h => exact .done x h
  | crash u => exact .crash u
  | load a k h hk =>
    simp only [Prog.step]
    cases m.get a with
    | none => exact .crash _
    | some b => exact hk b
  | store a b k h hk =>
    simp only [Prog.step]
    cases m.get a with
    | none => exact .crash _
    | some c => exact hk
  | note e k hk => exact hk
  | alloc r i k h hk => exact hk
  | free r s k h hk => exact hk
  | leave b k hk => exact hk

theorem exec_length (L S : ι → Addr → Prop) (σ : List ι) : ∀ w : Machine ι PReply, (∀ i, (w.thread i).prog.Within (L i) (S i) LocalArray fun _ => True) →
    ∀ n, ((w.exec σ).shared n).length = (w.shared n).length := by
  induction σ with
  | nil => intro w _ n; rfl
  | cons i σ ih =>
    intro w hw n
    simp only [Machine.exec]
    rw [ih (w.step i) (fun j => ?_) n]
    · exact step_length (hw i) (fun r hr => hr.1) (w.view i) n
    · simp only [Machine.step]
      split
      · next h => rw [h]; exact step_within (hw i) _
      · exact hw j

/-- After any resets the octets that no call writes are what they were, and all objects have their size. -/
theorem afterResets_frame (call : ι → Call) (rs : List ((ι → Memory) × List ι)) : ∀ shared : Nat → Bytes,
    (∀ n, (afterResets call shared rs n).length = (shared n).length) ∧
    ∀ n k, (∀ i, ¬ (call i).Writes ⟨.caller n, k⟩) → (afterResets call shared rs n)[k]? = (shared n)[k]? := by
  induction rs with
  | nil => intro shared; exact ⟨fun _ => rfl, fun _ _ _ => rfl⟩
  | cons r rs ih =>
    intro shared
    obtain ⟨h1, h2⟩ := ih ((startOf call shared r.1).exec r.2).shared
    have hw : ∀ i, ((startOf call shared r.1).thread i).prog.Within (call i).MayRead (call i).MayWrite LocalArray fun _ => True := fun i => C73_footprint (call i)
    refine ⟨fun n => (h1 n).trans (exec_length _ _ r.2 _ hw n), fun n k hk => (h2 n k hk).trans ?_⟩
    by_cases hι : Nonempty ι
    · obtain ⟨i⟩ := hι
      exact exec_frame (fun i => (call i).MayRead) (fun i => (call i).MayWrite) r.2 ⟨.caller n, k⟩ ⟨n, rfl⟩
        (fun i h => h.elim (hk i) fun h => h.1 n rfl) (startOf call shared r.1) (within_threads call shared r.1) i
    · cases hr : r.2 with
      | nil => rfl
      | cons i _ => exact absurd ⟨i⟩ hι

theorem slice_same (s : MSlice) (hs : s.OfCaller) (shared shared' : Nat → Bytes) (st st' : Memory) (hlen : ∀ n, (shared' n).length = (shared n).length)
    (hsame : ∀ n k, s.Has ⟨.caller n, k⟩ → (shared' n)[k]? = (shared n)[k]?) :
    s.bytes (viewOf shared' st') = s.bytes (viewOf shared st) ∧ (s.Readable (viewOf shared st) → s.Readable (viewOf shared' st')) := by
  unfold MSlice.bytes MSlice.Readable
  cases ha : s.addr with
  | none => exact ⟨rfl, fun h => h⟩
  | some a =>
    obtain ⟨n, hn⟩ := hs a ha
    simp only [hn, viewOf, List.length_drop, hlen]
    refine ⟨List.ext_getElem? fun k => ?_, fun h => h⟩
    rw [List.getElem?_take, List.getElem?_take]
    split
    · next hk =>
      rw [List.getElem?_drop, List.getElem?_drop]
      exact hsame n (a.off + k) ⟨a, ha, hn.symm, Nat.le_add_right _ _, Nat.add_lt_add_left hk _⟩
    · rfl

theorem flatten_map_congr {α β : Type} (l : List α) (f g : α → List β) (h : ∀ x ∈ l, f x = g x) : (l.map f).flatten = (l.map g).flatten := by
  rw [List.map_congr_left h]

/-- **C82** (digests).  Any number of threads compute digests, each into its own buffer, which overlaps with none of the messages.  If all of them are cut off any number
of times, each time after any part of any schedule, and start once more, then all of them end with the digests of the messages as they were at the beginning, under every schedule. -/
theorem C82_digest (job : ι → DigestJob) (hind : ∀ i j a, (job i).call.Writes a → ¬ (job j).call.Reads a ∧ (i ≠ j → ¬ (job j).call.Writes a)) (shared : Nat → Bytes)
    (stack : ι → Memory) (hrest : ∀ i, (stack i).AtRest) (hv : ∀ i, (job i).Valid (viewOf shared (stack i))) (rs : List ((ι → Memory) × List ι)) (i : ι) :
    ∃ N, ∀ σ : List ι, N ≤ σ.count i →
      (((startOf (fun i => (job i).call) (afterResets (fun i => (job i).call) shared rs) stack).exec σ).thread i).prog = .done ⟨.ok, some (UInt64.ofNat (job i).alg.size)⟩ ∧
      ((((startOf (fun i => (job i).call) (afterResets (fun i => (job i).call) shared rs) stack).exec σ).shared (job i).n).drop (job i).off).take (job i).alg.size =
        sha2 (job i).alg (messageBytes (viewOf shared (stack i)) (job i).msg (job i).count) := by
  obtain ⟨hlen, hsame⟩ := afterResets_frame (fun i => (job i).call) rs shared
  have hslice : ∀ i, ∀ g ∈ (job i).msg.take (job i).count.toNat, ∀ s ∈ g.slices, _ := fun i g hg s hs =>
    slice_same s ((hv i).caller g (List.mem_of_mem_take hg) s (List.mem_of_mem_take hs)) shared (afterResets (fun i => (job i).call) shared rs) (stack i) (stack i) hlen
      fun n k hk => hsame n k fun j hw => (hind j i _ hw).1 ⟨g, hg, s, hs, hk⟩
  have hbytes : ∀ i, messageBytes (viewOf (afterResets (fun i => (job i).call) shared rs) (stack i)) (job i).msg (job i).count =
      messageBytes (viewOf shared (stack i)) (job i).msg (job i).count := fun i =>
    flatten_map_congr _ _ _ fun g hg => flatten_map_congr _ _ _ fun s hs => (hslice i g hg s hs).1
  rw [← hbytes i]
  refine C73_digest job (fun i j hij a ha => ⟨(hind i j a ha).1, (hind i j a ha).2 hij⟩) _ stack hrest (fun i => ?_) i
  have h := hv i
  exact ⟨h.caller, h.nonempty, h.count, fun g hg => ⟨(h.readable g hg).count, fun s hs => (hslice i g hg s hs).2 ((h.readable g hg).slices s hs)⟩, h.first,
    by rw [hbytes i]; exact h.short, h.size, by
      have := h.room
      simp only [viewOf] at this ⊢
      rw [hlen]
      exact this⟩

/-- **C82** (key derivation).  The same for `hkdf`. -/
theorem C82_hkdf (job : ι → HkdfJob) (hind : ∀ i j a, (job i).call.Writes a → ¬ (job j).call.Reads a ∧ (i ≠ j → ¬ (job j).call.Writes a)) (shared : Nat → Bytes)
    (stack : ι → Memory) (hrest : ∀ i, (stack i).AtRest) (hv : ∀ i, (job i).Valid (viewOf shared (stack i))) (rs : List ((ι → Memory) × List ι)) (i : ι) :
    ∃ okm, hkdfExpand (job i).alg (hkdfExtract (job i).alg ((job i).salt.bytes (viewOf shared (stack i))) ((job i).ikm.bytes (viewOf shared (stack i))))
        ((job i).info.bytes (viewOf shared (stack i))) (job i).octets.toNat = some okm ∧
      ∃ N, ∀ σ : List ι, N ≤ σ.count i →
        (((startOf (fun i => (job i).call) (afterResets (fun i => (job i).call) shared rs) stack).exec σ).thread i).prog = .done ⟨.ok, none⟩ ∧
        ((((startOf (fun i => (job i).call) (afterResets (fun i => (job i).call) shared rs) stack).exec σ).shared (job i).n).drop (job i).off).take (job i).octets.toNat = okm := by
  obtain ⟨hlen, hsame⟩ := afterResets_frame (fun i => (job i).call) rs shared
  have hslice : ∀ i (s : MSlice), s.OfCaller → (∀ a, s.Has a → (job i).call.Reads a) → _ := fun i s hs hr =>
    slice_same s hs shared (afterResets (fun i => (job i).call) shared rs) (stack i) (stack i) hlen fun n k hk => hsame n k fun j hw => (hind j i _ hw).1 (hr _ hk)
  have h1 := fun i => hslice i (job i).ikm (hv i).caller.1 fun a ha => .inl ha
  have h2 := fun i => hslice i (job i).salt (hv i).caller.2.1 fun a ha => .inr (.inl ha)
  have h3 := fun i => hslice i (job i).info (hv i).caller.2.2 fun a ha => .inr (.inr ha)
  rw [← (h1 i).1, ← (h2 i).1, ← (h3 i).1]
  refine C73_hkdf job (fun i j hij a ha => ⟨(hind i j a ha).1, (hind i j a ha).2 hij⟩) _ stack hrest (fun i => ?_) i
  have h := hv i
  exact ⟨h.caller, ⟨(h1 i).2 h.readable.1, (h2 i).2 h.readable.2.1, (h3 i).2 h.readable.2.2⟩, h.salt, by rw [(h1 i).1, (h2 i).1, (h3 i).1]; exact h.short, h.octets, by
      have := h.room
      simp only [viewOf] at this ⊢
      rw [hlen]
      exact this, h.avoids⟩

end

/-! ## Examples -/

/-- Non-vacuity of `C82_certificate`: the example certificate of C75 with the buffer right behind the fields, in the same object, cut off after 17, 600 and 5 accesses. -/
example (fr : Frame) : ∃ bs, (x509CertP fr (some (certOfMemory.map (Content.prog 1))) (some (streamInitP (some ⟨.caller 0, 27⟩) 200))).run
      (interrupted (x509CertP fr (some (certOfMemory.map (Content.prog 1))) (some (streamInitP (some ⟨.caller 0, 27⟩) 200))) certMemory [17, 600, 5]) =
    .ok (((), some ⟨some ⟨.caller 0, 27⟩, 200, UInt64.ofNat bs.length, false, false⟩), certMemory.write (Addr.plus ⟨.caller 0, 27⟩ (200 - bs.length)) bs) ∧ 0 < bs.length := by
  refine ⟨_, (C82_certificate 1 fr certOfMemory exampleContent certMemory ⟨fun t ht => (by cases ht; exact certTbs_arg fr), fun q hq => (by cases hq; decide)⟩
    ⟨.caller 0, 27⟩ 200 (by decide +kernel) (fun a ha => ?_) _ rfl (by decide +kernel) [17, 600, 5]).1, by decide +kernel⟩
  have hs : ∀ n off, off + n ≤ 27 → (inCert off).Has n a → ¬ Addr.Covers ⟨.caller 0, 27⟩ 200 a.region a.off := fun n off h hx hc => by
    have h1 := hx.2.2
    have h2 := hc.2.1
    simp only at h1 h2
    omega
  have hn : ∀ n off, off + n < 27 → (inCert off).Near n a → ¬ Addr.Covers ⟨.caller 0, 27⟩ 200 a.region a.off := fun n off h hx hc => by
    have h1 := hx.2.2
    have h2 := hc.2.1
    simp only at h1 h2
    omega
  have hname : certName.Has a → ¬ Addr.Covers ⟨.caller 0, 27⟩ 200 a.region a.off := by
    rintro ⟨r, hr, x, hx, hxa⟩
    have e : certName.elements.toList.take certName.elementCount.toNat =
      [⟨some OID_COMMON_NAME, ⟨2, some (inCert 0)⟩⟩, ⟨some OID_SERIAL_NUMBER, ⟨2, some (inCert 2)⟩⟩] := rfl
    rw [e] at hr
    simp only [List.mem_cons, List.not_mem_nil, or_false] at hr
    rcases hr with rfl | rfl <;> cases hx <;> exact hs 2 _ (by decide) hxa
  rcases ha with ⟨t, ht, ha⟩ | ⟨x, hx, ha⟩
  · cases ht
    rcases ha with ⟨x, hx, ha⟩ | ha | ha | ha | ⟨x, hx, ha⟩ | ⟨l, hl, e, he, c, hc, ha⟩
    · cases hx; exact hn 2 4 (by decide) ha
    · exact hname ha
    · rcases ha with ⟨x, hx, ha⟩ | ⟨x, hx, ha⟩
      · cases hx
      · cases hx; exact hs 15 6 (by decide) ha
    · exact hname ha
    · cases hx; exact hs 2 21 (by decide) ha
    · cases hl
      cases he with
      | tail _ he => cases he
      | head =>
        cases hc
        obtain ⟨d, hd, ha⟩ := ha
        cases hd with
        | tail _ hd => cases hd
        | head => exact ha.elim
  · cases hx; exact hs 4 23 (by decide) ha

/-- An octet string at the beginning of an object, and a buffer behind it. -/
def cutMemory : Memory := fun r => if r = .caller 0 then [0x61, 0x62, 0x63, 9, 9, 9, 9, 9, 9] else []

def cutCalls : Content 1 := [.octetstring (some ⟨3, some (.mem ⟨.caller 0, 0⟩)⟩) tagInfoNoOverride]

/-- What is in memory when the rendering of an octet string is cut off: a part of the string, the string without its header, everything. -/
example : ([4, 6, 7, 100].map fun k => (Prog.steps k (Content.prog 1 cutCalls (some (streamInitP (some ⟨.caller 0, 3⟩) 6)), cutMemory)).2 (.caller 0)) =
    [[0x61, 0x62, 0x63, 9, 9, 9, 0x61, 0x62, 9], [0x61, 0x62, 0x63, 9, 9, 9, 0x61, 0x62, 0x63], [0x61, 0x62, 0x63, 9, 9, 3, 0x61, 0x62, 0x63],
      [0x61, 0x62, 0x63, 9, 4, 3, 0x61, 0x62, 0x63]] := by decide +kernel

/-- Non-vacuity of `C82_rendering`: this example meets its hypotheses, wherever it is cut off. -/
example (ks : List Nat) : ((Content.prog 1 cutCalls (some (streamInitP (some ⟨.caller 0, 3⟩) 6))).run
    (interrupted (Content.prog 1 cutCalls (some (streamInitP (some ⟨.caller 0, 3⟩) 6))) cutMemory ks)).toOption.map (fun r => r.2 (.caller 0)) =
      some [0x61, 0x62, 0x63, 9, 4, 3, 0x61, 0x62, 0x63] := by
  obtain ⟨v', m', h, hm⟩ : ∃ v' m', (Content.prog 1 cutCalls (some (streamInitP (some ⟨.caller 0, 3⟩) 6))).run cutMemory = .ok (((), v'), m') ∧
      m' (.caller 0) = [0x61, 0x62, 0x63, 9, 4, 3, 0x61, 0x62, 0x63] := by
    cases hr : (Content.prog 1 cutCalls (some (streamInitP (some ⟨.caller 0, 3⟩) 6))).run cutMemory with
    | error u =>
      have : ((Content.prog 1 cutCalls (some (streamInitP (some ⟨.caller 0, 3⟩) 6))).run cutMemory).toOption.isSome = true := by decide +kernel
      rw [hr] at this
      cases this
    | ok x =>
      have : ((Content.prog 1 cutCalls (some (streamInitP (some ⟨.caller 0, 3⟩) 6))).run cutMemory).toOption.map (fun r => r.2 (.caller 0)) =
        some [0x61, 0x62, 0x63, 9, 4, 3, 0x61, 0x62, 0x63] := by decide +kernel
      rw [hr] at this
      exact ⟨x.1.2, x.2, rfl, Option.some.inj this⟩
  rw [(C82_rendering 1 cutCalls cutMemory m' _ v' (fun a ha hu => ?_) h ks).2.2]
  · exact congrArg some hm
  · obtain ⟨d, hd, ha⟩ := ha
    cases hd with
    | tail _ hd => cases hd
    | head =>
      obtain ⟨y, hy, x, hx, ha⟩ := ha
      cases hy
      cases hx
      have h1 := ha.2.2
      have h2 := ((unwritten_init _ _ _).1 hu).2.1
      simp only [UInt64.reduceToNat] at h1 h2
      omega

/-- The condition is needed: the string is at the beginning of the buffer.  The calls without interruption have the expected result, but when they are cut off after the string
was overwritten with the octet of the second call, the string is lost. -/
example :
    let calls : Content 1 := [.octetstring (some ⟨3, some (.mem ⟨.caller 0, 0⟩)⟩) tagInfoNoOverride, .streamPut 7]
    let p := Content.prog 1 calls (some (streamInitP (some ⟨.caller 0, 0⟩) 8))
    (p.run cutMemory).toOption.map (fun r => r.2 (.caller 0)) = some [0x61, 0x62, 7, 4, 3, 0x61, 0x62, 0x63, 9] ∧
    (p.run (interrupted p cutMemory [9])).toOption.map (fun r => r.2 (.caller 0)) = some [0x61, 0x62, 7, 4, 3, 0x61, 0x62, 7, 9] := by decide +kernel

/-- Non-vacuity of `C82_digest` and `C82_hkdf`: the examples of C73, cut off by any resets. -/
example (b : Bool) (rs : List ((Bool → Memory) × List Bool)) := C82_digest twoJobs twoJobs_apart twoShared (fun _ _ => []) (fun _ _ _ _ => rfl) twoJobs_valid rs b

example (b : Bool) (rs : List ((Bool → Memory) × List Bool)) := C82_hkdf twoKeys twoKeys_apart (fun _ => List.replicate 64 7) (fun _ _ => []) (fun _ _ _ _ => rfl) twoKeys_valid rs b

end Nat20
