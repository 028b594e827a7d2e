import Verif.Lemmas.Steps
import Verif.Lemmas.Threads
import Verif.Lemmas.Timing
import Verif.Spec.Steps
import Verif.Props.Arena
import Verif.Props.BsslDigest
import Verif.Props.Frame
/-!
# Properties C72, C73, C74: the stack, threads and observable execution
-/

namespace Nat20

open Fips

theorem digestOctets_eq (alg : UInt32) : (digestEnumToSize alg).toNat = digestOctets alg := by
  unfold digestEnumToSize digestOctets
  repeat' split
  all_goals first | rfl | simp_all

theorem shared_local (a : Addr) : a.Shared ∨ a.region.Local := (local_or_shared a).symm

/-- What a call may read: its inputs, its output and its local arrays. -/
def Call.MayRead (c : Call) (a : Addr) : Prop := c.Reads a ∨ c.Writes a ∨ (a.region.Local ∧ a.region ≠ .stack)

/-- What a call may write: its output and its local arrays. -/
def Call.MayWrite (c : Call) (a : Addr) : Prop := c.Writes a ∨ (a.region.Local ∧ a.region ≠ .stack)

/-- The local arrays of the functions. -/
def LocalArray (r : Region) : Prop := r.Local ∧ r ≠ .stack

theorem localArray_of (r : Region) (h : r = .key ∨ r = .inner ∨ r = .prk ∨ r = .block ∨ r = .counter) : LocalArray r := by
  rcases h with h | h | h | h | h <;> subst h <;> exact ⟨fun n => by simp, by simp⟩

theorem free_locals (c : Call) : FreeLocals c.MayRead c.MayWrite LocalArray :=
  ⟨fun r i h => .inr (.inr (localArray_of r h)), fun r i h => .inr (localArray_of r h), fun r h => localArray_of r (by rcases h with h | h | h | h <;> simp [h])⟩

/-- **C73** (footprint).  Whatever is in memory, a call accesses only the octets of its arguments, only those of the output for writing, and its own local arrays. -/
theorem C73_footprint (c : Call) : c.prog.Within c.MayRead c.MayWrite LocalArray fun _ => True := by
  have hf := free_locals c
  have weak : ∀ {Q : PReply → Prop} {p : Prog PReply}, p.Within c.MayRead c.MayWrite LocalArray Q → p.Within c.MayRead c.MayWrite LocalArray fun _ => True :=
    fun h => h.mono (fun _ h => h) (fun _ h => h) (fun _ h => h) fun _ _ => trivial
  cases c with
  | digest alg msg count out size =>
    refine weak (within_digest alg msg count out size (fun a h => .inl h) fun a h => .inl ?_)
    rw [digestOctets_eq] at h; exact h
  | hmac alg key msg out size =>
    refine weak (within_hmac' hf alg key (fun a h => .inl (.inl h)) msg (fun a h => .inl (.inr h)) out (fun a h => .inl ?_) size)
    rw [digestOctets_eq] at h; exact h
  | extract alg ikm salt out size =>
    refine weak (within_extract' hf alg ikm salt (fun a h => .inl (.inl h)) (fun a h => .inl (.inr h)) out (fun a h => .inl ?_) size)
    rw [digestOctets_eq] at h; exact h
  | expand alg prk info n out =>
    exact weak (within_expand hf alg prk info (fun a h => .inl (.inl h)) (fun a h => .inl (.inr h)) n out (fun a h => .inr (.inl h)) fun a h => .inl h)
  | hkdf alg ikm salt info n out =>
    exact weak (within_hkdf hf (localArray_of .prk (by simp)) alg ikm salt info (fun a h => .inl (.inl h)) (fun a h => .inl (.inr (.inl h))) (fun a h => .inl (.inr (.inr h))) n out
      (fun a h => .inr (.inl h)) fun a h => .inl h)

theorem atRest_region (m : Memory) (h : m.AtRest) (r : Region) (hr : r = .key ∨ r = .inner ∨ r = .prk ∨ r = .block ∨ r = .counter) : m r = [] :=
  h r (localArray_of r hr).1 (localArray_of r hr).2

/-- **C73** (refinement).  Run alone, the octet-by-octet program of a call does what the call is said to do. -/
theorem C73_alone (c : Call) (hc : c.OfCaller) (m : Memory) (hm : m.AtRest) (x : MReply) (h : c.effect m = .ok x) : c.prog.run m = .ok (⟨x.err, x.size⟩, x.mem) := by
  have hout : ∀ out, CallerOut out → ∀ a, out = some a → a.region ≠ .block := fun out ho a ha => by
    obtain ⟨n, hn⟩ := ho a ha
    rw [hn]; simp
  have hr := atRest_region m hm
  cases c with
  | digest alg msg count out size => exact run_digest m alg msg count out size x h
  | hmac alg key msg out size => exact run_hmac m (hr _ (by simp)) (hr _ (by simp)) alg key (ofCaller_notHmac _ hc.1) msg out size x h
  | extract alg ikm salt out size => exact run_extract m (hr _ (by simp)) (hr _ (by simp)) alg ikm salt (ofCaller_notHmac _ hc.2.1) out size x h
  | expand alg prk info n out =>
    exact run_expand m (hr _ (by simp)) (hr _ (by simp)) (hr _ (by simp)) (hr _ (by simp)) alg prk info (ofCaller_notHmac _ hc.1) n out (hout _ hc.2.2) x h
  | hkdf alg ikm salt info n out =>
    exact run_hkdf m (hr _ (by simp)) (hr _ (by simp)) (hr _ (by simp)) (hr _ (by simp)) (hr _ (by simp)) alg ikm salt info (ofCaller_notHmac _ hc.2.1) n out (hout _ hc.2.2.2) x h

theorem effect_nothingLeft (c : Call) (hc : c.OfCaller) (m : Memory) (x : MReply) (h : c.effect m = .ok x) : NothingLeft m x.mem := by
  cases c with
  | digest alg msg count out size => exact C72_digest m alg msg count out hc.2 size x h
  | hmac alg key msg out size => exact C72_hmac m alg key msg out hc.2.2 size x h
  | extract alg ikm salt out size => exact C72_extract m alg ikm salt out hc.2.2 size x h
  | expand alg prk info n out => exact C72_expand m alg prk info n out hc.2.2 x h
  | hkdf alg ikm salt info n out => exact C72_hkdf m alg ikm salt info n out hc.2.2.2 x h

/-- **C72** (all variables).  When a call has returned, nothing is left on the stack of any of the variables that hold secrets: the padded key, the inner digest, the
pseudorandom key, the last block, the states of the hash computations, and the variables `R` and `t1` of every execution of the compression function. -/
theorem C72_variables (c : Call) (hc : c.OfCaller) (m : Memory) (hm : m.AtRest) (x : MReply) (h : c.effect m = .ok x) :
    ∃ m', c.prog.run m = .ok (⟨x.err, x.size⟩, m') ∧ NothingLeft m m' :=
  ⟨x.mem, C73_alone c hc m hm x h, effect_nothingLeft c hc m x h⟩

/-- There is something to erase: after sixteen rounds on an empty block no element of `R` is zero, and neither is `t1`. -/
example : (match (shaRounds16P sha256Code (Vector.replicate 16 0) sha256Init.H 16).run sampleMemory with
    | .ok (v, _) => v.R.toList.all (· ≠ 0) && (v.t1 ≠ 0)
    | .error _ => false) = true := by decide +kernel

/-- What `C72_variables` rejects: a compression function that erases only seven elements of `R`, or all of `R` but not `t1`. -/
example : sampleMemory.bury (MainVars.octets (⟨eraseR sha256Init.H 7, 0⟩ : MainVars 32)) .stack ≠ sampleMemory .stack ∧
    sampleMemory.bury (MainVars.octets (⟨eraseR sha256Init.H 8, 1⟩ : MainVars 32)) .stack ≠ sampleMemory .stack := by decide +kernel

theorem steps_crash {α : Type} (u : UB) (m : Memory) (k : Nat) : Prog.steps k ((.crash u : Prog α), m) = (.crash u, m) := by
  induction k with
  | zero => rfl
  | succ k ih => exact ih

theorem steps_add {α : Type} (n k : Nat) : ∀ x : Prog α × Memory, Prog.steps (n + k) x = Prog.steps k (Prog.steps n x) := by
  induction n with
  | zero => intro x; rw [Nat.zero_add]; rfl
  | succ n ih => intro x; rw [Nat.succ_add]; exact ih _

/-- A program that ends without undefined behaviour is never in the middle of any. -/
theorem steps_safe {α : Type} (p : Prog α) (m m' : Memory) (x : α) (h : p.run m = .ok (x, m')) (k : Nat) (u : UB) : (Prog.steps k (p, m)).1 ≠ .crash u := by
  intro hk
  obtain ⟨N, hN⟩ := run_steps p m m' x h
  have h1 := hN (k + N) (by omega)
  rw [steps_add, show Prog.steps k (p, m) = (.crash u, (Prog.steps k (p, m)).2) from Prod.ext hk rfl, steps_crash] at h1
  simp at h1

section
variable {ι : Type} [DecidableEq ι]

theorem within_threads (call : ι → Call) (shared : Nat → Bytes) (stack : ι → Memory) (i : ι) :
    ∃ Q, ((startOf call shared stack).thread i).prog.Within (call i).MayRead (call i).MayWrite Region.Local Q :=
  ⟨_, (C73_footprint (call i)).mono (fun _ h => h) (fun _ h => h) (fun _ h => h.1) fun _ h => h⟩

theorem writes_shared (c : Call) (hc : c.OfCaller) (a : Addr) (h : c.Writes a) : a.Shared := by
  have key : ∀ out n, CallerOut out → OutHas out n a → a.Shared := fun out n ho ⟨o, h1, h2, _⟩ => by
    obtain ⟨k, hk⟩ := ho o h1
    exact ⟨k, by rw [h2, hk]⟩
  cases c with
  | digest => exact key _ _ hc.2 h
  | hmac => exact key _ _ hc.2.2 h
  | extract => exact key _ _ hc.2.2 h
  | expand => exact key _ _ hc.2.2 h
  | hkdf => exact key _ _ hc.2.2.2 h

/-- **C73** (threads).  Any number of threads call functions of the context at the same time, where no output overlaps with an argument of another thread.  Then under
every schedule no thread runs into undefined behaviour; and once thread `i` has made enough steps, however they are interleaved with those of the others, its call
returns what it returns when it runs alone on the memory of the start, its output is the same, its stack is the same, and memory that is no output is unchanged. -/
theorem C73_any_schedule (call : ι → Call) (hc : ∀ i, (call i).OfCaller) (hind : Independent call) (shared : Nat → Bytes) (stack : ι → Memory)
    (hrest : ∀ i, (stack i).AtRest) (x : ι → MReply) (hx : ∀ i, (call i).effect (viewOf shared (stack i)) = .ok (x i)) :
    (∀ σ i u, (((startOf call shared stack).exec σ).thread i).prog ≠ .crash u) ∧
    (∀ i, ∃ N, ∀ σ : List ι, N ≤ σ.count i →
      (((startOf call shared stack).exec σ).thread i).prog = .done ⟨(x i).err, (x i).size⟩ ∧
      (∀ n k, (call i).Writes ⟨.caller n, k⟩ → (((startOf call shared stack).exec σ).shared n)[k]? = ((x i).mem (.caller n))[k]?) ∧
      (∀ r : Region, r.Local → (((startOf call shared stack).exec σ).thread i).stack r = (x i).mem r)) ∧
    (∀ σ n k, (∀ i, ¬ (call i).Writes ⟨.caller n, k⟩) → (((startOf call shared stack).exec σ).shared n)[k]? = (shared n)[k]?) := by
  have hmem : ∀ i, (viewOf shared (stack i)).AtRest := fun i r hr hs => by
    have : viewOf shared (stack i) r = stack i r := by
      cases r with
      | caller n => exact absurd rfl (hr n)
      | _ => rfl
    rw [this]
    exact hrest i r hr hs
  have hrun := fun i => C73_alone (call i) (hc i) _ (hmem i) (x i) (hx i)
  have hexec := fun σ => exec_solo (fun i => (call i).MayRead) (fun i => (call i).MayWrite) σ (startOf call shared stack) (fun i => viewOf shared (stack i))
    (within_threads call shared stack)
    (fun i j hij a ha hw => by
      have notl : ¬ (a.region.Local ∧ a.region ≠ .stack) := fun h => by
        obtain ⟨n, hn⟩ := ha
        exact h.1 n hn
      rcases hw with hw | hw
      · obtain ⟨h1, h2⟩ := hind i j hij a hw
        exact ⟨fun h => h.elim h1 fun h => h.elim h2 notl, fun h => h.elim h2 notl⟩
      · exact absurd hw notl)
    (fun i => ⟨fun _ _ => rfl, fun _ _ _ => rfl⟩)
  refine ⟨fun σ i u => ?_, fun i => ?_, fun σ n k hn => ?_⟩
  · rw [(hexec σ i).1]
    exact steps_safe _ _ _ _ (hrun i) _ u
  · obtain ⟨N, hN⟩ := run_steps _ _ _ _ (hrun i)
    refine ⟨N, fun σ hσ => ?_⟩
    obtain ⟨h1, h2⟩ := hexec σ i
    rw [show ((startOf call shared stack).thread i).prog = (call i).prog from rfl, hN _ hσ] at h1 h2
    refine ⟨h1, fun n k hw => ?_, fun r hr => ?_⟩
    · exact h2.used ⟨.caller n, k⟩ ⟨n, rfl⟩ (.inr (.inl hw))
    · rw [← view_local _ _ _ hr]
      exact h2.own r hr
  · by_cases hι : Nonempty ι
    · obtain ⟨i⟩ := hι
      exact exec_frame (fun i => (call i).MayRead) (fun i => (call i).MayWrite) σ ⟨.caller n, k⟩ ⟨n, rfl⟩
        (fun i h => h.elim (hn i) fun h => h.1 n rfl) (startOf call shared stack) (within_threads call shared stack) i
    · cases σ with
      | nil => rfl
      | cons i _ => exact absurd ⟨i⟩ hι

/-- **C72** (threads).  The same among other threads: once thread `i` has made enough steps, nothing is left on its stack. -/
theorem C72_threads (call : ι → Call) (hc : ∀ i, (call i).OfCaller) (hind : Independent call) (shared : Nat → Bytes) (stack : ι → Memory)
    (hrest : ∀ i, (stack i).AtRest) (x : ι → MReply) (hx : ∀ i, (call i).effect (viewOf shared (stack i)) = .ok (x i)) (i : ι) :
    ∃ N, ∀ σ : List ι, N ≤ σ.count i →
      (((startOf call shared stack).exec σ).thread i).prog = .done ⟨(x i).err, (x i).size⟩ ∧
      NothingLeft (stack i) (((startOf call shared stack).exec σ).thread i).stack := by
  obtain ⟨-, h2, -⟩ := C73_any_schedule call hc hind shared stack hrest x hx
  obtain ⟨N, hN⟩ := h2 i
  exact ⟨N, fun σ hσ => ⟨(hN σ hσ).1, ((hN σ hσ).2.2 .stack stack_local).trans (effect_nothingLeft _ (hc i) (viewOf shared (stack i)) _ (hx i))⟩⟩

/-- **C73** (what is in the output).  If alone the call leaves `bs` at `out`, then so it does among other threads. -/
theorem C73_output (call : ι → Call) (hc : ∀ i, (call i).OfCaller) (hind : Independent call) (shared : Nat → Bytes) (stack : ι → Memory)
    (hrest : ∀ i, (stack i).AtRest) (x : ι → MReply) (hx : ∀ i, (call i).effect (viewOf shared (stack i)) = .ok (x i))
    (i : ι) (n off : Nat) (bs : Bytes) (hm : (x i).mem = (viewOf shared (stack i)).write ⟨.caller n, off⟩ bs) (hroom : off + bs.length ≤ (shared n).length)
    (hw : ∀ k, k < bs.length → (call i).Writes ⟨.caller n, off + k⟩) :
    ∃ N, ∀ σ : List ι, N ≤ σ.count i →
      (((startOf call shared stack).exec σ).thread i).prog = .done ⟨(x i).err, (x i).size⟩ ∧
      ((((startOf call shared stack).exec σ).shared n).drop off).take bs.length = bs := by
  obtain ⟨-, h2, -⟩ := C73_any_schedule call hc hind shared stack hrest x hx
  obtain ⟨N, hN⟩ := h2 i
  refine ⟨N, fun σ hσ => ⟨(hN σ hσ).1, List.ext_getElem? fun k => ?_⟩⟩
  rw [List.getElem?_take]
  split
  · next hk =>
    rw [List.getElem?_drop, (hN σ hσ).2.1 n (off + k) (hw k hk), hm]
    have hl : (List.take off (shared n)).length = off := by rw [List.length_take]; omega
    simp only [Memory.write, if_true]
    rw [show viewOf shared (stack i) (.caller n) = shared n from rfl, List.append_assoc, List.getElem?_append_right (by omega), hl,
      List.getElem?_append_left (by omega)]
    congr 1
    omega
  · next hk => rw [List.getElem?_eq_none (by omega)]

/-- A call of `digest` as one thread makes it. -/
structure DigestJob where
  alg : Alg
  msg : List MList
  count : UInt64
  n : Nat
  off : Nat
  size : UInt64

def DigestJob.call (j : DigestJob) : Call := .digest (algId j.alg) (some j.msg) j.count (some ⟨.caller j.n, j.off⟩) (some j.size)

/-- The arguments are as the interface asks. -/
structure DigestJob.Valid (j : DigestJob) (m : Memory) : Prop where
  caller : ∀ g ∈ j.msg, g.OfCaller
  nonempty : j.msg ≠ []
  count : j.count.toNat ≤ j.msg.length
  readable : ∀ g ∈ j.msg.take j.count.toNat, g.Readable m
  first : ∀ g ∈ j.msg.head?, g.list = none → g.count = 0
  short : (messageBytes m j.msg j.count).length < 2 ^ 61
  size : j.alg.size ≤ j.size.toNat
  room : j.off + j.size.toNat ≤ (m (.caller j.n)).length

theorem digestOctets_alg (a : Alg) : digestOctets (algId a) = a.size := by cases a <;> rfl

/-- **C73** (digest).  Threads that compute digests at the same time, each into its own buffer, all get the digest of their message, under every schedule. -/
theorem C73_digest (job : ι → DigestJob) (hind : Independent fun i => (job i).call) (shared : Nat → Bytes) (stack : ι → Memory) (hrest : ∀ i, (stack i).AtRest)
    (hv : ∀ i, (job i).Valid (viewOf shared (stack i))) (i : ι) :
    ∃ N, ∀ σ : List ι, N ≤ σ.count i →
      (((startOf (fun i => (job i).call) shared stack).exec σ).thread i).prog = .done ⟨.ok, some (UInt64.ofNat (job i).alg.size)⟩ ∧
      ((((startOf (fun i => (job i).call) shared stack).exec σ).shared (job i).n).drop (job i).off).take (job i).alg.size =
        sha2 (job i).alg (messageBytes (viewOf shared (stack i)) (job i).msg (job i).count) := by
  have h := C73_output (fun i => (job i).call)
    (fun i => ⟨fun g hg => (hv i).caller g hg, fun a ha => by simp only [Option.some.injEq] at ha; exact ⟨(job i).n, by rw [← ha]⟩⟩) hind shared stack hrest
    (fun i => ⟨.ok, (viewOf shared (stack i)).write ⟨.caller (job i).n, (job i).off⟩ (sha2 (job i).alg (messageBytes (viewOf shared (stack i)) (job i).msg (job i).count)),
      some (UInt64.ofNat (job i).alg.size)⟩)
    (fun i => C70_digest (job i).alg _ (job i).msg (job i).count (hv i).nonempty (hv i).count (hv i).readable (hv i).first (hv i).short _ (job i).size (hv i).size
      ⟨⟨_, rfl⟩, (hv i).room⟩)
    i (job i).n (job i).off _ rfl
    (by
      have h1 := (hv i).room
      have h2 := (hv i).size
      rw [show viewOf shared (stack i) (.caller (job i).n) = shared (job i).n from rfl] at h1
      rw [sha2_length]; omega)
    (fun k hk => ⟨_, rfl, rfl, Nat.le_add_right _ _, by
      rw [sha2_length] at hk
      rw [digestOctets_alg]
      show (job i).off + k < (job i).off + (job i).alg.size
      omega⟩)
  rw [sha2_length] at h
  exact h

/-- A call of `hkdf` as one thread makes it. -/
structure HkdfJob where
  alg : Alg
  ikm : MSlice
  salt : MSlice
  info : MSlice
  octets : UInt64
  n : Nat
  off : Nat

def HkdfJob.call (j : HkdfJob) : Call := .hkdf (algId j.alg) j.ikm j.salt j.info j.octets (some ⟨.caller j.n, j.off⟩)

/-- The arguments are as the interface asks, and the output overlaps with none of them. -/
structure HkdfJob.Valid (j : HkdfJob) (m : Memory) : Prop where
  caller : j.ikm.OfCaller ∧ j.salt.OfCaller ∧ j.info.OfCaller
  readable : j.ikm.Readable m ∧ j.salt.Readable m ∧ j.info.Readable m
  salt : j.salt.addr ≠ none
  short : 256 + (j.ikm.bytes m).length < 2 ^ 61 ∧ (j.salt.bytes m).length < 2 ^ 61 ∧ 256 + (j.info.bytes m).length < 2 ^ 61
  octets : j.octets.toNat ≤ 255 * j.alg.size
  room : j.off + j.octets.toNat ≤ (m (.caller j.n)).length
  avoids : j.info.Avoids ⟨.caller j.n, j.off⟩ j.octets.toNat

/-- **C73** (hkdf).  Threads that derive keys at the same time, each into its own buffer, all get the key of RFC 5869, under every schedule. -/
theorem C73_hkdf (job : ι → HkdfJob) (hind : Independent fun i => (job i).call) (shared : Nat → Bytes) (stack : ι → Memory) (hrest : ∀ i, (stack i).AtRest)
    (hv : ∀ i, (job i).Valid (viewOf shared (stack i))) (i : ι) :
    ∃ okm, hkdfExpand (job i).alg (hkdfExtract (job i).alg ((job i).salt.bytes (viewOf shared (stack i))) ((job i).ikm.bytes (viewOf shared (stack i))))
        ((job i).info.bytes (viewOf shared (stack i))) (job i).octets.toNat = some okm ∧
      ∃ N, ∀ σ : List ι, N ≤ σ.count i →
        (((startOf (fun i => (job i).call) shared stack).exec σ).thread i).prog = .done ⟨.ok, none⟩ ∧
        ((((startOf (fun i => (job i).call) shared stack).exec σ).shared (job i).n).drop (job i).off).take (job i).octets.toNat = okm := by
  have hall : ∀ i, ∃ okm, hkdfExpand (job i).alg (hkdfExtract (job i).alg ((job i).salt.bytes (viewOf shared (stack i))) ((job i).ikm.bytes (viewOf shared (stack i))))
        ((job i).info.bytes (viewOf shared (stack i))) (job i).octets.toNat = some okm ∧
      (job i).call.effect (viewOf shared (stack i)) = .ok ⟨.ok, (viewOf shared (stack i)).write ⟨.caller (job i).n, (job i).off⟩ okm, none⟩ := fun i => by
    have v := hv i
    refine C70_hkdf_partial (job i).alg _ (job i).ikm (job i).salt (job i).info v.caller.1 v.readable.1 (by have := v.short.1; omega) v.caller.2.1 v.readable.2.1 v.salt v.short.2.1
      v.caller.2.2 v.readable.2.2 v.short.2.2 (job i).octets v.octets _ ⟨⟨_, rfl⟩, v.room⟩ fun x hx hr p q hp hq => v.avoids x hx hr p q hp ?_
    have hs := size_pos (job i).alg
    have h1 : ((job i).octets.toNat + (job i).alg.size - 1) / (job i).alg.size * (job i).alg.size ≤ (job i).octets.toNat + (job i).alg.size - 1 := Nat.div_mul_le_self _ _
    have h2 : (((job i).octets.toNat + (job i).alg.size - 1) / (job i).alg.size - 1) * (job i).alg.size =
        ((job i).octets.toNat + (job i).alg.size - 1) / (job i).alg.size * (job i).alg.size - (job i).alg.size := Nat.sub_one_mul _ _
    omega
  obtain ⟨okm, h1, -⟩ := hall i
  refine ⟨okm, h1, ?_⟩
  have hlen : okm.length = (job i).octets.toNat := hkdfExpand_length h1
  have h := C73_output (fun i => (job i).call)
    (fun i => ⟨(hv i).caller.1, (hv i).caller.2.1, (hv i).caller.2.2, fun a ha => by simp only [Option.some.injEq] at ha; exact ⟨(job i).n, by rw [← ha]⟩⟩) hind shared stack hrest
    (fun i => ⟨.ok, (viewOf shared (stack i)).write ⟨.caller (job i).n, (job i).off⟩ (hall i).choose, none⟩)
    (fun i => (hall i).choose_spec.2)
    i (job i).n (job i).off okm (congrArg (Memory.write _ ⟨.caller (job i).n, (job i).off⟩) (Option.some.inj ((hall i).choose_spec.1.symm.trans h1)))
    (by rw [hlen]; exact (hv i).room)
    (fun k hk => ⟨_, rfl, rfl, Nat.le_add_right _ _, by
      show (job i).off + k < (job i).off + (job i).octets.toNat
      omega⟩)
  rw [hlen] at h
  exact h

end

/-! ## The outputs have to be disjoint -/

section
variable {ι : Type} [DecidableEq ι]

/-- While only one thread moves, it moves as if it were alone. -/
theorem exec_replicate (i : ι) (n : Nat) : ∀ w : Machine ι PReply, ((w.exec (List.replicate n i)).thread i).prog = (Prog.steps n ((w.thread i).prog, w.view i)).1 ∧
    (w.exec (List.replicate n i)).view i = (Prog.steps n ((w.thread i).prog, w.view i)).2 ∧ ∀ j, j ≠ i → (w.exec (List.replicate n i)).thread j = w.thread j := by
  induction n with
  | zero => intro w; exact ⟨rfl, rfl, fun _ _ => rfl⟩
  | succ n ih =>
    intro w
    obtain ⟨h1, h2, h3⟩ := ih (w.step i)
    rw [List.replicate_succ]
    simp only [Machine.exec, Prog.steps]
    rw [view_step_same] at h1 h2
    simp only [Machine.step, if_true] at h1 h2
    refine ⟨h1, h2, fun j hj => ?_⟩
    rw [h3 j hj]
    simp [Machine.step, hj]

theorem exec_append (w : Machine ι PReply) (σ τ : List ι) : w.exec (σ ++ τ) = (w.exec σ).exec τ := by
  induction σ generalizing w with
  | nil => rfl
  | cons i σ ih => exact ih _

end

/-- Two threads that compute different digests of the empty message in the same buffer. -/
def clash (b : Bool) : Call := .digest (if b then 0 else 1) (some [⟨0, none⟩]) 1 (some (sampleAt 0)) (some 64)

/-- **C73** (the condition is needed).  Two threads with the same output buffer: there is a schedule under which both calls succeed and the first thread does not find
its digest in the buffer. -/
theorem C73_shared_output : ∃ σ : List Bool, ∃ w, w = (startOf clash (fun n => sampleMemory (.caller n)) fun _ _ => []).exec σ ∧
    (w.thread false).prog = .done ⟨.ok, some 32⟩ ∧ (w.thread true).prog = .done ⟨.ok, some 28⟩ ∧ (w.shared 0).take 32 ≠ sha2 .sha256 [] := by
  have hm : viewOf (fun n => sampleMemory (.caller n)) (fun _ => []) = sampleMemory := by
    funext r
    cases r <;> rfl
  have call : ∀ (a : Alg) (m : Memory), (m (.caller 0)).length = 64 →
      digestAt m (algId a) (some [⟨0, none⟩]) 1 (some (sampleAt 0)) (some 64) = .ok ⟨.ok, m.write (sampleAt 0) (sha2 a []), some (UInt64.ofNat a.size)⟩ := fun a m hl =>
    C70_digest a m [⟨0, none⟩] 1 (by simp) (by decide)
      (fun g hg => by
        simp only [UInt64.toNat_one, List.take_succ_cons, List.take_zero, List.mem_singleton] at hg
        subst hg
        exact ⟨by decide, fun s hs => by simp [MList.slices] at hs⟩)
      (by simp) (by show (0 : Nat) < _; decide) _ 64 (by cases a <;> decide) ⟨⟨0, rfl⟩, by show 0 + 64 ≤ (m (.caller 0)).length; omega⟩
  have wl : ∀ (m : Memory) (x : Bytes), (m (.caller 0)).length = 64 → x.length ≤ 64 → m.write (sampleAt 0) x (.caller 0) = x ++ (m (.caller 0)).drop x.length := by
    intro m x _ _
    simp [Memory.write, sampleAt]
  have run1 := run_digest _ _ _ _ _ _ _ (call .sha256 sampleMemory (by decide))
  have hlen1 : ((sampleMemory.write (sampleAt 0) (sha2 .sha256 [])) (.caller 0)).length = 64 := by
    rw [wl _ _ (by decide) (by rw [sha2_length]; decide), List.length_append, List.length_drop, sha2_length]
    decide
  have run2 := run_digest _ _ _ _ _ _ _ (call .sha224 _ hlen1)
  obtain ⟨N1, h1⟩ := run_steps _ _ _ _ run1
  obtain ⟨N2, h2⟩ := run_steps _ _ _ _ run2
  refine ⟨List.replicate N1 false ++ List.replicate N2 true, _, rfl, ?_⟩
  rw [exec_append]
  obtain ⟨a1, a2, a3⟩ := exec_replicate false N1 (startOf clash (fun n => sampleMemory (.caller n)) fun _ _ => [])
  have hv : (startOf clash (fun n => sampleMemory (.caller n)) fun _ _ => []).view false = sampleMemory := hm
  rw [hv, show ((startOf clash (fun n => sampleMemory (.caller n)) fun _ _ => []).thread false).prog = digestP (algId .sha256) (some [⟨0, none⟩]) 1 (some (sampleAt 0)) (some 64) from rfl,
    h1 N1 (Nat.le_refl _)] at a1 a2
  generalize (startOf clash (fun n => sampleMemory (.caller n)) fun _ _ => []).exec (List.replicate N1 false) = w1 at *
  have t1 := a3 true (by decide)
  obtain ⟨b1, b2, b3⟩ := exec_replicate true N2 w1
  have hv1 : w1.view true = sampleMemory.write (sampleAt 0) (sha2 .sha256 []) := by
    funext r
    by_cases hr : r.Local
    · rw [view_local _ _ _ hr, t1, write_other _ _ _ _ (fun e => hr 0 (by rw [e]; rfl))]
      cases r with
      | caller n => exact absurd rfl (hr n)
      | _ => rfl
    · obtain ⟨n, rfl⟩ : ∃ n, r = .caller n := Classical.byContradiction fun h => hr fun n e => h ⟨n, e⟩
      exact congrFun a2 (.caller n)
  rw [hv1, t1, show ((startOf clash (fun n => sampleMemory (.caller n)) fun _ _ => []).thread true).prog = digestP (algId .sha224) (some [⟨0, none⟩]) 1 (some (sampleAt 0)) (some 64) from rfl,
    h2 N2 (Nat.le_refl _)] at b1 b2
  refine ⟨by rw [b3 false (by decide), a1]; rfl, by rw [b1]; rfl, ?_⟩
  have hs : (w1.exec (List.replicate N2 true)).shared 0 = sha2 .sha224 [] ++ ((sampleMemory.write (sampleAt 0) (sha2 .sha256 [])) (.caller 0)).drop 28 := by
    refine (congrFun b2 (.caller 0)).trans ((wl _ _ hlen1 (by rw [sha2_length]; decide)).trans ?_)
    rw [sha2_length]
    rfl
  rw [hs]
  intro h
  have h' := congrArg (List.take 28) h
  rw [List.take_take, show min 28 32 = 28 from rfl, List.take_left' (show (sha2 .sha224 []).length = 28 from sha2_length _ _)] at h'
  rw [sha2_eval, sha2_eval] at h'
  revert h'
  decide +kernel

/-! ## What is seen of an execution -/

theorem slice_shared (s : MSlice) (h : s.OfCaller) (a : Addr) (ha : s.Has a) : a.Shared := by
  obtain ⟨x, h1, h2, -⟩ := ha
  obtain ⟨n, hn⟩ := h x h1
  exact ⟨n, by rw [h2, hn]⟩

theorem list_shared (g : MList) (h : g.OfCaller) (a : Addr) (ha : ∃ s ∈ g.slices, s.Has a) : a.Shared := by
  obtain ⟨s, hs, ha⟩ := ha
  exact slice_shared s (h s (List.mem_of_mem_take hs)) a ha

theorem reads_shared (c : Call) (hc : c.OfCaller) (a : Addr) (h : c.Reads a) : a.Shared := by
  cases c with
  | digest alg msg count out size =>
    obtain ⟨g, hg, h⟩ := h
    exact list_shared g (hc.1 g (List.mem_of_mem_take hg)) a h
  | hmac alg key msg out size =>
    rcases h with h | ⟨g, hg, h⟩
    · exact slice_shared _ hc.1 a h
    · exact list_shared g (hc.2.1 g hg) a h
  | extract => exact h.elim (slice_shared _ hc.1 a) (slice_shared _ hc.2.1 a)
  | expand => exact h.elim (slice_shared _ hc.1 a) (slice_shared _ hc.2.1 a)
  | hkdf => exact h.elim (slice_shared _ hc.1 a) fun h => h.elim (slice_shared _ hc.2.1 a) (slice_shared _ hc.2.2.1 a)

theorem alike_call (c : Call) : Prog.Alike Eq c.prog c.prog := by
  cases c with
  | digest => exact alike_digest _ _ _ _ _
  | hmac => exact alike_hmac _ _ _ _ _
  | extract => exact alike_extract _ _ _ _ _
  | expand => exact alike_expand _ _ _ _ _
  | hkdf => exact alike_hkdf _ _ _ _ _ _

theorem notStack_call (c : Call) (hc : c.OfCaller) : ∃ R, c.prog.Within NotStack NotStack (· ≠ .stack) R := by
  have shared : ∀ a : Addr, a.Shared → NotStack a := fun a ⟨n, hn⟩ => by unfold NotStack; rw [hn]; simp
  refine ⟨_, (C73_footprint c).mono (fun a h => ?_) (fun a h => ?_) (fun r h => h.2) fun _ h => h⟩
  · exact h.elim (fun h => shared a (reads_shared c hc a h)) fun h => h.elim (fun h => shared a (writes_shared c hc a h)) fun h => h.2
  · exact h.elim (fun h => shared a (writes_shared c hc a h)) fun h => h.2

/-- **C74**.  What is seen of the execution of a call – every address read or written, the outcome of every branch, every index into an array of words, in their order –
is the same for any two contents of memory: it depends on addresses, sizes and the algorithm only. -/
theorem C74_trace (c : Call) (hc : c.OfCaller) (m m' : Memory) (h : ∀ r, r ≠ .stack → (m r).length = (m' r).length) : c.prog.trace m = c.prog.trace m' :=
  alike_trace (alike_call c) (notStack_call c hc) m m' h

/-- **C74** (result).  Whether the call succeeds and the size it reports do not depend on the contents of memory either. -/
theorem C74_reply (c : Call) (hc : c.OfCaller) (m m' : Memory) (h : ∀ r, r ≠ .stack → (m r).length = (m' r).length) :
    (c.prog.run m).map (·.1) = (c.prog.run m').map (·.1) :=
  alike_reply (alike_call c) (notStack_call c hc) m m' h

/-! ## Examples -/

/-- Two threads digest overlapping parts of the same object with different algorithms, one into the other half of that object, the other into another object. -/
def twoJobs (b : Bool) : DigestJob :=
  if b then ⟨.sha512, [⟨1, some [⟨20, some (sampleAt 0)⟩]⟩], 1, 1, 0, 64⟩ else ⟨.sha256, [⟨2, some [⟨10, some (sampleAt 0)⟩, ⟨20, some (sampleAt 5)⟩]⟩], 1, 0, 32, 32⟩

def twoShared (n : Nat) : Bytes := if n = 0 ∨ n = 1 then List.replicate 64 7 else []

theorem twoJobs_apart : ∀ i j a, (twoJobs i).call.Writes a → ¬ (twoJobs j).call.Reads a ∧ (i ≠ j → ¬ (twoJobs j).call.Writes a) := by
  intro i j a hw
  have mem : ∀ b, ((twoJobs b).call).Reads a → a.region = .caller 0 ∧ a.off < 25 := by
    intro b hb
    cases b with
    | false =>
      obtain ⟨g, hg, s, hs, x, hx, h1, h2, h3⟩ := hb
      simp only [Option.getD_some, twoJobs, Bool.false_eq_true, if_false, UInt64.reduceToNat, List.take_succ_cons, List.take_zero, List.mem_singleton] at hg
      subst hg
      simp only [MList.slices, Option.getD_some, UInt64.reduceToNat, List.take_succ_cons, List.take_zero, List.mem_cons, List.not_mem_nil, or_false] at hs
      rcases hs with rfl | rfl <;> simp only [Option.some.injEq] at hx <;> subst hx <;> simp only [sampleAt, UInt64.reduceToNat] at h1 h2 h3 <;> exact ⟨h1, by omega⟩
    | true =>
      obtain ⟨g, hg, s, hs, x, hx, h1, h2, h3⟩ := hb
      simp only [Option.getD_some, twoJobs, if_true, UInt64.reduceToNat, List.take_succ_cons, List.take_zero, List.mem_singleton] at hg
      subst hg
      simp only [MList.slices, Option.getD_some, UInt64.reduceToNat, List.take_succ_cons, List.take_zero, List.mem_cons, List.not_mem_nil, or_false] at hs
      subst hs
      simp only [Option.some.injEq] at hx
      subst hx
      simp only [sampleAt, UInt64.reduceToNat] at h1 h2 h3
      exact ⟨h1, by omega⟩
  have out : ∀ b, ((twoJobs b).call).Writes a → a.region = .caller (if b then 1 else 0) ∧ (b = false → 32 ≤ a.off) := by
    intro b hb
    obtain ⟨o, ho, h1, h2, h3⟩ := hb
    cases b <;> simp only [Option.some.injEq] at ho <;> subst ho
    · exact ⟨h1, fun _ => h2⟩
    · exact ⟨h1, fun h => by simp at h⟩
  obtain ⟨o1, o2⟩ := out i hw
  refine ⟨fun hr => ?_, fun hij hr => ?_⟩
  · obtain ⟨m1, m2⟩ := mem j hr
    rw [o1] at m1
    cases i with
    | false => have := o2 rfl; omega
    | true => simp at m1
  · obtain ⟨p1, -⟩ := out j hr
    rw [o1] at p1
    cases i <;> cases j <;> simp_all

theorem twoJobs_independent : Independent fun b => (twoJobs b).call := fun i j hij a hw => ⟨(twoJobs_apart i j a hw).1, (twoJobs_apart i j a hw).2 hij⟩

theorem twoJobs_valid (b : Bool) : (twoJobs b).Valid (viewOf twoShared fun _ => []) := by
  cases b with
  | false =>
    refine ⟨fun g hg => ?_, by simp [twoJobs], by decide, fun g hg => ?_, fun g hg => ?_, by decide +kernel, by decide, by decide⟩
    · simp only [twoJobs, Bool.false_eq_true, if_false, List.mem_singleton] at hg
      subst hg
      intro s hs
      simp only [Option.getD_some, List.mem_cons, List.not_mem_nil, or_false] at hs
      rcases hs with rfl | rfl <;> exact sample_ofCaller _ _
    · simp only [twoJobs, Bool.false_eq_true, if_false, UInt64.reduceToNat, List.take_succ_cons, List.take_zero, List.mem_singleton] at hg
      subst hg
      refine ⟨by decide, fun s hs => ?_⟩
      simp only [MList.slices, Option.getD_some, UInt64.reduceToNat, List.take_succ_cons, List.take_zero, List.mem_cons, List.not_mem_nil, or_false] at hs
      rcases hs with rfl | rfl <;> decide
    · simp only [twoJobs, Bool.false_eq_true, if_false, List.head?_cons, Option.mem_def, Option.some.injEq] at hg
      subst hg
      simp
  | true =>
    refine ⟨fun g hg => ?_, by simp [twoJobs], by decide, fun g hg => ?_, fun g hg => ?_, by decide +kernel, by decide, by decide⟩
    · simp only [twoJobs, if_true, List.mem_singleton] at hg
      subst hg
      intro s hs
      simp only [Option.getD_some, List.mem_cons, List.not_mem_nil, or_false] at hs
      subst hs
      exact sample_ofCaller _ _
    · simp only [twoJobs, if_true, UInt64.reduceToNat, List.take_succ_cons, List.take_zero, List.mem_singleton] at hg
      subst hg
      refine ⟨by decide, fun s hs => ?_⟩
      simp only [MList.slices, Option.getD_some, UInt64.reduceToNat, List.take_succ_cons, List.take_zero, List.mem_cons, List.not_mem_nil, or_false] at hs
      subst hs
      decide
    · simp only [twoJobs, if_true, List.head?_cons, Option.mem_def, Option.some.injEq] at hg
      subst hg
      simp

/-- Both threads get their digests of the same memory, whatever the schedule. -/
example (b : Bool) : ∃ N, ∀ σ : List Bool, N ≤ σ.count b →
    (((startOf (fun i => (twoJobs i).call) twoShared fun _ _ => []).exec σ).thread b).prog = .done ⟨.ok, some (UInt64.ofNat (twoJobs b).alg.size)⟩ ∧
    ((((startOf (fun i => (twoJobs i).call) twoShared fun _ _ => []).exec σ).shared (twoJobs b).n).drop (twoJobs b).off).take (twoJobs b).alg.size =
      sha2 (twoJobs b).alg (messageBytes (viewOf twoShared fun _ => []) (twoJobs b).msg (twoJobs b).count) :=
  C73_digest twoJobs twoJobs_independent twoShared (fun _ _ => []) (fun _ _ _ _ => rfl) twoJobs_valid b

/-- Two threads derive keys of 40 octets from the same input with different `info`. -/
def twoKeys (b : Bool) : HkdfJob := ⟨.sha256, ⟨16, some (sampleAt 0)⟩, ⟨0, some (sampleAt 0)⟩, ⟨if b then 4 else 8, some (sampleAt 16)⟩, 40, if b then 1 else 2, 3⟩

theorem twoKeys_apart : ∀ i j a, (twoKeys i).call.Writes a → ¬ (twoKeys j).call.Reads a ∧ (i ≠ j → ¬ (twoKeys j).call.Writes a) := by
  intro i j a hw
  have slice : ∀ (n : UInt64) k, (⟨n, some (sampleAt k)⟩ : MSlice).Has a → a.region = .caller 0 := fun n k ⟨x, hx, h1, _⟩ => by
    simp only [Option.some.injEq] at hx
    subst hx
    exact h1
  have out : ∀ b, ((twoKeys b).call).Writes a → a.region = .caller (if b then 1 else 2) := fun b ⟨o, ho, h1, _⟩ => by
    simp only [Option.some.injEq] at ho
    subst ho
    exact h1
  have o1 := out i hw
  refine ⟨fun hr => ?_, fun hij hr => ?_⟩
  · have : a.region = .caller 0 := hr.elim (slice _ _) fun h => h.elim (slice _ _) (slice _ _)
    rw [o1] at this
    cases i <;> simp at this
  · have p1 := out j hr
    rw [o1] at p1
    cases i <;> cases j <;> simp_all

theorem twoKeys_independent : Independent fun b => (twoKeys b).call := fun i j hij a hw => ⟨(twoKeys_apart i j a hw).1, (twoKeys_apart i j a hw).2 hij⟩

theorem twoKeys_valid (b : Bool) : (twoKeys b).Valid (viewOf (fun _ => List.replicate 64 7) fun _ => []) := by
  refine ⟨⟨sample_ofCaller _ _, sample_ofCaller _ _, sample_ofCaller _ _⟩, ?_, by simp [twoKeys], ?_, by cases b <;> decide, by cases b <;> decide, fun x hx hr => ?_⟩
  · cases b <;> decide
  · cases b <;> decide
  · simp only [twoKeys, Option.some.injEq] at hx
    subst hx
    cases b <;> simp [twoKeys, sampleAt] at hr

/-- Both threads get the keys of RFC 5869, whatever the schedule. -/
example (b : Bool) := C73_hkdf twoKeys twoKeys_independent (fun _ => List.replicate 64 7) (fun _ _ => []) (fun _ _ _ _ => rfl) twoKeys_valid b

/-- Two memories that differ in every octet of the key and of the message meet the hypotheses of C74. -/
example : ∃ c : Call, c = .hmac 1 ⟨32, some (sampleAt 0)⟩ (some ⟨1, some [⟨16, some (sampleAt 32)⟩]⟩) (some (sampleAt 32)) (some 32) ∧
    c.prog.trace sampleMemory = c.prog.trace (fun r => if r = .caller 0 then List.replicate 64 0xff else []) := by
  refine ⟨_, rfl, C74_trace _ ?_ _ _ fun r _ => ?_⟩
  · refine ⟨sample_ofCaller _ _, fun g hg s hs => ?_, fun a ha => ?_⟩
    · simp only [Option.some.injEq] at hg
      subst hg
      simp only [Option.getD_some, List.mem_singleton] at hs
      subst hs
      exact sample_ofCaller _ _
    · simp only [Option.some.injEq] at ha
      subst ha
      exact ⟨0, rfl⟩
  · unfold sampleMemory
    split <;> rfl

/-- A comparison that stops at the first difference does not have the property: it is seen where it stops. -/
def compareP (a b : Addr) : Nat → Prog Bool
  | 0 => .done true
  | n + 1 => .load a fun x => .load b fun y => branch (x = y) (compareP (a.plus 1) (b.plus 1) n) (.done false)

example : (compareP (sampleAt 0) (sampleAt 32) 4).trace sampleMemory ≠ (compareP (sampleAt 0) (sampleAt 32) 4).trace (fun r => if r = .caller 0 then List.replicate 64 0 else []) := by
  decide

/-- Nor does an access to a table at an index that depends on data. -/
example : (Prog.load (sampleAt 0) fun x => .load (sampleAt x.toNat) fun y => .done y).trace sampleMemory ≠
    (Prog.load (sampleAt 0) fun x => .load (sampleAt x.toNat) fun y => .done y).trace (fun r => if r = .caller 0 then List.replicate 64 1 else []) := by
  decide

end Nat20
