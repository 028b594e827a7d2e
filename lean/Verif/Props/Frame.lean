import Verif.Lemmas.Frame
import Verif.Props.Arena
/-!
# What the digest functions do to memory other than their output

For all arguments of the functions of the native digest context: any pointers, overlapping in any way, any sizes, any contents, and
whatever the result is.  Undefined behaviour (invalid memory) is the only exception.
-/

namespace Nat20

open Fips

theorem documentedSize_getD (alg : UInt32) : (documentedSize alg).getD 0 = digestEnumToSize alg := by
  unfold documentedSize digestEnumToSize
  split <;> (try rfl)
  split <;> (try rfl)
  split <;> (try rfl)
  split <;> rfl

/-! ## C71: nothing but the announced output is written -/

/-- **C71** (digest).  A call that returns has changed at most the octets of the digest, and none at all if it reports an error. -/
theorem C71_digest (m : Memory) (alg : UInt32) (msg : Option (List MList)) (count : UInt64) (out : Option Addr) (size : Option UInt64) (x : MReply)
    (h : digestAt m alg msg count out size = .ok x) :
    m.SameExcept x.mem out ((documentedSize alg).getD 0).toNat ∧ (x.err ≠ .ok → x.mem = m) := by
  obtain ⟨f1, f2, -⟩ := digestAt_frame m alg msg count out size x h
  rw [documentedSize_getD]
  exact ⟨f1, f2⟩

/-- **C71** (hmac). -/
theorem C71_hmac (m : Memory) (alg : UInt32) (key : MSlice) (msg : Option MList) (out : Option Addr) (size : Option UInt64) (x : MReply)
    (h : hmacAt m alg key msg out size = .ok x) :
    m.SameExcept x.mem out ((documentedSize alg).getD 0).toNat ∧ (x.err ≠ .ok → x.mem = m) := by
  obtain ⟨f1, f2, -⟩ := hmacAt_frame m alg key msg out size x h
  rw [documentedSize_getD]
  exact ⟨f1, f2⟩

/-- **C71** (extract). -/
theorem C71_extract (m : Memory) (alg : UInt32) (ikm salt : MSlice) (out : Option Addr) (size : Option UInt64) (x : MReply)
    (h : extractAt m alg ikm salt out size = .ok x) :
    m.SameExcept x.mem out ((documentedSize alg).getD 0).toNat ∧ (x.err ≠ .ok → x.mem = m) := by
  obtain ⟨f1, f2, -⟩ := extractAt_frame m alg ikm salt out size x h
  rw [documentedSize_getD]
  exact ⟨f1, f2⟩

/-- **C71** (expand).  A call that returns has changed at most the requested number of octets at the output pointer. -/
theorem C71_expand (m : Memory) (alg : UInt32) (prk info : MSlice) (L : UInt64) (out : Option Addr) (x : MReply)
    (h : hkdfExpandAt m alg prk info L out = .ok x) : m.SameExcept x.mem out L.toNat := hkdfExpandAt_frame m alg prk info L out x h

/-- **C71** (hkdf). -/
theorem C71_hkdf (m : Memory) (alg : UInt32) (ikm salt info : MSlice) (L : UInt64) (out : Option Addr) (x : MReply)
    (h : hkdfAt m alg ikm salt info L out = .ok x) : m.SameExcept x.mem out L.toNat := hkdfAt_frame m alg ikm salt info L out x h

/-! ## C72: no secrets stay behind on the stack -/

/-- The output pointer is NULL or points to memory of the caller. -/
def OutOfCaller (out : Option Addr) : Prop := ∀ a, out = some a → ∃ n, a.region = .caller n

/-- Nothing was added to what ended local variables have left in the stack memory. -/
def NothingLeft (m m' : Memory) : Prop := m' .stack = m .stack

theorem sameExcept_nothingLeft {m m' : Memory} {out : Option Addr} {n : Nat} (ho : OutOfCaller out) (h : m.SameExcept m' out n) : NothingLeft m m' := by
  refine List.ext_getElem? fun i => h .stack i fun a ha hc => ?_
  obtain ⟨k, hk⟩ := ho a ha
  rw [← hc.1] at hk
  cases hk

/-- **C72** (digest).  Whatever the arguments are and whatever the call returns, the state of the hash computation was erased. -/
theorem C72_digest (m : Memory) (alg : UInt32) (msg : Option (List MList)) (count : UInt64) (out : Option Addr) (ho : OutOfCaller out) (size : Option UInt64)
    (x : MReply) (h : digestAt m alg msg count out size = .ok x) : NothingLeft m x.mem := sameExcept_nothingLeft ho (C71_digest m alg msg count out size x h).1

/-- **C72** (hmac).  Whatever the arguments are and whatever the call returns, the padded key, the inner digest and the states of the
hash computations were erased. -/
theorem C72_hmac (m : Memory) (alg : UInt32) (key : MSlice) (msg : Option MList) (out : Option Addr) (ho : OutOfCaller out) (size : Option UInt64) (x : MReply)
    (h : hmacAt m alg key msg out size = .ok x) : NothingLeft m x.mem := sameExcept_nothingLeft ho (C71_hmac m alg key msg out size x h).1

/-- **C72** (extract). -/
theorem C72_extract (m : Memory) (alg : UInt32) (ikm salt : MSlice) (out : Option Addr) (ho : OutOfCaller out) (size : Option UInt64) (x : MReply)
    (h : extractAt m alg ikm salt out size = .ok x) : NothingLeft m x.mem := sameExcept_nothingLeft ho (C71_extract m alg ikm salt out size x h).1

/-- **C72** (expand).  The same for the last block, of which only a part goes to the caller. -/
theorem C72_expand (m : Memory) (alg : UInt32) (prk info : MSlice) (L : UInt64) (out : Option Addr) (ho : OutOfCaller out) (x : MReply)
    (h : hkdfExpandAt m alg prk info L out = .ok x) : NothingLeft m x.mem := sameExcept_nothingLeft ho (C71_expand m alg prk info L out x h)

/-- **C72** (hkdf).  The same for the pseudorandom key. -/
theorem C72_hkdf (m : Memory) (alg : UInt32) (ikm salt info : MSlice) (L : UInt64) (out : Option Addr) (ho : OutOfCaller out) (x : MReply)
    (h : hkdfAt m alg ikm salt info L out = .ok x) : NothingLeft m x.mem := sameExcept_nothingLeft ho (C71_hkdf m alg ikm salt info L out x h)

/-! ## Examples -/

theorem sample_out (i : Nat) : OutOfCaller (some (sampleAt i)) := by
  intro a ha
  simp only [Option.some.injEq] at ha
  subst ha
  exact ⟨0, rfl⟩

/-- A key is replaced by its HMAC: the call returns, so C71 and C72 apply.  The octets 32 .. 63 are still the same. -/
example : ∃ x, hmacAt sampleMemory 1 ⟨32, some (sampleAt 0)⟩ (some ⟨1, some [⟨64, some (sampleAt 0)⟩]⟩) (some (sampleAt 0)) (some 64) = .ok x ∧
    x.err = .ok ∧ NothingLeft sampleMemory x.mem ∧ ∀ i, 32 ≤ i → (x.mem (.caller 0))[i]? = (sampleMemory (.caller 0))[i]? := by
  have h := C70_hmac .sha256 sampleMemory ⟨32, some (sampleAt 0)⟩ (sample_ofCaller _ _) (by decide) (by simp) (by decide)
    ⟨1, some [⟨64, some (sampleAt 0)⟩]⟩ (fun s hs => by simp only [Option.getD_some, List.mem_singleton] at hs; subst hs; exact sample_ofCaller _ _)
    ⟨by decide, fun s hs => by
      simp only [MList.slices, Option.getD_some, UInt64.reduceToNat, List.take_succ_cons, List.take_zero, List.mem_singleton] at hs
      subst hs
      decide⟩
    (by decide) (sampleAt 0) 64 (by decide) ⟨⟨0, rfl⟩, by decide⟩
  refine ⟨_, h, rfl, C72_hmac _ _ _ _ _ (sample_out 0) _ _ h, fun i hi => (C71_hmac _ _ _ _ _ _ _ h).1 _ i fun a ha hc => ?_⟩
  simp only [Option.some.injEq] at ha
  subst ha
  have h2 := hc.2.2
  have e : (sampleAt 0).off + (Option.getD (documentedSize (algId .sha256)) 0).toNat = 32 := by decide
  omega

/-- There is something to erase: a call that fails because the message is NULL has already made the padded key from the key. -/
example : (match hmacInternalAt (sampleMemory.hmacLocals (List.replicate 128 0) (List.replicate 64 0)) 1 ⟨32, some (sampleAt 0)⟩ none
      (some (sampleAt 0)) (some 64) with
    | .ok r => decide (r.err = .nullData ∧ ((r.mem .key).take 32).map (· ^^^ 0x36) = (sampleMemory (.caller 0)).take 32)
    | .error _ => false) = true := by decide +kernel

/-- What `NothingLeft` rejects: an array that is not erased when its lifetime ends. -/
example : ¬ NothingLeft sampleMemory (sampleMemory.bury [0, 5]) := by unfold NothingLeft; decide

end Nat20
