import Verif.Props.Sha2
import Verif.Spec.Schedule
/-!
# C69: hash computations do not disturb each other
-/

namespace Nat20

open Fips

/-- The initial hash value of a function. -/
def hash32 (a : Alg) : family256.Hash := if a = .sha224 then hashOf initialSha224 else hashOf (initialFirst 32)
def hash64 (a : Alg) : family512.Hash := if a = .sha384 then hashOf initialSha384 else hashOf (initialFirst 64)

/-- The state objects contain what the ledger says. -/
def Ledger.Agrees (l : Ledger) (m : ShaMem) : Prop :=
  (∀ i a msg, l false i = some (a, msg) → a.wide = false ∧ Rep family256 (hash32 a) (m.small i) msg) ∧
  (∀ i a msg, l true i = some (a, msg) → a.wide = true ∧ Rep family512 (hash64 a) (m.big i) msg)

theorem Ledger.Agrees.setSmall {l : Ledger} {m : ShaMem} (h : l.Agrees m) (i : Nat) (s : ShaState 32) (x : Option (Alg × Bytes))
    (hx : ∀ a msg, x = some (a, msg) → a.wide = false ∧ Rep family256 (hash32 a) s msg) : (l.set false i x).Agrees (m.setSmall i s) := by
  refine ⟨fun j a msg e => ?_, fun j a msg e => ?_⟩
  · unfold Ledger.set at e
    unfold ShaMem.setSmall
    by_cases hj : j = i
    · rw [if_pos ⟨rfl, hj⟩] at e
      simp only [if_pos hj]
      exact hx a msg e
    · rw [if_neg (by simp [hj])] at e
      simp only [if_neg hj]
      exact h.1 j a msg e
  · unfold Ledger.set at e
    rw [if_neg (by simp)] at e
    exact h.2 j a msg e

theorem Ledger.Agrees.setBig {l : Ledger} {m : ShaMem} (h : l.Agrees m) (i : Nat) (s : ShaState 64) (x : Option (Alg × Bytes))
    (hx : ∀ a msg, x = some (a, msg) → a.wide = true ∧ Rep family512 (hash64 a) s msg) : (l.set true i x).Agrees (m.setBig i s) := by
  refine ⟨fun j a msg e => ?_, fun j a msg e => ?_⟩
  · unfold Ledger.set at e
    rw [if_neg (by simp)] at e
    exact h.1 j a msg e
  · unfold Ledger.set at e
    unfold ShaMem.setBig
    by_cases hj : j = i
    · rw [if_pos ⟨rfl, hj⟩] at e
      simp only [if_pos hj]
      exact hx a msg e
    · rw [if_neg (by simp [hj])] at e
      simp only [if_neg hj]
      exact h.2 j a msg e

/-- One call. -/
theorem call_ok (l : Ledger) (m : ShaMem) (h : l.Agrees m) (c : ShaCall) (hc : c.Legal l) : ∃ m', c.run m = .ok (c.expected l, m') ∧ (c.record l).Agrees m' := by
  cases c with
  | init a i =>
    cases a
    · exact ⟨_, rfl, h.setSmall i _ _ (fun a msg e => by cases e; exact ⟨rfl, by rw [sha224Init_eq]; exact init_rep _ (by decide)⟩)⟩
    · exact ⟨_, rfl, h.setSmall i _ _ (fun a msg e => by cases e; exact ⟨rfl, by rw [sha256Init_eq]; exact init_rep _ (by decide)⟩)⟩
    · exact ⟨_, rfl, h.setBig i _ _ (fun a msg e => by cases e; exact ⟨rfl, by rw [sha384Init_eq]; exact init_rep _ (by decide)⟩)⟩
    · exact ⟨_, rfl, h.setBig i _ _ (fun a msg e => by cases e; exact ⟨rfl, by rw [sha512Init_eq]; exact init_rep _ (by decide)⟩)⟩
  | copy b i j =>
    cases b
    · exact ⟨_, rfl, h.setSmall j _ _ (fun a msg e => h.1 i a msg e)⟩
    · exact ⟨_, rfl, h.setBig j _ _ (fun a msg e => h.2 i a msg e)⟩
  | update a i data =>
    obtain ⟨⟨msg, hm⟩, hv⟩ := hc
    cases hw : a.wide
    · rw [hw] at hm
      obtain ⟨s, e, hr⟩ : ∃ s : ShaState 32, sha256Update (some (m.small i)) data = .ok (some s) ∧ Rep family256 (hash32 a) s (msg ++ data.bytes) :=
        update_ok sha256_refines (by decide) _ _ _ (h.1 i a msg hm).2 data hv
      refine ⟨m.setSmall i s, ?_, ?_⟩
      · simp only [ShaCall.run, hw]
        rw [if_neg (by decide), e]
        rfl
      · simp only [ShaCall.record, hw, hm, Option.map_some]
        exact h.setSmall i s _ (fun a' msg' e' => by cases e'; exact ⟨hw, hr⟩)
    · rw [hw] at hm
      obtain ⟨s, e, hr⟩ : ∃ s : ShaState 64, sha512Update (some (m.big i)) data = .ok (some s) ∧ Rep family512 (hash64 a) s (msg ++ data.bytes) :=
        update_ok sha512_refines (by decide) _ _ _ (h.2 i a msg hm).2 data hv
      refine ⟨m.setBig i s, ?_, ?_⟩
      · simp only [ShaCall.run, hw]
        rw [if_pos trivial, e]
        rfl
      · simp only [ShaCall.record, hw, hm, Option.map_some]
        exact h.setBig i s _ (fun a' msg' e' => by cases e'; exact ⟨hw, hr⟩)
  | finalize a i d =>
    obtain ⟨msg, hm, hl, hd⟩ := hc
    cases a
    · obtain ⟨s, e⟩ : ∃ s : ShaState 32, sha224Finalize (some (m.small i)) (some d) = .ok (some s, some ((family256.output (family256.absorb (hash32 .sha224) (family256.pad msg))).take 28 ++ d.drop 28)) :=
        finalize_ok sha256_refines (by decide) _ _ _ (h.1 i _ msg hm).2 hl d 28 (by decide) hd
      refine ⟨m.setSmall i s, ?_, h.setSmall i s none (fun _ _ e => by cases e)⟩
      simp only [ShaCall.run, ShaCall.expected, hm]
      rw [e]
      rfl
    · obtain ⟨s, e⟩ : ∃ s : ShaState 32, sha256Finalize (some (m.small i)) (some d) = .ok (some s, some ((family256.output (family256.absorb (hash32 .sha256) (family256.pad msg))).take 32 ++ d.drop 32)) :=
        finalize_ok sha256_refines (by decide) _ _ _ (h.1 i _ msg hm).2 hl d 32 (by decide) hd
      refine ⟨m.setSmall i s, ?_, h.setSmall i s none (fun _ _ e => by cases e)⟩
      simp only [ShaCall.run, ShaCall.expected, hm]
      rw [e, List.take_of_length_le (by rw [output_length]; decide)]
      rfl
    · obtain ⟨s, e⟩ : ∃ s : ShaState 64, sha384Finalize (some (m.big i)) (some d) = .ok (some s, some ((family512.output (family512.absorb (hash64 .sha384) (family512.pad msg))).take 48 ++ d.drop 48)) :=
        finalize_ok sha512_refines (by decide) _ _ _ (h.2 i _ msg hm).2 hl d 48 (by decide) hd
      refine ⟨m.setBig i s, ?_, h.setBig i s none (fun _ _ e => by cases e)⟩
      simp only [ShaCall.run, ShaCall.expected, hm]
      rw [e]
      rfl
    · obtain ⟨s, e⟩ : ∃ s : ShaState 64, sha512Finalize (some (m.big i)) (some d) = .ok (some s, some ((family512.output (family512.absorb (hash64 .sha512) (family512.pad msg))).take 64 ++ d.drop 64)) :=
        finalize_ok sha512_refines (by decide) _ _ _ (h.2 i _ msg hm).2 hl d 64 (by decide) hd
      refine ⟨m.setBig i s, ?_, h.setBig i s none (fun _ _ e => by cases e)⟩
      simp only [ShaCall.run, ShaCall.expected, hm]
      rw [e, List.take_of_length_le (by rw [output_length]; decide)]
      rfl

theorem calls_ok (cs : List ShaCall) : ∀ (l : Ledger) (m : ShaMem), l.Agrees m → AllLegal l cs → runCalls m cs = .ok (allExpected l cs) := by
  induction cs with
  | nil => intro l m _ _; rfl
  | cons c cs ih =>
    intro l m h hc
    obtain ⟨m', e, h'⟩ := call_ok l m h c hc.1
    unfold runCalls
    rw [e]
    show (do let rs ← runCalls m' cs; .ok (c.expected l :: rs)) = _
    rw [ih _ _ h' hc.2]
    rfl

/-- **C69.**  Any number of hash computations with the four functions, in any order and interleaving, in state objects that are reused and copied and initially contain anything: every
`finalize` writes the hash of the message of its own state, and nothing else. -/
theorem C69_interleaving (m : ShaMem) (cs : List ShaCall) (h : AllLegal (fun _ _ => none) cs) : runCalls m cs = .ok (allExpected (fun _ _ => none) cs) :=
  calls_ok cs _ m ⟨fun _ _ _ e => by simp at e, fun _ _ _ e => by simp at e⟩ h

/-- Two messages, `a` and `ab`, with a common beginning, and a hash of another type in between. -/
def someCalls : List ShaCall :=
  let a : Slice := ⟨1, some ⟨[], [0x61, 0xff]⟩⟩
  let b : Slice := ⟨1, some ⟨[], [0x62, 0xff]⟩⟩
  [.init .sha256 7, .update .sha256 7 a, .copy false 7 8, .init .sha384 7, .update .sha256 8 b, .update .sha384 7 b,
   .finalize .sha256 7 (List.replicate 32 0), .finalize .sha384 7 (List.replicate 50 1), .finalize .sha256 8 (List.replicate 32 0)]

/-- Non-vacuity: the calls are legal, and what is written are the hashes of `a`, `b` and `ab`. -/
example : AllLegal (fun _ _ => none) someCalls ∧ allExpected (fun _ _ => none) someCalls =
    [none, none, none, none, none, none, some (sha2 .sha256 [0x61]), some (sha2 .sha384 [0x62] ++ [1, 1]), some (sha2 .sha256 [0x61, 0x62])] := by
  have hv : ∀ x y : UInt8, Slice.Valid ⟨1, some ⟨[], [x, y]⟩⟩ := fun x y p hp => by simp at hp; subst hp; simp
  constructor
  · refine ⟨trivial, ⟨⟨_, rfl⟩, hv _ _⟩, by simp [ShaCall.Legal, ShaCall.record, Ledger.set, Alg.wide], trivial, ⟨⟨_, rfl⟩, hv _ _⟩, ⟨⟨_, rfl⟩, hv _ _⟩, ⟨_, rfl, ?_, ?_⟩, ⟨_, rfl, ?_, ?_⟩,
      ⟨_, rfl, ?_, ?_⟩, trivial⟩ <;> decide
  · simp [allExpected, someCalls, ShaCall.expected, ShaCall.record, Ledger.set, Alg.wide, Slice.bytes, Alg.size]

end Nat20
