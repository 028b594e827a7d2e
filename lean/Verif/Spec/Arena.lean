import Verif.Model.Arena
import Verif.Spec.Digest
/-!
# Specification: calls whose arguments may overlap
-/

namespace Nat20

open Fips

/-- The octets a slice denotes in a memory. -/
def MSlice.bytes (m : Memory) (s : MSlice) : Bytes :=
  match s.addr with
  | none => []
  | some a => ((m a.region).drop a.off).take s.size.toNat

/-- All octets of the slice exist, and a slice at NULL has none. -/
def MSlice.Readable (m : Memory) (s : MSlice) : Prop :=
  match s.addr with
  | none => s.size = 0
  | some a => s.size.toNat ≤ ((m a.region).drop a.off).length

/-- The slice refers to memory of the caller. -/
def MSlice.OfCaller (s : MSlice) : Prop := ∀ a, s.addr = some a → ∃ n, a.region = .caller n

/-- The slices of a gather list. -/
def MList.slices (g : MList) : List MSlice := (g.list.getD []).take g.count.toNat

/-- The octets of a gather list. -/
def MList.bytes (m : Memory) (g : MList) : Bytes := (g.slices.map (MSlice.bytes m)).flatten

/-- The list has as many slices as it announces and they can be read. -/
structure MList.Readable (m : Memory) (g : MList) : Prop where
  count : g.count.toNat ≤ (g.list.getD []).length
  slices : ∀ s ∈ g.slices, s.Readable m

def MList.OfCaller (g : MList) : Prop := ∀ s ∈ g.list.getD [], s.OfCaller

/-- The memory in which `bs` is at the address `a` and which is the same everywhere else. -/
def Memory.write (m : Memory) (a : Addr) (bs : Bytes) : Memory :=
  fun r => if r = a.region then (m r).take a.off ++ bs ++ (m r).drop (a.off + bs.length) else m r

/-- There is room for `n` octets at `a`, in memory of the caller. -/
def Addr.Room (m : Memory) (a : Addr) (n : Nat) : Prop := (∃ k, a.region = .caller k) ∧ a.off + n ≤ (m a.region).length

/-- No octet of the slice is among the `n` octets at `a`. -/
def MSlice.Avoids (s : MSlice) (a : Addr) (n : Nat) : Prop :=
  ∀ x, s.addr = some x → x.region = a.region → ∀ i j, i < s.size.toNat → j < n → x.off + i ≠ a.off + j

/-- The octet `i` of the object `r` is one of the `n` octets at `out`. -/
def Addr.Covers (out : Addr) (n : Nat) (r : Region) (i : Nat) : Prop := r = out.region ∧ out.off ≤ i ∧ i < out.off + n

/-- The two memories have the same objects with the same octets, except that the `n` octets at `out` may differ. -/
def Memory.SameExcept (m m' : Memory) (out : Option Addr) (n : Nat) : Prop :=
  ∀ r i, (∀ a, out = some a → ¬ a.Covers n r i) → (m' r)[i]? = (m r)[i]?

end Nat20
