import Verif.Model.Sha2
import Verif.Spec.Sha2
import Verif.Spec.Asn1
/-!
# Specification: many hash computations at once
-/

namespace Nat20

open Fips

/-- SHA-384 and SHA-512 have a state type of their own. -/
def Fips.Alg.wide : Alg → Bool
  | .sha224 => false
  | .sha256 => false
  | .sha384 => true
  | .sha512 => true

/-- What a program does with its state objects, which are numbered separately for each of the two types. -/
inductive ShaCall where
  /-- `state = n20_sha<a>_init()` -/
  | init (a : Alg) (state : Nat)
  /-- `to = source`, the assignment of structures -/
  | copy (wide : Bool) (source to : Nat)
  /-- `n20_sha<a>_update(&state, data)` -/
  | update (a : Alg) (state : Nat) (data : Slice)
  /-- `n20_sha<a>_finalize(&state, digest)`, with the memory at `digest` -/
  | finalize (a : Alg) (state : Nat) (digest : Bytes)

/-- What the program knows of its state objects: the function and the message so far, for those that were initialised and not finalized since. -/
abbrev Ledger := Bool → Nat → Option (Alg × Bytes)

def Ledger.set (l : Ledger) (wide : Bool) (i : Nat) (x : Option (Alg × Bytes)) : Ledger := fun b j => if b = wide ∧ j = i then x else l b j

def ShaCall.record (l : Ledger) : ShaCall → Ledger
  | .init a i => l.set a.wide i (some (a, []))
  | .copy b i j => l.set b j (l b i)
  | .update a i data => l.set a.wide i ((l a.wide i).map fun x => (x.1, x.2 ++ data.bytes))
  | .finalize a i _ => l.set a.wide i none

/-- Only initialised states are used, with the functions of the algorithm they were initialised for. -/
def ShaCall.Legal (l : Ledger) : ShaCall → Prop
  | .init _ _ => True
  | .copy b i _ => l b i ≠ none
  | .update a i data => (∃ m, l a.wide i = some (a, m)) ∧ data.Valid
  | .finalize a i digest => ∃ m, l a.wide i = some (a, m) ∧ m.length < 2 ^ 61 ∧ a.size ≤ digest.length

/-- What a call writes to memory other than its state: the hash of the message of this state. -/
def ShaCall.expected (l : Ledger) : ShaCall → Option Bytes
  | .finalize a i digest => (l a.wide i).map fun x => sha2 a x.2 ++ digest.drop a.size
  | _ => none

/-- All calls are legal when they are made. -/
def AllLegal : Ledger → List ShaCall → Prop
  | _, [] => True
  | l, c :: cs => c.Legal l ∧ AllLegal (c.record l) cs

def allExpected : Ledger → List ShaCall → List (Option Bytes)
  | _, [] => []
  | l, c :: cs => c.expected l :: allExpected (c.record l) cs

/-! ## The calls in the model -/

/-- The state objects; before they are initialised they contain anything. -/
structure ShaMem where
  small : Nat → ShaState 32
  big : Nat → ShaState 64

def ShaMem.setSmall (m : ShaMem) (i : Nat) (s : ShaState 32) : ShaMem := ⟨fun j => if j = i then s else m.small j, m.big⟩
def ShaMem.setBig (m : ShaMem) (i : Nat) (s : ShaState 64) : ShaMem := ⟨m.small, fun j => if j = i then s else m.big j⟩

def ShaMem.storeSmall (m : ShaMem) (i : Nat) (s : Option (ShaState 32)) : ShaMem := (s.map (m.setSmall i)).getD m
def ShaMem.storeBig (m : ShaMem) (i : Nat) (s : Option (ShaState 64)) : ShaMem := (s.map (m.setBig i)).getD m

def ShaCall.run (m : ShaMem) : ShaCall → Except UB (Option Bytes × ShaMem)
  | .init .sha224 i => .ok (none, m.setSmall i sha224Init)
  | .init .sha256 i => .ok (none, m.setSmall i sha256Init)
  | .init .sha384 i => .ok (none, m.setBig i sha384Init)
  | .init .sha512 i => .ok (none, m.setBig i sha512Init)
  | .copy false i j => .ok (none, m.setSmall j (m.small i))
  | .copy true i j => .ok (none, m.setBig j (m.big i))
  | .update a i data =>
    if a.wide then do
      let s ← sha512Update (some (m.big i)) data
      .ok (none, m.storeBig i s)
    else do
      let s ← sha256Update (some (m.small i)) data
      .ok (none, m.storeSmall i s)
  | .finalize .sha224 i d => do
    let r ← sha224Finalize (some (m.small i)) (some d)
    .ok (r.2, m.storeSmall i r.1)
  | .finalize .sha256 i d => do
    let r ← sha256Finalize (some (m.small i)) (some d)
    .ok (r.2, m.storeSmall i r.1)
  | .finalize .sha384 i d => do
    let r ← sha384Finalize (some (m.big i)) (some d)
    .ok (r.2, m.storeBig i r.1)
  | .finalize .sha512 i d => do
    let r ← sha512Finalize (some (m.big i)) (some d)
    .ok (r.2, m.storeBig i r.1)

def runCalls : ShaMem → List ShaCall → Except UB (List (Option Bytes))
  | _, [] => .ok []
  | m, c :: cs => do
    let r ← c.run m
    let rs ← runCalls r.2 cs
    .ok (r.1 :: rs)

end Nat20
