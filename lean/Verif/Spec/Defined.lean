import Verif.Spec.Writers
/-!
# Specification: which octets a program relies on
-/

namespace Nat20

/-- The program reads only octets that are known: those for which `K` holds at the start, and those that it has written itself before, whatever the octets are that it reads.
The octets of local arrays are known, as the code initialises them; after the end of their lifetime there is nothing to be read (reading is undefined behaviour, which
`Prog.run` reports).  For the result `x` and the octets `K'` known at the end `Q K' x` holds. -/
inductive Prog.Defined {α : Type} (Q : (Addr → Prop) → α → Prop) : (Addr → Prop) → Prog α → Prop where
  | done (K : Addr → Prop) (x : α) (h : Q K x) : Defined Q K (.done x)
  | crash (K : Addr → Prop) (u : UB) : Defined Q K (.crash u)
  | load (K : Addr → Prop) (a : Addr) (k : UInt8 → Prog α) (h : K a) (hk : ∀ b, Defined Q K (k b)) : Defined Q K (.load a k)
  | store (K : Addr → Prop) (a : Addr) (b : UInt8) (k : Prog α) (hk : Defined Q (fun x => K x ∨ x = a) k) : Defined Q K (.store a b k)
  | note (K : Addr → Prop) (e : Event) (k : Prog α) (hk : Defined Q K k) : Defined Q K (.note e k)
  | alloc (K : Addr → Prop) (r : Region) (i : Bytes) (k : Prog α) (hk : Defined Q (fun x => K x ∨ x.region = r) k) : Defined Q K (.alloc r i k)
  | free (K : Addr → Prop) (r : Region) (s : Bool) (k : Prog α) (hk : Defined Q (fun x => K x ∨ x.region = r) k) : Defined Q K (.free r s k)
  | leave (K : Addr → Prop) (b : Bytes) (k : Prog α) (hk : Defined Q K k) : Defined Q K (.leave b k)

/-- The objects have the same sizes (the remains of functions that have ended, on the stack, do not matter), and the octets for which `K` holds are the same. -/
structure Memory.Like (K : Addr → Prop) (m m' : Memory) : Prop where
  size : ∀ r, r ≠ .stack → (m r).length = (m' r).length
  octet : ∀ a : Addr, a.region ≠ .stack → K a → m.get a = m'.get a

end Nat20
