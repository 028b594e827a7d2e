import Verif.Model.Steps
import Verif.Spec.Arena
/-!
# Specification: what is seen of an execution, which memory a program uses, and threads
-/

namespace Nat20

/-- The two memories have the same objects with the same sizes; the octets may differ. -/
def Memory.SameShape (m m' : Memory) : Prop := ∀ r, (m r).length = (m' r).length

/-- The program reads only where `L` holds, writes only where `S` holds, and makes only local arrays for which `A` holds, whatever the
octets are that it reads; and `Q` holds for its result. -/
inductive Prog.Within {α : Type} (L S : Addr → Prop) (A : Region → Prop) (Q : α → Prop) : Prog α → Prop where
  | done (x : α) (h : Q x) : Within L S A Q (.done x)
  | crash (u : UB) : Within L S A Q (.crash u)
  | load (a : Addr) (k : UInt8 → Prog α) (h : L a) (hk : ∀ b, Within L S A Q (k b)) : Within L S A Q (.load a k)
  | store (a : Addr) (b : UInt8) (k : Prog α) (h : S a) (hk : Within L S A Q k) : Within L S A Q (.store a b k)
  | note (e : Event) (k : Prog α) (hk : Within L S A Q k) : Within L S A Q (.note e k)
  | alloc (r : Region) (i : Bytes) (k : Prog α) (h : A r) (hk : Within L S A Q k) : Within L S A Q (.alloc r i k)
  | free (r : Region) (s : Bool) (k : Prog α) (h : A r) (hk : Within L S A Q k) : Within L S A Q (.free r s k)
  | leave (b : Bytes) (k : Prog α) (hk : Within L S A Q k) : Within L S A Q (.leave b k)

/-- An address in memory of the caller. -/
def Addr.Shared (a : Addr) : Prop := ∃ n, a.region = .caller n

/-- A local object of a function. -/
def Region.Local (r : Region) : Prop := ∀ n, r ≠ .caller n

/-- The octet at `a` is one of the slice. -/
def MSlice.Has (s : MSlice) (a : Addr) : Prop := ∃ x, s.addr = some x ∧ x.Covers s.size.toNat a.region a.off

/-- The octet at `a` is one of a message. -/
def MessageHas (msg : Option (List MList)) (count : UInt64) (a : Addr) : Prop := ∃ g ∈ (msg.getD []).take count.toNat, ∃ s ∈ g.slices, s.Has a

/-- The octet at `a` is one of a gather list. -/
def MList.Has (g : Option MList) (a : Addr) : Prop := ∃ l, g = some l ∧ ∃ s ∈ l.slices, s.Has a

/-- The octet at `a` is one of the `n` octets at `out`. -/
def OutHas (out : Option Addr) (n : Nat) (a : Addr) : Prop := ∃ o, out = some o ∧ o.Covers n a.region a.off

/-- `n` steps of a program that runs alone. -/
def Prog.steps {α : Type} : Nat → Prog α × Memory → Prog α × Memory
  | 0, x => x
  | n + 1, x => Prog.steps n (x.1.step x.2)

/-- A thread: what is left of its program, and its own stack. -/
structure Thread (α : Type) where
  prog : Prog α
  stack : Memory

/-- Threads and the memory they share. -/
structure Machine (ι α : Type) where
  shared : Nat → Bytes
  thread : ι → Thread α

/-- The memory as a thread with this stack sees it. -/
def viewOf (shared : Nat → Bytes) (stack : Memory) : Memory := fun r =>
  match r with
  | .caller n => shared n
  | r => stack r

/-- The memory as thread `i` sees it. -/
def Machine.view {ι α : Type} (w : Machine ι α) (i : ι) : Memory := viewOf w.shared (w.thread i).stack

/-- Thread `i` makes one step. -/
def Machine.step {ι α : Type} [DecidableEq ι] (w : Machine ι α) (i : ι) : Machine ι α where
  shared n := ((w.thread i).prog.step (w.view i)).2 (.caller n)
  thread j := if j = i then ⟨((w.thread i).prog.step (w.view i)).1, ((w.thread i).prog.step (w.view i)).2⟩ else w.thread j

/-- The threads run under a schedule: at each point of time the next element of the list says whose turn it is. -/
def Machine.exec {ι α : Type} [DecidableEq ι] (w : Machine ι α) : List ι → Machine ι α
  | [] => w
  | i :: l => (w.step i).exec l

/-! ## Calls -/

/-- A call of one of the functions of the context, with its arguments. -/
inductive Call where
  | digest (alg : UInt32) (msg : Option (List MList)) (count : UInt64) (out : Option Addr) (size : Option UInt64)
  | hmac (alg : UInt32) (key : MSlice) (msg : Option MList) (out : Option Addr) (size : Option UInt64)
  | extract (alg : UInt32) (ikm salt : MSlice) (out : Option Addr) (size : Option UInt64)
  | expand (alg : UInt32) (prk info : MSlice) (octets : UInt64) (out : Option Addr)
  | hkdf (alg : UInt32) (ikm salt info : MSlice) (octets : UInt64) (out : Option Addr)

/-- The program of the call. -/
def Call.prog : Call → Prog PReply
  | .digest alg msg count out size => digestP alg msg count out size
  | .hmac alg key msg out size => hmacP alg key msg out size
  | .extract alg ikm salt out size => extractP alg ikm salt out size
  | .expand alg prk info n out => hkdfExpandP alg prk info n out
  | .hkdf alg ikm salt info n out => hkdfP alg ikm salt info n out

/-- What the call does when nothing else happens (see C70 for what that is). -/
def Call.effect : Call → Memory → Except UB MReply
  | .digest alg msg count out size, m => digestAt m alg msg count out size
  | .hmac alg key msg out size, m => hmacAt m alg key msg out size
  | .extract alg ikm salt out size, m => extractAt m alg ikm salt out size
  | .expand alg prk info n out, m => hkdfExpandAt m alg prk info n out
  | .hkdf alg ikm salt info n out, m => hkdfAt m alg ikm salt info n out

/-- The number of octets of a digest. -/
def digestOctets (alg : UInt32) : Nat := if alg = 0 then 28 else if alg = 1 then 32 else if alg = 2 then 48 else if alg = 3 then 64 else 0

/-- The octet at `a` is one of the output of the call. -/
def Call.Writes : Call → Addr → Prop
  | .digest alg _ _ out _ => OutHas out (digestOctets alg)
  | .hmac alg _ _ out _ => OutHas out (digestOctets alg)
  | .extract alg _ _ out _ => OutHas out (digestOctets alg)
  | .expand _ _ _ n out => OutHas out n.toNat
  | .hkdf _ _ _ _ n out => OutHas out n.toNat

/-- The octet at `a` is one of the inputs of the call. -/
def Call.Reads : Call → Addr → Prop
  | .digest _ msg count _ _, a => MessageHas msg count a
  | .hmac _ key msg _ _, a => key.Has a ∨ MList.Has msg a
  | .extract _ ikm salt _ _, a => ikm.Has a ∨ salt.Has a
  | .expand _ prk info _ _, a => prk.Has a ∨ info.Has a
  | .hkdf _ ikm salt info _ _, a => ikm.Has a ∨ salt.Has a ∨ info.Has a

/-- The output is in memory of the caller. -/
def CallerOut (out : Option Addr) : Prop := ∀ a, out = some a → ∃ n, a.region = .caller n

/-- All pointers of the call refer to memory of the caller (and not, for example, to local variables of the library). -/
def Call.OfCaller : Call → Prop
  | .digest _ msg _ out _ => (∀ g ∈ msg.getD [], g.OfCaller) ∧ CallerOut out
  | .hmac _ key msg out _ => key.OfCaller ∧ (∀ g, msg = some g → g.OfCaller) ∧ CallerOut out
  | .extract _ ikm salt out _ => ikm.OfCaller ∧ salt.OfCaller ∧ CallerOut out
  | .expand _ prk info _ out => prk.OfCaller ∧ info.OfCaller ∧ CallerOut out
  | .hkdf _ ikm salt info _ out => ikm.OfCaller ∧ salt.OfCaller ∧ info.OfCaller ∧ CallerOut out

/-- No function of the library is active: none of its local arrays exists. -/
def Memory.AtRest (m : Memory) : Prop := ∀ r : Region, r.Local → r ≠ .stack → m r = []

/-- No call writes what another one reads or writes. -/
def Independent {ι : Type} (call : ι → Call) : Prop := ∀ i j, i ≠ j → ∀ a, (call i).Writes a → ¬ (call j).Reads a ∧ ¬ (call j).Writes a

/-- The threads at the start of their calls. -/
def startOf {ι : Type} (call : ι → Call) (shared : Nat → Bytes) (stack : ι → Memory) : Machine ι PReply := ⟨shared, fun i => ⟨(call i).prog, stack i⟩⟩

end Nat20
