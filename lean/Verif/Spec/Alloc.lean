import Verif.Model.Alloc
import Verif.Spec.Concurrent
/-!
# What it means that key handles are as good as numbers that are never given to a second key
-/

namespace Nat20

/-- The call with the key handle that is passed to it replaced.  (What is in the variable for a new handle before the call is not a handle that is passed.) -/
def ApiOp.rename (φ : Nat → Nat) : ApiOp → ApiOp
  | .key (.kdf ctx keyIn type context keyOut) => .key (.kdf ctx (keyIn.map φ) type context keyOut)
  | .key (.sign ctx k msg out size) => .key (.sign ctx (k.map φ) msg out size)
  | .key (.publicKey ctx k out size) => .key (.publicKey ctx (k.map φ) out size)
  | .key (.free ctx k) => .key (.free ctx (k.map φ))
  | op => op

/-- What a call left, with the handle of a new key replaced.  (If the call failed, the variable for it has its old content.) -/
def ApiReply.rename (φ : Nat → Nat) (r : ApiReply) : ApiReply :=
  if r.err = .ok then { r with key := r.key.map (Option.map φ) } else r

/-- The key objects at addresses are those with numbers: `φ` gives the number of the one at an address. -/
structure Represents (φ : Nat → Nat) (w : AddrWorld) (w0 : World) : Prop where
  /-- as many library calls -/
  calls : w.calls = w0.calls
  /-- the key object at an address is the one with the number -/
  keys : ∀ p k, w.keys p = some k → Live w0 (φ p) k
  /-- different addresses have different numbers -/
  injective : ∀ p q k k', w.keys p = some k → w.keys q = some k' → φ p = φ q → p = q
  /-- every key object that is not destroyed is somewhere -/
  complete : ∀ n k, Live w0 n k → ∃ p, w.keys p = some k ∧ φ p = n

/-- The memory that is passed to a call can be accessed, as `KeyOp.Legal`. -/
def ApiOp.MemoryOk : ApiOp → Prop
  | .key (.kdf _ _ _ context _) => ∀ g, context = some g → g.Valid
  | .key (.sign _ _ msg out size) => (∀ g, msg = some g → g.Valid) ∧ ∀ d sz, out = some d → size = some sz → sz.toNat ≤ d.length
  | .key (.publicKey _ _ out size) => ∀ d sz, out = some d → size = some sz → sz.toNat ≤ d.length
  | .key (.makeSecret _ secret _) => ∀ s, secret = some s → s.Valid
  | _ => True

/-- Calls a program may make: if a handle is passed, there is a key object at that address. -/
def ApiOp.LegalAt (w : AddrWorld) (op : ApiOp) : Prop := (∀ p, op.handle = some p → ∃ k, w.keys p = some k) ∧ op.MemoryOk

/-- Sequences of legal calls, and what they returned.  For each call there is the address that `new` returns, if it comes to that: any address where
there is no key object at that time, whether there was one before or not. -/
inductive AddrHistory (lib : Lib) : AddrWorld → List (Nat × ApiOp × ApiReply) → AddrWorld → Prop where
  | nil (w : AddrWorld) : AddrHistory lib w [] w
  | cons {w w1 w2 : AddrWorld} {fresh : Nat} {op : ApiOp} {r : ApiReply} {ops : List (Nat × ApiOp × ApiReply)} : op.LegalAt w →
      w.keys fresh = none → op.runAt lib fresh w = .ok (r, w1) → AddrHistory lib w1 ops w2 → AddrHistory lib w ((fresh, op, r) :: ops) w2

/-- The calls and replies of the second list are those of the first one, with the addresses replaced by numbers: handles that are passed by the number
of the key object that is there at that time, and the address of a new key object by a number that it keeps until the address is used again. -/
inductive Renamed : (Nat → Nat) → List (Nat × ApiOp × ApiReply) → List (ApiOp × ApiReply) → (Nat → Nat) → Prop where
  | nil (φ : Nat → Nat) : Renamed φ [] [] φ
  | cons {φ φ1 φ2 : Nat → Nat} {fresh : Nat} {op : ApiOp} {r : ApiReply} {ops : List (Nat × ApiOp × ApiReply)} {ops0 : List (ApiOp × ApiReply)} :
      (∀ q, q ≠ fresh → φ1 q = φ q) → Renamed φ1 ops ops0 φ2 → Renamed φ ((fresh, op, r) :: ops) ((op.rename φ, r.rename φ1) :: ops0) φ2

/-- A derivation for which no private key is found, as `KeyOp.Stuck`. -/
def KeyOp.StuckAt (lib : Lib) (w : AddrWorld) (op : KeyOp) : Prop :=
  ∃ ctx p type g keyOut cdi, op = .kdf ctx (some p) type (some g) keyOut ∧ w.keys p = some ⟨4, .inl cdi⟩ ∧ NoPrivateKey lib type (derivedOctets cdi g.bytes)

/-! ## Threads -/

/-- If thread `i` is about to start a call, it is a legal one, and compatible with all calls that are in progress; there is no key object at the address
that the allocator has to offer. -/
def AddrPool.Careful (s : AddrPool) (i fresh : Nat) : Prop :=
  s.world.keys fresh = none ∧
  ∀ op k, s.threads i = .idle (.call op k) → op.LegalAt s.world ∧ ∀ j op' p k', s.threads j = .busy op' p k' → Compatible op op'

/-- Under the given schedule all threads, and the allocator, stick to the rules. -/
def AddrDisciplined (lib : Lib) : List (Nat × Nat) → AddrPool → Prop
  | [], _ => True
  | x :: rest, s => s.Careful x.1 x.2 ∧ ∀ s', s.step lib x.1 x.2 = .ok s' → AddrDisciplined lib rest s'

/-- A call that has returned, without the thread. -/
def AddrCall.call (c : AddrCall) : Nat × ApiOp × ApiReply := (c.fresh, c.op, c.reply)

/-- The calls of one thread. -/
def AddrPool.logOf (s : AddrPool) (i : Nat) : List (ApiOp × ApiReply) := (s.log.filter fun x => x.thread == i).map fun x => (x.op, x.reply)

end Nat20
