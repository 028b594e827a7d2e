import Verif.Model.Concurrent
/-!
# What threads that share the reference context may do, and what they may expect
-/

namespace Nat20

/-- The key handle that is passed to a call. -/
def ApiOp.handle : ApiOp → Option Nat
  | .key (.kdf _ h _ _ _) => h
  | .key (.sign _ h _ _ _) => h
  | .key (.publicKey _ h _ _) => h
  | .key (.free _ h) => h
  | _ => none

/-- The call destroys the key object. -/
def ApiOp.Destroys (p : Nat) : ApiOp → Prop
  | .key op => op.Destroys p
  | _ => False

/-- Calls a program may make, as `KeyOp.Legal`.  Nothing is asked of the calls that deal with no keys; they may be undefined (see `ApiOp.run`). -/
def ApiOp.Legal (w : World) : ApiOp → Prop
  | .key op => op.Legal w
  | _ => True

/-- Two calls that may be in progress at the same time: neither of them destroys a key object that the other one is given. -/
def Compatible (a b : ApiOp) : Prop := ∀ p, (a.Destroys p → b.handle ≠ some p) ∧ (b.Destroys p → a.handle ≠ some p)

/-- If thread `i` is about to start a call, it is a legal one, and compatible with all calls that are in progress. -/
def Pool.Careful (s : Pool) (i : Nat) : Prop :=
  ∀ op k, s.threads i = .idle (.call op k) → op.Legal s.world ∧ ∀ j op' p k', s.threads j = .busy op' p k' → Compatible op op'

/-- Under the given schedule all threads stick to the rules. -/
def Disciplined (lib : Lib) : List Nat → Pool → Prop
  | [], _ => True
  | i :: rest, s => s.Careful i ∧ ∀ s', s.step lib i = .ok s' → Disciplined lib rest s'

/-- The library whose call number `n` answers what call number `σ n` of the given one answers. -/
def Lib.renumber (lib : Lib) (σ : Nat → Nat) : Lib :=
  { lib with fails := fun n => lib.fails (σ n), junk := fun n => lib.junk (σ n), ecSign := fun c d h n => lib.ecSign c d h (σ n) }

/-- Sequences of legal calls, one after the other (`Model/Boringssl.lean`), and what they returned. -/
inductive ApiHistory (lib : Lib) : World → List (ApiOp × ApiReply) → World → Prop where
  | nil (w : World) : ApiHistory lib w [] w
  | cons {w w1 w2 : World} {op : ApiOp} {r : ApiReply} {ops : List (ApiOp × ApiReply)} : op.Legal w → op.run lib w = .ok (r, w1) →
      ApiHistory lib w1 ops w2 → ApiHistory lib w ((op, r) :: ops) w2

/-- A program that makes the given calls, gets the given replies, and is then what is left. -/
inductive Client.Makes : Client → List (ApiOp × ApiReply) → Client → Prop where
  | nil (c : Client) : Makes c [] c
  | snoc {c c' : Client} {l : List (ApiOp × ApiReply)} {op : ApiOp} {k : ApiReply → Client} (r : ApiReply) : Makes c l (.call op k) → c' = k r →
      Makes c (l ++ [(op, r)]) c'

/-- What is left of the program of a thread when the present call, if there is one, is not counted. -/
def CallThread.client : CallThread → Client
  | .idle c => c
  | .busy op _ k => .call op k

/-- The calls of one thread. -/
def Pool.logOf (s : Pool) (i : Nat) : List (ApiOp × ApiReply) := (s.log.filter fun x => x.1 == i).map Prod.snd

end Nat20
