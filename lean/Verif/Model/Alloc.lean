import Verif.Model.Concurrent
/-!
# Key objects at addresses

In `Model/Boringssl.lean` every key object has a number that no other one ever gets.  In `src/crypto/crypto_boringssl.cpp` (`bssl.cpp`) a key handle is
the address that `new` returned (`bssl.cpp` 648, 658, 722, 1063), and `new` may return an address that was in use before `delete` (`bssl.cpp` 1015).
Here the calls, as in `Model/Concurrent.lean`, work with key objects at addresses; which address `new` returns is up to the allocator, which is
given as an argument.

Simplification: an address is a natural number, NULL is none of them, and a key object takes one address (nothing in `bssl.cpp` does arithmetic with
key handles).
-/

namespace Nat20

/-- What calls of the reference context share: the number of library calls so far, and the key objects at their addresses (`bssl.cpp` 59-101). -/
structure AddrWorld where
  calls : Nat
  keys : Nat → Option BsslKey

/-- No key objects, as after `n20_crypto_boringssl_open` (`bssl.cpp` 1030-1038). -/
def AddrWorld.start : AddrWorld := ⟨0, fun _ => none⟩

/-- A part of a call between accesses to the key objects, with nobody else around; `n` is the number of library calls so far (`bssl.cpp` 104-1001). -/
def L.runFrom {α : Type} (lib : Lib) : L α → Nat → Except UB (α × Nat)
  | .done a, n => .ok (a, n)
  | .fault e, _ => .error e
  | .call k, n => (k (lib.answer n)).runFrom lib (n + 1)

/-- The end of a call: `new` (`bssl.cpp` 648, 658, 722, 1063), which returns the address `fresh`, or `delete` (`bssl.cpp` 1015). -/
def Final.commitAt (fresh : Nat) (f : Final) (w : AddrWorld) : Except UB (ApiReply × AddrWorld) :=
  match f with
  | .reply r => .ok (r, w)
  | .create key => .ok ({ err := .ok, key := some (some fresh) }, { w with keys := setAt w.keys fresh (some key) })
  | .destroy p =>
    match w.keys p with
    | some _ => .ok ({ err := .ok }, { w with keys := setAt w.keys p none })
    | none => .error .useAfterFree

/-- The rest of a call that has read its key object, or needs none (`bssl.cpp` 104-1073). -/
def runFinalAt (lib : Lib) (fresh : Nat) (l : L Final) (w : AddrWorld) : Except UB (ApiReply × AddrWorld) :=
  match l.runFrom lib w.calls with
  | .ok (f, n) => f.commitAt fresh { w with calls := n }
  | .error e => .error e

/-- A call with nobody else around (`bssl.cpp` 104-1073).  The key object is the one that is at the address now (`bssl.cpp` 610, 754, 928). -/
def CallProg.runAt (lib : Lib) (fresh : Nat) (c : CallProg) (w : AddrWorld) : Except UB (ApiReply × AddrWorld) :=
  match c with
  | .load p k =>
    match w.keys p with
    | some key => runFinalAt lib fresh (k key) w
    | none => .error .useAfterFree
  | .run l => runFinalAt lib fresh l w

/-- Executing a call (`bssl.cpp` 104-1073). -/
def ApiOp.runAt (lib : Lib) (fresh : Nat) (op : ApiOp) (w : AddrWorld) : Except UB (ApiReply × AddrWorld) := (op.prog lib.fns).runAt lib fresh w

/-! ## Threads -/

/-- A call that has returned: its thread, what the allocator had to offer at that time, the call and what it returned (`bssl.cpp` 104-1073). -/
structure AddrCall where
  thread : Nat
  fresh : Nat
  op : ApiOp
  reply : ApiReply

/-- As `Pool`, with key objects at addresses (`bssl.cpp` 104-1073). -/
structure AddrPool where
  world : AddrWorld
  threads : Nat → CallThread
  log : List AddrCall

/-- One step of thread `i`, as `Pool.step`; if it is `new`, then that returns `fresh` (`bssl.cpp` 104-1073). -/
def AddrPool.step (lib : Lib) (i fresh : Nat) (s : AddrPool) : Except UB AddrPool :=
  match s.threads i with
  | .idle .stop => .ok s
  | .idle (.call op k) => .ok { s with threads := setAt s.threads i (.busy op (op.prog lib.fns) k) }
  | .busy op (.load p l) k =>
    match s.world.keys p with
    | some key => .ok { s with threads := setAt s.threads i (.busy op (.run (l key)) k) }
    | none => .error .useAfterFree
  | .busy _ (.run (.fault e)) _ => .error e
  | .busy op (.run (.call l)) k =>
    .ok { s with world := { s.world with calls := s.world.calls + 1 }, threads := setAt s.threads i (.busy op (.run (l (lib.answer s.world.calls))) k) }
  | .busy op (.run (.done f)) k =>
    match f.commitAt fresh s.world with
    | .error e => .error e
    | .ok (r, w) => .ok ⟨w, setAt s.threads i (.idle (k r)), s.log ++ [⟨i, fresh, op, r⟩]⟩

/-- The steps of a schedule: which thread makes the next step, and the address that the allocator has to offer (threads in `bssl.cpp` 104-1073). -/
def AddrPool.exec (lib : Lib) : List (Nat × Nat) → AddrPool → Except UB AddrPool
  | [], s => .ok s
  | x :: rest, s => do
    let s ← s.step lib x.1 x.2
    AddrPool.exec lib rest s

end Nat20
