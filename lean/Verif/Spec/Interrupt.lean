import Verif.Spec.Writers
/-!
# Specification for C82: executions that are cut off

The memory survives an interruption (a reset, a loss of power with non-volatile memory, a thread that is killed), the program does not: it
starts again from the beginning.
-/

namespace Nat20

/-- The memory after the program was started and cut off several times, each time after the given number of steps. -/
def interrupted {α : Type} (p : Prog α) (m : Memory) : List Nat → Memory
  | [] => m
  | k :: ks => interrupted p (Prog.steps k (p, m)).2 ks

/-- The memory of the callers after threads were started with their calls and all cut off several times, each time at the end of the given
schedule; every start is one with new stacks. -/
def afterResets {ι : Type} [DecidableEq ι] (call : ι → Call) (shared : Nat → Bytes) : List ((ι → Memory) × List ι) → Nat → Bytes
  | [] => shared
  | r :: rs => afterResets call ((startOf call shared r.1).exec r.2).shared rs

end Nat20
