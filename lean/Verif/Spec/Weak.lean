import Verif.Spec.Writers
/-!
# Specification: data races, and machines on which threads see stores late

`Machine` (Spec/Steps) has one memory, in which each store is seen by all threads at once.  Processors have store buffers and caches, and compilers move accesses
around.  The machine here promises much less.
-/

namespace Nat20

/-- The program is about to write the octet at `a`. -/
def Prog.StoresAt {α : Type} (p : Prog α) (a : Addr) : Prop := ∃ b k, p = .store a b k

/-- The program is about to read the octet at `a`. -/
def Prog.LoadsAt {α : Type} (p : Prog α) (a : Addr) : Prop := ∃ k, p = .load a k

/-- Two threads are about to access the same octet of shared memory, and one of them writes (C11 5.1.2.4p25). -/
def Machine.Race {ι α : Type} (w : Machine ι α) : Prop :=
  ∃ i j, i ≠ j ∧ ∃ a : Addr, a.Shared ∧ (w.thread i).prog.StoresAt a ∧ ((w.thread j).prog.StoresAt a ∨ (w.thread j).prog.LoadsAt a)

/-- A thread: what is left of its program, its own stack, and everything that it has stored so far, the latest store first. -/
structure WeakThread (α : Type) where
  prog : Prog α
  stack : Memory
  stores : List (Addr × UInt8)

/-- Threads, and the memory as it was at the start. -/
structure WeakMachine (ι α : Type) where
  initial : Nat → Bytes
  thread : ι → WeakThread α

/-- The latest of the stores at `a`. -/
def latest (l : List (Addr × UInt8)) (a : Addr) : Option UInt8 := (l.find? fun x => x.1 = a).map fun x => x.2

/-- What thread `i` may see.  It sees its own stack.  An octet of the shared memory that it has written it sees as it has written it last, or as any other thread has ever written
it; an octet that it has not written it sees as it was at the start or as any other thread has ever written it.  Nothing is promised about the order in which it sees what
other threads have written, nor that it sees the same octet the same way twice. -/
structure WeakMachine.Sees {ι α : Type} (w : WeakMachine ι α) (i : ι) (v : Memory) : Prop where
  own : ∀ r : Region, r.Local → v r = (w.thread i).stack r
  size : ∀ n, (v (.caller n)).length = (w.initial n).length
  octet : ∀ n k b, (v (.caller n))[k]? = some b →
    latest (w.thread i).stores ⟨.caller n, k⟩ = some b ∨ (∃ j, j ≠ i ∧ (⟨.caller n, k⟩, b) ∈ (w.thread j).stores) ∨
    (latest (w.thread i).stores ⟨.caller n, k⟩ = none ∧ (w.initial n)[k]? = some b)

/-- What the next step of a program stores. -/
def Prog.stored {α : Type} (p : Prog α) (v : Memory) : List (Addr × UInt8) :=
  match p with
  | .store a b _ => if (v.get a).isSome then [(a, b)] else []
  | _ => []

/-- Thread `i` makes one step when it sees `v`. -/
def WeakMachine.step {ι α : Type} [DecidableEq ι] (w : WeakMachine ι α) (i : ι) (v : Memory) : WeakMachine ι α where
  initial := w.initial
  thread j := if j = i then ⟨((w.thread i).prog.step v).1, ((w.thread i).prog.step v).2, (w.thread i).prog.stored v ++ (w.thread i).stores⟩ else w.thread j

/-- The executions under a schedule: at each step the thread sees something that it may see. -/
inductive WeakMachine.Runs {ι α : Type} [DecidableEq ι] : WeakMachine ι α → List ι → WeakMachine ι α → Prop where
  | nil (w : WeakMachine ι α) : Runs w [] w
  | cons (w : WeakMachine ι α) (i : ι) (v : Memory) (l : List ι) (w' : WeakMachine ι α) (h : w.Sees i v) (hl : Runs (w.step i v) l w') : Runs w (i :: l) w'

/-- What may be in the memory once all stores have arrived: an octet that was written is as one of the threads has written it last. -/
structure WeakMachine.Settles {ι α : Type} (w : WeakMachine ι α) (m : Nat → Bytes) : Prop where
  size : ∀ n, (m n).length = (w.initial n).length
  octet : ∀ n k b, (m n)[k]? = some b → (∃ j, latest (w.thread j).stores ⟨.caller n, k⟩ = some b) ∨
    ((∀ j, latest (w.thread j).stores ⟨.caller n, k⟩ = none) ∧ (w.initial n)[k]? = some b)

/-- The threads at the start. -/
def Job.weakStart {ι : Type} (job : ι → Job) (shared : Nat → Bytes) (stack : ι → Memory) : WeakMachine ι Outcome := ⟨shared, fun i => ⟨(job i).prog, stack i, []⟩⟩

end Nat20
