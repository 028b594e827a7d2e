import Verif.Model.OutOfMemory
import Verif.Spec.Resources
/-!
# Calls while memory runs out

A call may return, or an exception may leave it.
-/

namespace Nat20

/-- The variables of the caller that a call may change: an output buffer, its size and a key handle, as far as there are such parameters. -/
structure CallerVars where
  out : Option Bytes := none
  size : Option UInt64 := none
  key : Option (Option Nat) := none
  deriving DecidableEq, Repr

/-- The variables of the caller before a call. -/
def ApiOp.vars : ApiOp → CallerVars
  | .key (.kdf _ _ _ _ keyOut) => { key := keyOut }
  | .key (.sign _ _ _ out size) => { out, size }
  | .key (.publicKey _ _ out size) => { out, size }
  | .key (.free _ _) => {}
  | .key (.makeSecret _ _ keyOut) => { key := keyOut }
  | .digest _ _ _ _ out size => { out, size }
  | .hmac _ _ _ _ out size => { out, size }
  | .hkdf _ _ _ _ _ _ out => { out }
  | .extract _ _ _ _ prk size => { out := prk, size }
  | .expand _ _ _ _ _ out => { out }

/-- The end of a call, in terms of `ApiReply` and `CallerVars`. -/
def Ended.map {α α' β β' : Type} (f : α → α') (g : β → β') : Ended α β → Ended α' β'
  | .returned r => .returned (f r)
  | .threw l => .threw (g l)

/-- Executing a call; `mem` says which allocations succeed.  Calls other than these three allocate nothing. -/
def ApiOp.runX (lib : Lib) (mem : AllocOk) : ApiOp → R (Ended ApiReply CallerVars)
  | .key (.kdf ctx keyIn type context keyOut) => do
    return (← bsslKdfX lib mem ctx keyIn type context keyOut).map KeyReply.api fun p => { key := p }
  | .key (.sign ctx k msg out size) => do return (← bsslSignX lib mem ctx k msg out size).map Reply.api fun v => { out := v.1, size := v.2 }
  | .key (.makeSecret ctx secret keyOut) => do return (← bsslMakeSecretX mem ctx secret keyOut).map KeyReply.api fun p => { key := p }
  | op => do return .returned (← op.runR lib)

/-- There is always memory. -/
def AllocOk.always : AllocOk := fun _ _ => true

/-- Some allocation fails. -/
def AllocOk.Short (mem : AllocOk) : Prop := ∃ site n, mem site n = false

/-- Sequences of calls that returned or were left by an exception, which the program survived; memory may run out and become available again. -/
inductive XHistory (lib : Lib) : RWorld → List (ApiOp × Ended ApiReply CallerVars) → RWorld → Prop where
  | nil (s : RWorld) : XHistory lib s [] s
  | cons {s s1 s2 : RWorld} {op : ApiOp} {mem : AllocOk} {r : Ended ApiReply CallerVars} {ops : List (ApiOp × Ended ApiReply CallerVars)} :
      op.runX lib mem s = .ok (r, s1) → XHistory lib s1 ops s2 → XHistory lib s ((op, r) :: ops) s2

/-- A CDI without contents. -/
def emptySecret : BsslKey := ⟨4, .inl []⟩

/-- A secret is given to the context. -/
def ApiOp.GivesSecret : ApiOp → Prop
  | .key (.makeSecret _ _ _) => True
  | _ => False

end Nat20
