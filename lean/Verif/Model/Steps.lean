import Verif.Model.Arena
/-!
# Model of `sha256.c`, `sha512.c` and `crypto.c` step by step

`Model/Arena` says what a call does to the memory as a whole.  Here a call is a program (`Prog`): a sequence of single accesses to
memory, each octet at the time at which the code reads or writes it, together with everything else an observer of the execution may
see: the outcome of every branch and the index of every access to one of the arrays of words.  This is the level at which calls
of several threads interleave and at which timing depends on data.  `sha256.c`, `sha512.c` and `crypto.c` below stand for the files in
`src/crypto/nat20`.  Simplifications: the hash state of a call of `digest` and the variables `R`, `t1` are values of the program and not
objects in memory (no pointer to them leaves the call); what they hold at the end of their lifetime goes to the stack memory (`Prog.leave`); slices, gather lists and in/out sizes are passed by value as in `Model/Arena`;
`a && b` and `a || b` are one branch.
-/

namespace Nat20

/-- The arrays of words that are not objects in memory here (`include/nat20/crypto/nat20/sha.h` 42-69, `sha256.c` 51, 88, `sha512.c` 51, 100). -/
inductive WordArray where
  | W | H | R | K
  deriving DecidableEq, Repr

/-- What an observer of the execution sees of one step (no counterpart in the code: accesses and branches of `crypto.c` 57-459, `sha256.c` 86-218, `sha512.c` 98-234). -/
inductive Event where
  /-- an octet is read at this address -/
  | load (a : Addr)
  /-- an octet is written at this address -/
  | store (a : Addr)
  /-- a condition is evaluated, with this outcome -/
  | branch (b : Bool)
  /-- an element of an array of words is read or written -/
  | word (x : WordArray) (i : Nat)
  /-- the lifetime of a local array of this size begins -/
  | alloc (r : Region) (n : Nat)
  /-- the lifetime of a local array ends -/
  | free (r : Region)
  deriving DecidableEq, Repr

/-- A program: the next step and what follows it (no counterpart in the code: executions of the functions in `crypto.c` 57-459, `sha256.c` 86-218, `sha512.c` 98-234). -/
inductive Prog (α : Type) where
  | done (x : α)
  /-- undefined behaviour that is not an access outside of an object -/
  | crash (u : UB)
  | load (a : Addr) (k : UInt8 → Prog α)
  | store (a : Addr) (b : UInt8) (k : Prog α)
  /-- a branch or an access to an array of words -/
  | note (e : Event) (k : Prog α)
  /-- a local array comes into being -/
  | alloc (r : Region) (init : Bytes) (k : Prog α)
  /-- a local array ceases to exist; if it is one for secrets, what it holds stays in the stack memory (see `Memory.bury`) -/
  | free (r : Region) (secret : Bool) (k : Prog α)
  /-- the lifetime of variables that are not objects in memory here ends; what they hold stays in the stack memory -/
  | leave (b : Bytes) (k : Prog α)

/-- Sequencing: the `;` between the statements of `crypto.c` 57-459, `sha256.c` 86-218, `sha512.c` 98-234. -/
def Prog.seq {α β : Type} : Prog α → (α → Prog β) → Prog β
  | .done x, f => f x
  | .crash u, _ => .crash u
  | .load a k, f => .load a fun b => (k b).seq f
  | .store a b k, f => .store a b (k.seq f)
  | .note e k, f => .note e (k.seq f)
  | .alloc r i k, f => .alloc r i (k.seq f)
  | .free r s k, f => .free r s (k.seq f)
  | .leave b k, f => .leave b (k.seq f)

instance : Monad Prog where
  pure := .done
  bind := .seq

/-- The octet at an address, if there is one (a read through a pointer as in `sha256.c` 145, `crypto.c` 224, 230). -/
def Memory.get (m : Memory) (a : Addr) : Option UInt8 := (m a.region)[a.off]?

/-- The memory after one octet was written (a write through a pointer as in `sha256.c` 216, `crypto.c` 57, 224, 230). -/
def Memory.poke (m : Memory) (a : Addr) (b : UInt8) : Memory := m.set a.region ((m a.region).set a.off b)

/-- One step of a program (no counterpart in the code: how the machine executes `crypto.c` 57-459, `sha256.c` 86-218, `sha512.c` 98-234).  Programs that have ended or crashed do not move. -/
def Prog.step {α : Type} : Prog α → Memory → Prog α × Memory
  | .done x, m => (.done x, m)
  | .crash u, m => (.crash u, m)
  | .load a k, m => match m.get a with
    | some b => (k b, m)
    | none => (.crash .oobRead, m)
  | .store a b k, m => match m.get a with
    | some _ => (k, m.poke a b)
    | none => (.crash .oobWrite, m)
  | .note _ k, m => (k, m)
  | .alloc r i k, m => (k, m.set r i)
  | .free r s k, m => (k, (if s then m.bury (m r) else m).set r [])
  | .leave b k, m => (k, m.bury b)

/-- What is seen of the next step (no counterpart in the code: see `Event`; `crypto.c` 57-459). -/
def Prog.event {α : Type} : Prog α → List Event
  | .done _ => []
  | .crash _ => []
  | .load a _ => [.load a]
  | .store a _ _ => [.store a]
  | .note e _ => [e]
  | .alloc r i _ => [.alloc r i.length]
  | .free r _ _ => [.free r]
  | .leave _ _ => []

/-- Running a program to its end: its result and the memory (no counterpart in the code: how the machine executes `crypto.c` 57-459, `sha256.c` 86-218, `sha512.c` 98-234). -/
def Prog.run {α : Type} : Prog α → Memory → Except UB (α × Memory)
  | .done x, m => .ok (x, m)
  | .crash u, _ => .error u
  | .load a k, m => match m.get a with
    | some b => (k b).run m
    | none => .error .oobRead
  | .store a b k, m => match m.get a with
    | some _ => k.run (m.poke a b)
    | none => .error .oobWrite
  | .note _ k, m => k.run m
  | .alloc r i k, m => k.run (m.set r i)
  | .free r s k, m => k.run ((if s then m.bury (m r) else m).set r [])
  | .leave b k, m => k.run (m.bury b)

/-- Everything that is seen of the execution of a program (no counterpart in the code: see `Event`; `crypto.c` 57-459). -/
def Prog.trace {α : Type} : Prog α → Memory → List Event
  | .done _, _ => []
  | .crash _, _ => []
  | .load a k, m => .load a :: match m.get a with
    | some b => (k b).trace m
    | none => []
  | .store a b k, m => .store a :: match m.get a with
    | some _ => k.trace (m.poke a b)
    | none => []
  | .note e k, m => e :: k.trace m
  | .alloc r i k, m => .alloc r i.length :: k.trace (m.set r i)
  | .free r s k, m => .free r :: k.trace ((if s then m.bury (m r) else m).set r [])
  | .leave b k, m => k.trace (m.bury b)

/-- A branch: `if`, `switch` and the conditions of loops in `crypto.c` 57-459, `sha256.c` 86-218, `sha512.c` 98-234. -/
def branch {α : Type} (c : Prop) [Decidable c] (yes no : Prog α) : Prog α := .note (.branch (decide c)) (if c then yes else no)

/-- Accesses to elements of arrays of words (`sha256.c` 91-122, 144-145, `sha512.c` 103-134, 156-157). -/
def touch : List (WordArray × Nat) → Prog Unit
  | [] => .done ()
  | (x, i) :: l => .note (.word x i) (touch l)

/-- The octet `i` behind an address (`p[i]` or `p + i` in `sha256.c` 145, 216, `crypto.c` 230, 437). -/
def Addr.plus (a : Addr) (i : Nat) : Addr := ⟨a.region, a.off + i⟩

/-! ## sha256.c and sha512.c -/

section
variable {w : Nat} (P : ShaCode w)

/-- The elements used in one round, in the order of the code (`sha256.c` 98-104 and 111-117, `sha512.c` 110-116 and 123-129). -/
def roundWords (j : Nat) : List (WordArray × Nat) :=
  [(.R, rIndex j 7), (.R, rIndex j 4), (.R, rIndex j 4), (.R, rIndex j 5), (.R, rIndex j 6), (.K, j),
    (.R, rIndex j 0), (.R, rIndex j 0), (.R, rIndex j 1), (.R, rIndex j 2), (.R, rIndex j 7), (.R, rIndex j 3)]

/-- The variables of `n20_sha256_main` and `n20_sha512_main` (`sha256.c` 88-89, `sha512.c` 100-101). -/
structure MainVars (w : Nat) where
  R : Vector (BitVec w) 8
  t1 : BitVec w

/-- The value of `t1` at the end of a round (`sha256.c` 98-101 and 111-114, `sha512.c` 110-113 and 123-126). -/
def roundT1 (j : Nat) (t1 : BitVec w) (R : Vector (BitVec w) 8) : BitVec w :=
  t1 + R[rIndex j 7] + P.SIGMA1 R[rIndex j 4] + shaCh R[rIndex j 4] R[rIndex j 5] R[rIndex j 6] + P.K.getD j 0

/-- `sha256.c` 98-104 and 111-117, `sha512.c` 110-116 and 123-129: one round. -/
def shaRoundP (j : Nat) (t1 : BitVec w) (R : Vector (BitVec w) 8) : Prog (MainVars w) := do
  touch (roundWords j)
  .done ⟨shaRound P j t1 R, roundT1 P j t1 R⟩

/-- `sha256.c` 95-105, `sha512.c` 107-117: the first `n` of the sixteen rounds that use the block directly. -/
def shaRounds16P (W : Vector (BitVec w) 16) (R : Vector (BitVec w) 8) : Nat → Prog (MainVars w)
  | 0 => .done ⟨R, 0⟩
  | j + 1 => do
    let v ← shaRounds16P W R j
    branch (j < 16) (do
      touch [(.W, wIndex j)]
      shaRoundP P j W[wIndex j] v.R) (.done v)

/-- `sha256.c` 107-118, `sha512.c` 119-130: `n` further rounds. -/
def shaRoundsExtP (s : Vector (BitVec w) 16 × MainVars w) : Nat → Prog (Vector (BitVec w) 16 × MainVars w)
  | 0 => .done s
  | n + 1 => do
    let s ← shaRoundsExtP s n
    branch (16 + n < P.rounds) (do
      touch [(.W, wIndex (16 + n)), (.W, wIndex (16 + n - 2)), (.W, wIndex (16 + n - 7)), (.W, wIndex (16 + n - 15)), (.W, wIndex (16 + n))]
      let t1 := s.1[wIndex (16 + n)] + (P.sigma1 s.1[wIndex (16 + n - 2)] + s.1[wIndex (16 + n - 7)] + P.sigma0 s.1[wIndex (16 + n - 15)])
      let v ← shaRoundP P (16 + n) t1 s.2.R
      .done (s.1.set (wIndex (16 + n)) t1, v)) (.done s)

/-- `sha256.c` 91-93, 120-122; `sha512.c` 103-105, 132-134: both loops over the words of `H`. -/
def hashWords : List (WordArray × Nat) := (List.range 8).flatMap fun j => [(.R, j), (.H, j)]

/-- `sha256.c` 124-126, `sha512.c` 136-138: erasing the first `n` elements of `R`. -/
def eraseR (R : Vector (BitVec w) 8) : Nat → Vector (BitVec w) 8
  | 0 => R
  | j + 1 => (eraseR R j).setIfInBounds j 0

/-- `sha256.c` 123-127, `sha512.c` 135-139: erasing `R` and `t1`. -/
def MainVars.erase (v : MainVars w) : MainVars w := ⟨eraseR v.R 8, 0⟩

/-- The object representation of the variables (`sha256.c` 88-89, `sha512.c` 100-101). -/
def MainVars.octets (v : MainVars w) : Bytes := v.R.toList.flatMap wordOctets ++ wordOctets v.t1

/-- `sha256.c` 86-129, `sha512.c` 98-141: `n20_sha256_main`, `n20_sha512_main`. -/
def shaMainP (s : ShaState w) : Prog (ShaState w) := do
  touch hashWords
  let v ← shaRounds16P P s.W s.H 16
  let x ← shaRoundsExtP P (s.W, v) (P.rounds - 16)
  touch hashWords
  touch ((List.range 8).map fun j => (.R, j))
  .leave x.2.erase.octets (.done { s with W := x.1, H := Vector.zipWith (· + ·) s.H x.2.R, fill := 0 })

/-- `state->W[j >> 2] <<= 8; state->W[j >> 2] |= b;`
(`sha256.c` 144-145, 172-173, 182-183, 197-198, 207-208; `sha512.c` 156-157, 184-185, 194-195, 213-214, 223-224). -/
def shaShiftInP (s : ShaState w) (j : Nat) (b : UInt8) : Prog (ShaState w) := do
  touch [(.W, j >>> P.shift), (.W, j >>> P.shift)]
  if h : j >>> P.shift < 16 then
    .done { s with W := s.W.set (j >>> P.shift) ((s.W[j >>> P.shift] <<< 8) ||| BitVec.ofNat w b.toNat) }
  else .crash .oobWrite

/-- `sha256.c` 142-145, `sha512.c` 154-157: the inner loop; the last argument is `data.size - i`, and `a` is `data.buffer + i`.
The result has the new `j`, the address of the next octet and the number of octets left. -/
def shaFillP (s : ShaState w) (j : Nat) (a : Addr) : Nat → Prog (ShaState w × Nat × Addr × Nat)
  | 0 => branch (j < P.block ∧ 0 < 0) (.done (s, j, a, 0)) (.done (s, j, a, 0))
  | n + 1 => branch (j < P.block ∧ 0 < n + 1)
      (.load a fun b => do
        let s ← shaShiftInP P s j b
        shaFillP s (j + 1) (a.plus 1) n)
      (.done (s, j, a, n + 1))

/-- `sha256.c` 139-153, `sha512.c` 151-165: the outer loop; see `shaUpdateLoop`. -/
def shaUpdateLoopP : Nat → ShaState w → Addr → Nat → Prog (ShaState w)
  | 0, s, _, _ => .done s
  | fuel + 1, s, a, n =>
    branch (0 < n) (do
      let x ← shaFillP P s s.fill.toNat a n
      branch (x.2.1 < P.block) (.done { x.1 with fill := UInt32.ofNat x.2.1 }) (do
        let s ← shaMainP P x.1
        shaUpdateLoopP fuel s x.2.2.1 x.2.2.2))
      (.done s)

/-- `sha256.c` 131-154, `sha512.c` 143-166: `n20_sha256_update`, `n20_sha512_update` with a state. -/
def shaUpdateP (s : ShaState w) (data : MSlice) : Prog (ShaState w) :=
  .note (.branch data.addr.isNone) (match data.addr with
    | none => .done s
    | some a => shaUpdateLoopP P (data.size.toNat + 1) { s with total := s.total + data.size } a data.size.toNat)

/-- `for (; i < limit; ++i)` with the octets `f i` shifted in; `n` is `limit - i`
(`sha256.c` 181-184, 196-199, 206-209; `sha512.c` 193-196, 212-215, 222-225). -/
def shaShiftLoopP (f : Nat → UInt8) : Nat → Nat → ShaState w → Prog (ShaState w)
  | 0, _, s => .note (.branch false) (.done s)
  | n + 1, i, s => .note (.branch true) (do
    let s ← shaShiftInP P s i (f i)
    shaShiftLoopP f n (i + 1) s)

/-- `sha256.c` 181-188, `sha512.c` 193-200: the case of a block without space for the length. -/
def shaFinishBlockP (s : ShaState w) (i : Nat) : Prog (ShaState w × Nat) :=
  branch (i > P.padLimit) (do
    let s ← shaShiftLoopP P (fun _ => 0) (P.block - i) i s
    let s ← shaMainP P s
    .done (s, 0)) (.done (s, i))

/-- `sha256.c` 215-217, `sha512.c` 231-233: `n` octets of the digest are written, from octet `i` on. -/
def shaOutputP (H : Vector (BitVec w) 8) (out : Addr) : Nat → Nat → Prog Unit
  | 0, _ => .note (.branch false) (.done ())
  | n + 1, i => .note (.branch true) (.note (.word .H (i >>> P.shift)) (.store (out.plus i) (shaDigestByte P H i) (shaOutputP H out n (i + 1))))

/-- `sha256.c` 159-218, `sha512.c` 171-234: `n20_sha224_sha256_finalize`, `n20_sha384_sha512_finalize` with a state. -/
def shaFinalizeP (s : ShaState w) (out : Option Addr) (size : Nat) : Prog (ShaState w) := do
  let s0 ← shaShiftInP P s s.fill.toNat 0x80
  let x ← shaFinishBlockP P s0 (s.fill.toNat + 1)
  let s ← shaShiftLoopP P (fun _ => 0) (P.lengthAt - x.2) x.2 x.1
  let s ← shaShiftLoopP P (shaLengthByte P s.total) (P.block - P.lengthAt) P.lengthAt s
  let s ← shaMainP P s
  match out with
  | none => .crash .nullDeref
  | some a => do
    shaOutputP P s.H a size 0
    .done s

end

/-! ## crypto.c -/

/-- What a call returns: its result and the in/out size (the return value and `digest_size_in_out` of `crypto.c` 149-154; likewise for the other functions). -/
structure PReply where
  err : N20Error
  size : Option UInt64
  deriving DecidableEq

/-- `crypto.c` 114-123: the update of the selected state. -/
def digestUpdateP (alg : UInt32) (st : DigestState) (s : MSlice) : Prog DigestState :=
  branch (alg = 0 ∨ alg = 1)
    (do
      let r ← shaUpdateP sha256Code st.sha256 s
      .done { st with sha256 := r })
    (do
      let r ← shaUpdateP sha512Code st.sha512 s
      .done { st with sha512 := r })

/-- `crypto.c` 108-124: the loop over the slices of one list; the first argument is `msg_in[j].count - i`. -/
def digestListP (alg : UInt32) : Nat → List MSlice → DigestState → Prog (N20Error × DigestState)
  | 0, _, st => .note (.branch false) (.done (.ok, st))
  | _ + 1, [], _ => .crash .oobRead
  | n + 1, s :: rest, st => .note (.branch true)
    (branch (s.size = 0) (digestListP alg n rest st)
      (branch (s.addr = none) (.done (.nullSlice, st)) (do
        let st ← digestUpdateP alg st s
        digestListP alg n rest st)))

/-- `crypto.c` 109: evaluating `msg_in[j].list[i]` for a gather list. -/
def digestGatherP (alg : UInt32) (g : MList) (st : DigestState) : Prog (N20Error × DigestState) :=
  match g.list with
  | none => branch (g.count = 0) (.done (.ok, st)) (.crash .nullDeref)
  | some l => digestListP alg g.count.toNat l st

/-- `crypto.c` 107-125: the loop over the gather lists; the first argument is `msg_count - j`. -/
def digestListsP (alg : UInt32) : Nat → List MList → DigestState → Prog (N20Error × DigestState)
  | 0, _, st => .note (.branch false) (.done (.ok, st))
  | _ + 1, [], _ => .crash .oobRead
  | n + 1, g :: rest, st => .note (.branch true) (do
    let r ← digestGatherP alg g st
    branch (r.1 = .ok) (digestListsP alg n rest r.2) (.done r))

/-- `crypto.c` 127-142: the second switch. -/
def digestFinalizeP (alg : UInt32) (st : DigestState) (out : Option Addr) : Prog DigestState :=
  branch (alg = 0) (finalize256 28) (branch (alg = 1) (finalize256 32) (branch (alg = 2) (finalize512 48) (finalize512 64)))
where
  finalize256 (n : Nat) : Prog DigestState := do
    let r ← shaFinalizeP sha256Code st.sha256 out n
    .done { st with sha256 := r }
  finalize512 (n : Nat) : Prog DigestState := do
    let r ← shaFinalizeP sha512Code st.sha512 out n
    .done { st with sha512 := r }

/-- `crypto.c` 99-146: `n20_digest_internal` from the check of the message on. -/
def digestMessageP (st : DigestState) (alg : UInt32) (msg : Option (List MList)) (count : UInt64) (out : Option Addr) (size : UInt64) : Prog (PReply × DigestState) :=
  match msg with
  | none => .note (.branch true) (.done (⟨.nullData, some size⟩, st))
  | some [] => .crash .oobRead
  | some (g :: gs) => .note (.branch false)
    (branch (g.count ≠ 0 ∧ g.list = none) (.done (⟨.nullList, some size⟩, st)) (do
      let r ← digestListsP alg count.toNat (g :: gs) st
      branch (r.1 = .ok)
        (do
          let st ← digestFinalizeP alg r.2 out
          .done (⟨.ok, some (digestEnumToSize alg)⟩, st))
        (.done (⟨r.1, some size⟩, r.2))))

/-- `crypto.c` 59-147: `n20_digest_internal`. -/
def digestInternalP (st : DigestState) (alg : UInt32) (msg : Option (List MList)) (count : UInt64) (out : Option Addr) (size : Option UInt64) :
    Prog (PReply × DigestState) :=
  .note (.branch (digestInit st alg).isNone) (match digestInit st alg with
    | none => .done (⟨.unknownAlgorithm, size⟩, st)
    | some st => .note (.branch size.isNone) (match size with
      | none => .done (⟨.nullSize, size⟩, st)
      | some sz => branch (digestEnumToSize alg > sz ∨ out = none) (.done (⟨.insufficientBufferSize, some (digestEnumToSize alg)⟩, st))
          (digestMessageP st alg msg count out sz)))

/-- `crypto.c` 149-166: `n20_digest` with a context. -/
def digestP (alg : UInt32) (msg : Option (List MList)) (count : UInt64) (out : Option Addr) (size : Option UInt64) : Prog PReply := do
  let r ← digestInternalP DigestState.zero alg msg count out size
  .leave (memzero r.2.octets) (.done r.1)

/-- A local array with secrets (`crypto.c` 290-300, 330-341, 447-457); `body` ends with its erasure. -/
def withSecretP {α : Type} (r : Region) (n : Nat) (body : Prog α) : Prog α :=
  .alloc r (List.replicate n 0) (do
    let x ← body
    .free r true (.done x))

/-- `crypto.c` 57: `n20_memzero`, from octet `i` on. -/
def wipeP (a : Addr) : Nat → Nat → Prog Unit
  | 0, _ => .done ()
  | n + 1, i => .store (a.plus i) 0 (wipeP a n (i + 1))

/-- `memcpy` octet by octet, from octet `i` on (`crypto.c` 224, 454). -/
def copyP (dst src : Addr) : Nat → Nat → Prog Unit
  | 0, _ => .done ()
  | n + 1, i => .load (src.plus i) fun b => .store (dst.plus i) b (copyP dst src n (i + 1))

/-- `crypto.c` 229-231, 260-265: `K[i] ^= x`, from octet `i` on. -/
def xorP (a : Addr) (x : UInt8) : Nat → Nat → Prog Unit
  | 0, _ => .note (.branch false) (.done ())
  | n + 1, i => .note (.branch true) (.load (a.plus i) fun b => .store (a.plus i) (b ^^^ x) (xorP a x n (i + 1)))

/-- `crypto.c` 211-225: `K` becomes the key or its digest. -/
def hmacKeyP (alg : UInt32) (key : MSlice) (block digestSize : UInt64) : Prog PReply :=
  branch (key.size > block)
    (do
      let r ← digestP alg (some [⟨1, some [key]⟩]) 1 (some keyAddr) (some digestSize)
      .done ⟨r.err, some (r.size.getD digestSize)⟩)
    (match key.addr with
      | none => .crash .nullMemcpy
      | some a => do
        copyP keyAddr a key.size.toNat 0
        .done ⟨.ok, some digestSize⟩)

/-- `crypto.c` 260-276: the outer digest. -/
def hmacOuterP (alg : UInt32) (block digestSize : UInt64) (out : Option Addr) (size : UInt64) : Prog PReply := do
  xorP keyAddr 0x6a block.toNat 0
  digestP alg (some [⟨1, some [⟨block, some keyAddr⟩]⟩, ⟨1, some [⟨digestSize, some innerAddr⟩]⟩]) 2 out (some size)

/-- `crypto.c` 233-276: `n20_hmac_internal` once `K` holds the key of the inner digest. -/
def hmacMessageP (alg : UInt32) (block digestSize : UInt64) (msg : Option MList) (out : Option Addr) (size : UInt64) : Prog PReply :=
  match msg with
  | none => .note (.branch true) (.done ⟨.nullData, some size⟩)
  | some g => .note (.branch false)
    (branch (g.count ≠ 0 ∧ g.list = none) (.done ⟨.nullList, some size⟩) (do
      let r ← digestP alg (some [⟨1, some [⟨block, some keyAddr⟩]⟩, g]) 2 (some innerAddr) (some digestSize)
      branch (r.err = .ok) (hmacOuterP alg block (r.size.getD digestSize) out size) (.done ⟨r.err, some size⟩)))

/-- `crypto.c` 229-276: `n20_hmac_internal` once `K` holds the padded key. -/
def hmacBodyP (alg : UInt32) (block digestSize : UInt64) (msg : Option MList) (out : Option Addr) (size : UInt64) : Prog PReply := do
  xorP keyAddr 0x36 block.toNat 0
  hmacMessageP alg block digestSize msg out size

/-- `crypto.c` 205-276: `n20_hmac_internal` after the checks of the arguments. -/
def hmacStartP (alg : UInt32) (key : MSlice) (msg : Option MList) (out : Option Addr) (size : UInt64) : Prog PReply := do
  let r ← hmacKeyP alg key (hmacBlock alg) (digestEnumToSize alg)
  branch (r.err = .ok) (hmacBodyP alg (hmacBlock alg) (r.size.getD (digestEnumToSize alg)) msg out size) (.done ⟨r.err, some size⟩)

/-- `crypto.c` 170-277: `n20_hmac_internal`. -/
def hmacInternalP (alg : UInt32) (key : MSlice) (msg : Option MList) (out : Option Addr) (size : Option UInt64) : Prog PReply :=
  branch (digestEnumToSize alg = 0) (.done ⟨.unknownAlgorithm, size⟩)
    (.note (.branch size.isNone) (match size with
      | none => .done ⟨.nullSize, size⟩
      | some sz =>
        branch (key.addr = none ∧ key.size ≠ 0) (.done ⟨.nullSliceKey, size⟩)
          (branch (out = none ∨ sz < digestEnumToSize alg) (.done ⟨.insufficientBufferSize, some (digestEnumToSize alg)⟩)
            (hmacStartP alg key msg out sz))))

/-- `crypto.c` 293-299: the body of `n20_hmac`. -/
def hmacWipedP (alg : UInt32) (key : MSlice) (msg : Option MList) (out : Option Addr) (size : Option UInt64) : Prog PReply := do
  let r ← hmacInternalP alg key msg out size
  wipeP keyAddr 128 0
  wipeP innerAddr 64 0
  .done r

/-- `crypto.c` 279-300: `n20_hmac` with a context. -/
def hmacP (alg : UInt32) (key : MSlice) (msg : Option MList) (out : Option Addr) (size : Option UInt64) : Prog PReply :=
  withSecretP .key 128 (withSecretP .inner 64 (hmacWipedP alg key msg out size))

/-- `crypto.c` 343-380: `n20_hkdf_extract` with a context. -/
def extractP (alg : UInt32) (ikm salt : MSlice) (prk : Option Addr) (size : Option UInt64) : Prog PReply :=
  branch (digestEnumToSize alg = 0) (.done ⟨.unknownAlgorithm, size⟩)
    (branch (ikm.addr = none ∧ ikm.size ≠ 0) (.done ⟨.nullSliceIkm, size⟩)
      (branch (salt.addr = none ∧ salt.size ≠ 0) (.done ⟨.nullSliceSalt, size⟩)
        (.note (.branch size.isNone) (match size with
          | none => .done ⟨.nullSize, size⟩
          | some sz => branch (sz < digestEnumToSize alg ∨ prk = none) (.done ⟨.insufficientBufferSize, some (digestEnumToSize alg)⟩)
              (hmacP alg salt (some ⟨1, some [ikm]⟩) prk size)))))

/-- The variables of the loop in `n20_hkdf_expand`; the counter is in memory (`crypto.c` 413-438). -/
structure ExpandVars where
  keyOctets : UInt64
  digestSize : UInt64
  out : Addr
  prev : MSlice

/-- `crypto.c` 430-438: the body of the loop; the result of `ctx->hmac` is ignored. -/
def expandStepP (alg : UInt32) (prk info : MSlice) (s : ExpandVars) : Prog ExpandVars := do
  let r ← hmacP alg prk (some (expandInputAt s.prev info)) (some s.out) (some s.digestSize)
  .load counterAddr fun c => .store counterAddr (c + 1)
    (.done ⟨s.keyOctets - r.size.getD s.digestSize, r.size.getD s.digestSize, s.out.plus (r.size.getD s.digestSize).toNat, ⟨r.size.getD s.digestSize, some s.out⟩⟩)

/-- `crypto.c` 429-439: the loop, with a bound on the number of iterations as in `expandLoop`. -/
def expandLoopP (alg : UInt32) (prk info : MSlice) : Nat → ExpandVars → Prog ExpandVars
  | 0, _ => .crash .diverges
  | fuel + 1, s =>
    branch (s.keyOctets ≥ s.digestSize) (do
      let s ← expandStepP alg prk info s
      expandLoopP alg prk info fuel s) (.done s)

/-- `crypto.c` 448-456: the last block is made in `T` and copied. -/
def expandLastP (alg : UInt32) (prk info prev : MSlice) (digestSize keyOctets : UInt64) (out : Addr) : Prog PReply := do
  let r ← hmacP alg prk (some (expandInputAt prev info)) (some blockAddr) (some digestSize)
  branch (r.err = .ok)
    (do
      copyP out blockAddr keyOctets.toNat 0
      wipeP blockAddr 64 0
      .done ⟨.ok, none⟩)
    (do
      wipeP blockAddr 64 0
      .done ⟨r.err, none⟩)

/-- `crypto.c` 446-458: the last, incomplete block. -/
def expandRestP (alg : UInt32) (prk info : MSlice) (s : ExpandVars) : Prog PReply :=
  branch (s.keyOctets > 0) (withSecretP .block 64 (expandLastP alg prk info s.prev s.digestSize s.keyOctets s.out)) (.done ⟨.ok, none⟩)

/-- `crypto.c` 413-458: `n20_hkdf_expand` after the checks of the arguments. -/
def expandBodyP (alg : UInt32) (prk info : MSlice) (keyOctets : UInt64) (out : Addr) : Prog PReply := do
  let s ← expandLoopP alg prk info (keyOctets.toNat + 1) ⟨keyOctets, digestEnumToSize alg, out, ⟨0, none⟩⟩
  expandRestP alg prk info s

/-- `crypto.c` 382-459: `n20_hkdf_expand` with a context. -/
def hkdfExpandP (alg : UInt32) (prk info : MSlice) (keyOctets : UInt64) (out : Option Addr) : Prog PReply :=
  branch (digestEnumToSize alg = 0) (.done ⟨.unknownAlgorithm, none⟩)
    (branch (prk.addr = none ∧ prk.size ≠ 0) (.done ⟨.nullSlicePrk, none⟩)
      (branch (info.addr = none ∧ info.size ≠ 0) (.done ⟨.nullSliceInfo, none⟩)
        (branch (keyOctets = 0) (.done ⟨.ok, none⟩)
          (.note (.branch out.isNone) (match out with
            | none => .done ⟨.insufficientBufferSize, none⟩
            | some a => .alloc .counter [1] (do
              let x ← expandBodyP alg prk info keyOctets a
              .free .counter false (.done x)))))))

/-- `crypto.c` 332-340: the steps of `n20_hkdf`. -/
def hkdfStepsP (alg : UInt32) (ikm salt info : MSlice) (keyOctets : UInt64) (out : Option Addr) : Prog PReply := do
  let r ← extractP alg ikm salt (some prkAddr) (some (digestEnumToSize alg))
  branch (r.err = .ok)
    (do
      let z ← hkdfExpandP alg ⟨r.size.getD (digestEnumToSize alg), some prkAddr⟩ info keyOctets out
      wipeP prkAddr 64 0
      .done ⟨z.err, none⟩)
    (do
      wipeP prkAddr 64 0
      .done ⟨r.err, none⟩)

/-- `crypto.c` 302-341: `n20_hkdf` with a context. -/
def hkdfP (alg : UInt32) (ikm salt info : MSlice) (keyOctets : UInt64) (out : Option Addr) : Prog PReply :=
  branch (digestEnumToSize alg = 0) (.done ⟨.unknownAlgorithm, none⟩)
    (branch (ikm.addr = none ∧ ikm.size ≠ 0) (.done ⟨.nullSliceIkm, none⟩)
      (branch (salt.addr = none ∧ salt.size ≠ 0) (.done ⟨.nullSliceSalt, none⟩)
        (branch (info.addr = none ∧ info.size ≠ 0) (.done ⟨.nullSliceInfo, none⟩)
          (withSecretP .prk 64 (hkdfStepsP alg ikm salt info keyOctets out)))))

end Nat20
