import Verif.Model.Digest
/-!
# Model of `src/crypto/nat20/crypto.c` with addresses

`Model/Digest` gives every argument of a call its own memory.  Here slices and output pointers are addresses in one memory, so that
they can overlap, and every octet is read when the code reads it.  `crypto.c` below stands for this file, and the context is the one
of this file (461-467).  Simplification: slices, gather lists and the in/out sizes are passed by value; only what they point to is in
this memory.  A local array ceases to exist when its function returns, but what it held at that moment stays in the stack memory: the
octets of it that are not zero are appended to the pseudo-object `stack`.  Not modelled: the erasure of the working variables of the
compression functions (`sha256.c` 123-127, `sha512.c` 135-139).
-/

namespace Nat20

/-- The objects in memory: those of the caller, and the local arrays of the functions.  No function of this file is active twice at the
same time, so that there is at most one of each (`crypto.c` 290-291, 330, 413, 447). -/
inductive Region where
  | caller (n : Nat)
  /-- `K` (`crypto.c` 290) -/
  | key
  /-- `inner_digest` (`crypto.c` 291) -/
  | inner
  /-- `prk` (`crypto.c` 330) -/
  | prk
  /-- `T` (`crypto.c` 447) -/
  | block
  /-- `i` (`crypto.c` 413) -/
  | counter
  /-- what secrets of ended local variables have left in the stack memory; no pointer refers to it -/
  | stack
  deriving DecidableEq, Repr

/-- A non-NULL pointer, e.g. `digest_out` (`crypto.c` 63). -/
structure Addr where
  region : Region
  off : Nat
  deriving DecidableEq, Repr

/-- The contents of all objects (no counterpart in the code: the memory in which all pointers of `crypto.c` 149-459 point). -/
abbrev Memory := Region → Bytes

/-- Replaces the contents of an object (no counterpart in the code). -/
def Memory.set (m : Memory) (r : Region) (b : Bytes) : Memory := fun x => if x = r then b else m x

/-- The accessible memory from an address on (the octets that `crypto.c` 99-146, 224 and 454 can reach from a pointer). -/
def Memory.tail (m : Memory) (a : Addr) : Bytes := (m a.region).drop a.off

/-- Replaces the memory from an address on (what the digest functions do to `digest_out` in `crypto.c` 127-142). -/
def Memory.store (m : Memory) (a : Addr) (b : Bytes) : Memory := m.set a.region ((m a.region).take a.off ++ b)

/-- The memory after a call that left `o` at the output pointer `a`
(`digest_out`, `mac_out`, `prk` and `out` in `crypto.c` 99-459). -/
def Memory.put (m : Memory) (a : Option Addr) (o : Option Bytes) : Memory :=
  match a, o with
  | some a, some b => m.store a b
  | _, _ => m

/-- `include/nat20/types.h` 46-62: `n20_slice_t`. -/
structure MSlice where
  size : UInt64
  addr : Option Addr
  deriving DecidableEq, Repr

/-- What a slice refers to now (the accesses to `.buffer` in `crypto.c` 99-118 and 224). -/
def MSlice.fetch (m : Memory) (s : MSlice) : Slice := ⟨s.size, s.addr.map fun a => ⟨(m a.region).take a.off, m.tail a⟩⟩

/-- `include/nat20/crypto.h` 134-152: `n20_crypto_gather_list_t`. -/
structure MList where
  count : UInt64
  list : Option (List MSlice)
  deriving DecidableEq, Repr

/-- What a gather list refers to now (`crypto.c` 99-125). -/
def MList.fetch (m : Memory) (g : MList) : GatherList := ⟨g.count, g.list.map (·.map (MSlice.fetch m))⟩

/-- What a call leaves behind: its result, the memory and the in/out size
(the return value, `digest_out` and `digest_size_in_out` of `crypto.c` 59-147; likewise for the other functions). -/
structure MReply where
  err : N20Error
  mem : Memory
  size : Option UInt64

/-- A local variable without secrets exists while the body of its function runs (`crypto.c` 413-459). -/
def Memory.withLocal (m : Memory) (r : Region) (init : Bytes) (body : Memory → Except UB MReply) : Except UB MReply := do
  let x ← body (m.set r init)
  .ok ⟨x.err, x.mem.set r (m r), x.size⟩

/-- `crypto.c` 57: `n20_memzero` of a whole local variable. -/
def memzero (b : Bytes) : Bytes := List.replicate b.length 0

/-- `crypto.c` 57: `n20_memzero` of the local array `r`. -/
def Memory.wipe (m : Memory) (r : Region) : Memory := m.set r (memzero (m r))

/-- The lifetime of a local variable ends (`crypto.c` 166, 300, 341, 457); `b` is what it holds. -/
def Memory.bury (m : Memory) (b : Bytes) : Memory := m.set .stack (m .stack ++ b.filter (· ≠ 0))

/-- A local array with secrets, from its definition to the end of its lifetime (`crypto.c` 290-300, 330-341, 447-457). -/
def Memory.withSecret (m : Memory) (r : Region) (init : Bytes) (body : Memory → Except UB MReply) : Except UB MReply := do
  let x ← body (m.set r init)
  .ok ⟨x.err, (x.mem.bury (x.mem r)).set r (m r), x.size⟩

/-- `crypto.c` 108-124: the loop over the slices of one list. -/
def digestListAt (m : Memory) (alg : UInt32) : Nat → List MSlice → DigestState → Except UB (N20Error × DigestState)
  | 0, _, st => .ok (.ok, st)
  | _ + 1, [], _ => .error .oobRead
  | n + 1, s :: rest, st =>
    if s.size = 0 then digestListAt m alg n rest st
    else match s.addr with
      | none => .ok (.nullSlice, st)
      | some _ => do
        let st ← digestUpdate alg st (s.fetch m)
        digestListAt m alg n rest st

/-- `crypto.c` 109: evaluating `msg_in[j].list[i]` for a gather list. -/
def digestGatherAt (m : Memory) (alg : UInt32) (g : MList) (st : DigestState) : Except UB (N20Error × DigestState) :=
  match g.list with
  | none => if g.count = 0 then .ok (.ok, st) else .error .nullDeref
  | some l => digestListAt m alg g.count.toNat l st

/-- `crypto.c` 107-125: the loop over the gather lists. -/
def digestListsAt (m : Memory) (alg : UInt32) : Nat → List MList → DigestState → Except UB (N20Error × DigestState)
  | 0, _, st => .ok (.ok, st)
  | _ + 1, [], _ => .error .oobRead
  | n + 1, g :: rest, st => do
    let r ← digestGatherAt m alg g st
    if r.1 = .ok then digestListsAt m alg n rest r.2 else .ok r

/-- The object representation of a word (`include/nat20/crypto/nat20/sha.h` 42-69); in which order does not matter here. -/
def wordOctets {w : Nat} (x : BitVec w) : Bytes := (List.range (w / 8)).map fun i => UInt8.ofNat (x.toNat >>> (8 * i))

/-- The object representation of a state (`include/nat20/crypto/nat20/sha.h` 42-69). -/
def ShaState.octets {w : Nat} (s : ShaState w) : Bytes :=
  s.W.toList.flatMap wordOctets ++ s.H.toList.flatMap wordOctets ++ wordOctets s.fill.toBitVec ++ wordOctets s.total.toBitVec

/-- The object representation of the state of a digest (`crypto.c` 28-33); see the simplification at `DigestState`. -/
def DigestState.octets (st : DigestState) : Bytes := st.sha256.octets ++ st.sha512.octets

/-- `crypto.c` 127-142: the second switch; the state afterwards and the output. -/
def digestFinalizeAt (alg : UInt32) (st : DigestState) (out : Option Bytes) : Except UB (DigestState × Option Bytes) :=
  if alg = 0 then do let r ← sha224Finalize (some st.sha256) out; .ok ({ st with sha256 := r.1.getD st.sha256 }, r.2)
  else if alg = 1 then do let r ← sha256Finalize (some st.sha256) out; .ok ({ st with sha256 := r.1.getD st.sha256 }, r.2)
  else if alg = 2 then do let r ← sha384Finalize (some st.sha512) out; .ok ({ st with sha512 := r.1.getD st.sha512 }, r.2)
  else do let r ← sha512Finalize (some st.sha512) out; .ok ({ st with sha512 := r.1.getD st.sha512 }, r.2)

/-- `crypto.c` 99-146: `n20_digest_internal` from the check of the message on; also what `state` is when it returns. -/
def digestMessageAt (m : Memory) (st : DigestState) (alg : UInt32) (msg : Option (List MList)) (count : UInt64) (out : Option Addr) (size : UInt64) :
    Except UB (MReply × DigestState) :=
  match msg with
  | none => .ok (⟨.nullData, m, some size⟩, st)
  | some [] => .error .oobRead
  | some (g :: gs) =>
    if g.count ≠ 0 ∧ g.list = none then .ok (⟨.nullList, m, some size⟩, st)
    else do
      let r ← digestListsAt m alg count.toNat (g :: gs) st
      if r.1 = .ok then do
        let o ← digestFinalizeAt alg r.2 (out.map m.tail)
        .ok (⟨.ok, m.put out o.2, some (digestEnumToSize alg)⟩, o.1)
      else .ok (⟨r.1, m, some size⟩, r.2)

/-- `crypto.c` 59-147: `n20_digest_internal`. -/
def digestInternalAt (m : Memory) (st : DigestState) (alg : UInt32) (msg : Option (List MList)) (count : UInt64) (out : Option Addr) (size : Option UInt64) :
    Except UB (MReply × DigestState) :=
  match digestInit st alg with
  | none => .ok (⟨.unknownAlgorithm, m, size⟩, st)
  | some st =>
    match size with
    | none => .ok (⟨.nullSize, m, size⟩, st)
    | some sz =>
      if digestEnumToSize alg > sz ∨ out = none then .ok (⟨.insufficientBufferSize, m, some (digestEnumToSize alg)⟩, st)
      else digestMessageAt m st alg msg count out sz

/-- `crypto.c` 149-166: `n20_digest` with a context. -/
def digestAt (m : Memory) (alg : UInt32) (msg : Option (List MList)) (count : UInt64) (out : Option Addr) (size : Option UInt64) : Except UB MReply := do
  let r ← digestInternalAt m DigestState.zero alg msg count out size
  .ok ⟨r.1.err, r.1.mem.bury (memzero r.2.octets), r.1.size⟩

/-- The address of `K[0]` (`crypto.c` 290). -/
def keyAddr : Addr := ⟨.key, 0⟩
/-- The address of `inner_digest[0]` (`crypto.c` 291). -/
def innerAddr : Addr := ⟨.inner, 0⟩

/-- `crypto.c` 211-225: `K` becomes the key or its digest. -/
def hmacKeyAt (m : Memory) (alg : UInt32) (key : MSlice) (block digestSize : UInt64) : Except UB MReply :=
  if key.size > block then do
    let r ← digestAt m alg (some [⟨1, some [key]⟩]) 1 (some keyAddr) (some digestSize)
    .ok ⟨r.err, r.mem, some (r.size.getD digestSize)⟩
  else do
    let K ← memcpy (some (m .key)) 0 (key.fetch m).buffer key.size
    .ok ⟨.ok, m.set .key K, some digestSize⟩

/-- `crypto.c` 229-231, 260-265: `K[i] ^= x`. -/
def Memory.xorKey (m : Memory) (block : UInt64) (x : UInt8) : Memory := m.set .key (hmacXor block x (m .key))

/-- `crypto.c` 260-276: the outer digest. -/
def hmacOuterAt (m : Memory) (alg : UInt32) (block digestSize : UInt64) (out : Option Addr) (size : UInt64) : Except UB MReply :=
  digestAt (m.xorKey block 0x6a) alg (some [⟨1, some [⟨block, some keyAddr⟩]⟩, ⟨1, some [⟨digestSize, some innerAddr⟩]⟩]) 2 out (some size)

/-- `crypto.c` 229-276: `n20_hmac_internal` once `K` holds the padded key. -/
def hmacBodyAt (m : Memory) (alg : UInt32) (block digestSize : UInt64) (msg : Option MList) (out : Option Addr) (size : UInt64) : Except UB MReply :=
  let m := m.xorKey block 0x36
  match msg with
  | none => .ok ⟨.nullData, m, some size⟩
  | some g =>
    if g.count ≠ 0 ∧ g.list = none then .ok ⟨.nullList, m, some size⟩
    else do
      let r ← digestAt m alg (some [⟨1, some [⟨block, some keyAddr⟩]⟩, g]) 2 (some innerAddr) (some digestSize)
      if r.err = .ok then hmacOuterAt r.mem alg block (r.size.getD digestSize) out size
      else .ok ⟨r.err, r.mem, some size⟩

/-- `crypto.c` 170-277: `n20_hmac_internal`. -/
def hmacInternalAt (m : Memory) (alg : UInt32) (key : MSlice) (msg : Option MList) (out : Option Addr) (size : Option UInt64) : Except UB MReply :=
  if digestEnumToSize alg = 0 then .ok ⟨.unknownAlgorithm, m, size⟩
  else match size with
    | none => .ok ⟨.nullSize, m, size⟩
    | some sz =>
      if key.addr = none ∧ key.size ≠ 0 then .ok ⟨.nullSliceKey, m, size⟩
      else if out = none ∨ sz < digestEnumToSize alg then .ok ⟨.insufficientBufferSize, m, some (digestEnumToSize alg)⟩
      else do
        let r ← hmacKeyAt m alg key (hmacBlock alg) (digestEnumToSize alg)
        if r.err = .ok then hmacBodyAt r.mem alg (hmacBlock alg) (r.size.getD (digestEnumToSize alg)) msg out sz
        else .ok ⟨r.err, r.mem, size⟩

/-- `crypto.c` 293-299: the body of `n20_hmac`. -/
def hmacWiped (m : Memory) (alg : UInt32) (key : MSlice) (msg : Option MList) (out : Option Addr) (size : Option UInt64) : Except UB MReply := do
  let r ← hmacInternalAt m alg key msg out size
  .ok ⟨r.err, (r.mem.wipe .key).wipe .inner, r.size⟩

/-- `crypto.c` 279-300: `n20_hmac` with a context. -/
def hmacAt (m : Memory) (alg : UInt32) (key : MSlice) (msg : Option MList) (out : Option Addr) (size : Option UInt64) : Except UB MReply :=
  m.withSecret .key (List.replicate 128 0) fun m => m.withSecret .inner (List.replicate 64 0) fun m => hmacWiped m alg key msg out size

/-- `crypto.c` 343-380: `n20_hkdf_extract` with a context. -/
def extractAt (m : Memory) (alg : UInt32) (ikm salt : MSlice) (prk : Option Addr) (size : Option UInt64) : Except UB MReply :=
  if digestEnumToSize alg = 0 then .ok ⟨.unknownAlgorithm, m, size⟩
  else if ikm.addr = none ∧ ikm.size ≠ 0 then .ok ⟨.nullSliceIkm, m, size⟩
  else if salt.addr = none ∧ salt.size ≠ 0 then .ok ⟨.nullSliceSalt, m, size⟩
  else match size with
    | none => .ok ⟨.nullSize, m, size⟩
    | some sz =>
      if sz < digestEnumToSize alg ∨ prk = none then .ok ⟨.insufficientBufferSize, m, some (digestEnumToSize alg)⟩
      else hmacAt m alg salt (some ⟨1, some [ikm]⟩) prk size

/-- The variables of the loop in `n20_hkdf_expand`; the counter is in memory (`crypto.c` 413-438). -/
structure ExpandAt where
  keyOctets : UInt64
  digestSize : UInt64
  mem : Memory
  out : Addr
  prev : MSlice

/-- The address of `i` (`crypto.c` 413, 424). -/
def counterAddr : Addr := ⟨.counter, 0⟩
/-- The address of `T[0]` (`crypto.c` 447). -/
def blockAddr : Addr := ⟨.block, 0⟩

/-- `crypto.c` 415-425: `hmac_input`. -/
def expandInputAt (prev info : MSlice) : MList := ⟨3, some [prev, info, ⟨1, some counterAddr⟩]⟩

/-- `crypto.c` 438: `++i`. -/
def Memory.count (m : Memory) : Memory := m.set .counter ((m .counter).map (· + 1))

/-- `crypto.c` 430-438: the body of the loop; the result of `ctx->hmac` is ignored. -/
def expandStepAt (alg : UInt32) (prk info : MSlice) (s : ExpandAt) : Except UB ExpandAt := do
  let r ← hmacAt s.mem alg prk (some (expandInputAt s.prev info)) (some s.out) (some s.digestSize)
  let n := r.size.getD s.digestSize
  .ok ⟨s.keyOctets - n, n, r.mem.count, ⟨s.out.region, s.out.off + n.toNat⟩, ⟨n, some s.out⟩⟩

/-- `crypto.c` 429-439: the loop, with a bound on the number of iterations as in `expandLoop`. -/
def expandLoopAt (alg : UInt32) (prk info : MSlice) : Nat → ExpandAt → Except UB ExpandAt
  | 0, _ => .error .diverges
  | fuel + 1, s =>
    if s.keyOctets ≥ s.digestSize then do
      let s ← expandStepAt alg prk info s
      expandLoopAt alg prk info fuel s
    else .ok s

/-- `crypto.c` 448-456: the last block is made in `T` and copied. -/
def expandLastAt (m : Memory) (alg : UInt32) (prk info prev : MSlice) (digestSize keyOctets : UInt64) (out : Addr) : Except UB MReply := do
  let r ← hmacAt m alg prk (some (expandInputAt prev info)) (some blockAddr) (some digestSize)
  if r.err = .ok then do
    let b ← memcpy (some (r.mem.tail out)) 0 (some ⟨[], r.mem.tail blockAddr⟩) keyOctets
    .ok ⟨.ok, (r.mem.store out b).wipe .block, none⟩
  else .ok ⟨r.err, r.mem.wipe .block, none⟩

/-- `crypto.c` 446-458: the last, incomplete block. -/
def expandRestAt (alg : UInt32) (prk info : MSlice) (s : ExpandAt) : Except UB MReply :=
  if s.keyOctets > 0 then
    s.mem.withSecret .block (List.replicate 64 0) fun m => expandLastAt m alg prk info s.prev s.digestSize s.keyOctets s.out
  else .ok ⟨.ok, s.mem, none⟩

/-- `crypto.c` 382-459: `n20_hkdf_expand` with a context. -/
def hkdfExpandAt (m : Memory) (alg : UInt32) (prk info : MSlice) (keyOctets : UInt64) (out : Option Addr) : Except UB MReply :=
  if digestEnumToSize alg = 0 then .ok ⟨.unknownAlgorithm, m, none⟩
  else if prk.addr = none ∧ prk.size ≠ 0 then .ok ⟨.nullSlicePrk, m, none⟩
  else if info.addr = none ∧ info.size ≠ 0 then .ok ⟨.nullSliceInfo, m, none⟩
  else if keyOctets = 0 then .ok ⟨.ok, m, none⟩
  else match out with
    | none => .ok ⟨.insufficientBufferSize, m, none⟩
    | some a => m.withLocal .counter [1] fun m => do
      let s ← expandLoopAt alg prk info (keyOctets.toNat + 1) ⟨keyOctets, digestEnumToSize alg, m, a, ⟨0, none⟩⟩
      expandRestAt alg prk info s

/-- The address of `prk[0]` (`crypto.c` 330). -/
def prkAddr : Addr := ⟨.prk, 0⟩

/-- `crypto.c` 330-340: the steps of `n20_hkdf`. -/
def hkdfStepsAt (m : Memory) (alg : UInt32) (ikm salt info : MSlice) (keyOctets : UInt64) (out : Option Addr) : Except UB MReply := do
  let r ← extractAt m alg ikm salt (some prkAddr) (some (digestEnumToSize alg))
  if r.err = .ok then do
    let r ← hkdfExpandAt r.mem alg ⟨r.size.getD (digestEnumToSize alg), some prkAddr⟩ info keyOctets out
    .ok ⟨r.err, r.mem.wipe .prk, none⟩
  else .ok ⟨r.err, r.mem.wipe .prk, none⟩

/-- `crypto.c` 302-341: `n20_hkdf` with a context. -/
def hkdfAt (m : Memory) (alg : UInt32) (ikm salt info : MSlice) (keyOctets : UInt64) (out : Option Addr) : Except UB MReply :=
  if digestEnumToSize alg = 0 then .ok ⟨.unknownAlgorithm, m, none⟩
  else if ikm.addr = none ∧ ikm.size ≠ 0 then .ok ⟨.nullSliceIkm, m, none⟩
  else if salt.addr = none ∧ salt.size ≠ 0 then .ok ⟨.nullSliceSalt, m, none⟩
  else if info.addr = none ∧ info.size ≠ 0 then .ok ⟨.nullSliceInfo, m, none⟩
  else m.withSecret .prk (List.replicate 64 0) fun m => hkdfStepsAt m alg ikm salt info keyOctets out

end Nat20
