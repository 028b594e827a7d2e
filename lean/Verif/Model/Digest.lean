import Verif.Model.Sha2
/-!
# Model of `src/crypto/nat20/crypto.c`

`crypto.c` below stands for this file.

Pointers that may be NULL are `Option`s.  An output buffer is the accessible memory at the output pointer, and a call returns
its new contents.  Output buffers are assumed not to overlap with inputs,
and clearing of local buffers (`n20_memzero`), which a caller cannot observe, is left out (`Model/Arena` models overlaps and erasure).
-/

namespace Nat20

/-- `include/nat20/error.h` 37-266: the error codes. -/
inductive N20Error where
  | ok
  | invalidContext
  | nullKeyIn
  | nullKeyOut
  | nullSize
  | nullData
  | nullList
  | nullSlice
  | notImplemented
  | unknownAlgorithm
  | invalidKey
  | invalidKeyType
  | insufficientBufferSize
  | unexpectedNull
  | noResources
  | implementationSpecific
  | nullSliceKey
  | nullSliceSalt
  | nullSliceInfo
  | nullSliceIkm
  | nullSlicePrk
  deriving DecidableEq, Repr

/-- `include/nat20/crypto.h` 134-152: `n20_crypto_gather_list_t`; `list` are the accessible slices at the list pointer. -/
structure GatherList where
  count : UInt64
  list : Option (List Slice)
  deriving DecidableEq, Repr

/-- What a call with an output buffer and an in/out size leaves behind
(the return value, `digest_out` and `digest_size_in_out` of `crypto.c` 59-147; likewise for the other functions). -/
structure Reply where
  err : N20Error
  out : Option Bytes
  size : Option UInt64
  deriving DecidableEq, Repr

/-- `crypto.c` 40-53: `digest_enum_to_size`; the enumerators (`include/nat20/crypto.h` 36-53) are 0, 1, 2, 3. -/
def digestEnumToSize (alg : UInt32) : UInt64 :=
  if alg = 0 then 28 else if alg = 1 then 32 else if alg = 2 then 48 else if alg = 3 then 64 else 0

/-- `crypto.c` 28-33: `n20_digest_state_t`.  Simplification: both members of the union are present; each algorithm uses one. -/
structure DigestState where
  sha256 : ShaState 32
  sha512 : ShaState 64

/-- `crypto.c` 159: `n20_digest_state_t state = {0};`. -/
def DigestState.zero : DigestState := ⟨shaInit (Vector.replicate 8 0), shaInit (Vector.replicate 8 0)⟩

/-- `crypto.c` 65-80: the first switch of `n20_digest_internal`. -/
def digestInit (st : DigestState) (alg : UInt32) : Option DigestState :=
  if alg = 0 then some { st with sha256 := sha224Init }
  else if alg = 1 then some { st with sha256 := sha256Init }
  else if alg = 2 then some { st with sha512 := sha384Init }
  else if alg = 3 then some { st with sha512 := sha512Init }
  else none

/-- `crypto.c` 114-123: the update of the selected state. -/
def digestUpdate (alg : UInt32) (st : DigestState) (s : Slice) : Except UB DigestState :=
  if alg = 0 ∨ alg = 1 then do
    let r ← sha256Update (some st.sha256) s
    .ok { st with sha256 := r.getD st.sha256 }
  else do
    let r ← sha512Update (some st.sha512) s
    .ok { st with sha512 := r.getD st.sha512 }

/-- `crypto.c` 108-124: the loop over the slices of one list; the first argument is `msg_in[j].count - i`. -/
def digestList (alg : UInt32) : Nat → List Slice → DigestState → Except UB (N20Error × DigestState)
  | 0, _, st => .ok (.ok, st)
  | _ + 1, [], _ => .error .oobRead
  | n + 1, s :: rest, st =>
    if s.size = 0 then digestList alg n rest st
    else match s.buffer with
      | none => .ok (.nullSlice, st)
      | some _ => do
        let st ← digestUpdate alg st s
        digestList alg n rest st

/-- `crypto.c` 109: evaluating `msg_in[j].list[i]` for a gather list. -/
def digestGather (alg : UInt32) (g : GatherList) (st : DigestState) : Except UB (N20Error × DigestState) :=
  match g.list with
  | none => if g.count = 0 then .ok (.ok, st) else .error .nullDeref
  | some l => digestList alg g.count.toNat l st

/-- `crypto.c` 107-125: the loop over the gather lists; the first argument is `msg_count - j`. -/
def digestLists (alg : UInt32) : Nat → List GatherList → DigestState → Except UB (N20Error × DigestState)
  | 0, _, st => .ok (.ok, st)
  | _ + 1, [], _ => .error .oobRead
  | n + 1, g :: rest, st => do
    let r ← digestGather alg g st
    if r.1 = .ok then digestLists alg n rest r.2 else .ok r

/-- `crypto.c` 127-142: the second switch. -/
def digestFinalize (alg : UInt32) (st : DigestState) (out : Option Bytes) : Except UB (Option Bytes) :=
  if alg = 0 then do let r ← sha224Finalize (some st.sha256) out; .ok r.2
  else if alg = 1 then do let r ← sha256Finalize (some st.sha256) out; .ok r.2
  else if alg = 2 then do let r ← sha384Finalize (some st.sha512) out; .ok r.2
  else do let r ← sha512Finalize (some st.sha512) out; .ok r.2

/-- `crypto.c` 99-146: `n20_digest_internal` from the check of the message on. -/
def digestMessage (st : DigestState) (alg : UInt32) (msg : Option (List GatherList)) (count : UInt64) (out : Option Bytes) (size : UInt64) :
    Except UB Reply :=
  match msg with
  | none => .ok ⟨.nullData, out, some size⟩
  | some [] => .error .oobRead
  | some (g :: gs) =>
    if g.count ≠ 0 ∧ g.list = none then .ok ⟨.nullList, out, some size⟩
    else do
      let r ← digestLists alg count.toNat (g :: gs) st
      if r.1 = .ok then do
        let o ← digestFinalize alg r.2 out
        .ok ⟨.ok, o, some (digestEnumToSize alg)⟩
      else .ok ⟨r.1, out, some size⟩

/-- `crypto.c` 59-147: `n20_digest_internal`. -/
def digestInternal (st : DigestState) (alg : UInt32) (msg : Option (List GatherList)) (count : UInt64) (out : Option Bytes)
    (size : Option UInt64) : Except UB Reply :=
  match digestInit st alg with
  | none => .ok ⟨.unknownAlgorithm, out, size⟩
  | some st =>
    match size with
    | none => .ok ⟨.nullSize, out, size⟩
    | some sz =>
      if digestEnumToSize alg > sz ∨ out = none then .ok ⟨.insufficientBufferSize, out, some (digestEnumToSize alg)⟩
      else digestMessage st alg msg count out sz

/-- The type of `n20_crypto_digest_context_t.digest`, without the context (`include/nat20/crypto.h` 255-260). -/
abbrev DigestFn := UInt32 → Option (List GatherList) → UInt64 → Option Bytes → Option UInt64 → Except UB Reply
/-- The type of `n20_crypto_digest_context_t.hmac` (`include/nat20/crypto.h` 318-323). -/
abbrev HmacFn := UInt32 → Slice → Option GatherList → Option Bytes → Option UInt64 → Except UB Reply
/-- The type of `n20_crypto_digest_context_t.hkdf_extract`: algorithm, ikm, salt, prk, prk size (`include/nat20/crypto.h` 420-425). -/
abbrev ExtractFn := UInt32 → Slice → Slice → Option Bytes → Option UInt64 → Except UB Reply
/-- The type of `n20_crypto_digest_context_t.hkdf_expand`: algorithm, prk, info, number of octets, output
(`include/nat20/crypto.h` 466-471). -/
abbrev ExpandFn := UInt32 → Slice → Slice → UInt64 → Option Bytes → Except UB (N20Error × Option Bytes)
/-- The type of `n20_crypto_digest_context_t.hkdf`: algorithm, ikm, salt, info, number of octets, output
(`include/nat20/crypto.h` 367-373). -/
abbrev HkdfFn := UInt32 → Slice → Slice → Slice → UInt64 → Option Bytes → Except UB (N20Error × Option Bytes)

/-- `crypto.c` 149-166: `n20_digest`.  A context is represented by the members the function uses, here none. -/
def n20Digest (ctx : Option Unit) : DigestFn := fun alg msg count out size =>
  match ctx with
  | none => .ok ⟨.invalidContext, out, size⟩
  | some _ => digestInternal DigestState.zero alg msg count out size

/-- `crypto.c` 211-225: `K` becomes the key or its digest. -/
def hmacKey (digest : DigestFn) (alg : UInt32) (key : Slice) (block digestSize : UInt64) (K : Bytes) : Except UB (N20Error × Bytes × UInt64) :=
  if key.size > block then do
    let r ← digest alg (some [⟨1, some [key]⟩]) 1 (some K) (some digestSize)
    .ok (r.err, r.out.getD K, r.size.getD digestSize)
  else do
    let K ← memcpy (some K) 0 key.buffer key.size
    .ok (.ok, K, digestSize)

/-- `crypto.c` 229-231, 260-265: `K[i] ^= x` for the octets of a block. -/
def hmacXor (block : UInt64) (x : UInt8) (K : Bytes) : Bytes := (K.take block.toNat).map (· ^^^ x) ++ K.drop block.toNat

/-- `crypto.c` 260-276: the outer digest. -/
def hmacOuter (digest : DigestFn) (alg : UInt32) (block digestSize : UInt64) (K inner : Bytes) (out : Option Bytes) (size : UInt64) : Except UB Reply :=
  digest alg (some [⟨1, some [⟨block, localPtr (hmacXor block 0x6a K)⟩]⟩, ⟨1, some [⟨digestSize, localPtr inner⟩]⟩]) 2 out (some size)

/-- `crypto.c` 229-276: `n20_hmac_internal` once `K` holds the padded key. -/
def hmacBody (digest : DigestFn) (alg : UInt32) (block digestSize : UInt64) (K inner : Bytes) (msg : Option GatherList) (out : Option Bytes) (size : UInt64) :
    Except UB Reply :=
  match msg with
  | none => .ok ⟨.nullData, out, some size⟩
  | some g =>
    if g.count ≠ 0 ∧ g.list = none then .ok ⟨.nullList, out, some size⟩
    else do
      let K := hmacXor block 0x36 K
      let r ← digest alg (some [⟨1, some [⟨block, localPtr K⟩]⟩, g]) 2 (some inner) (some digestSize)
      if r.err = .ok then hmacOuter digest alg block (r.size.getD digestSize) K (r.out.getD inner) out size
      else .ok ⟨r.err, out, some size⟩

/-- `crypto.c` 183-194: the block size. -/
def hmacBlock (alg : UInt32) : UInt64 := if alg = 0 ∨ alg = 1 then 64 else 128

/-- `crypto.c` 170-277: `n20_hmac_internal`. -/
def hmacInternal (digest : DigestFn) (K inner : Bytes) : HmacFn := fun alg key msg out size =>
  if digestEnumToSize alg = 0 then .ok ⟨.unknownAlgorithm, out, size⟩
  else match size with
    | none => .ok ⟨.nullSize, out, size⟩
    | some sz =>
      if key.buffer = none ∧ key.size ≠ 0 then .ok ⟨.nullSliceKey, out, size⟩
      else if out = none ∨ sz < digestEnumToSize alg then .ok ⟨.insufficientBufferSize, out, some (digestEnumToSize alg)⟩
      else do
        let r ← hmacKey digest alg key (hmacBlock alg) (digestEnumToSize alg) K
        if r.1 = .ok then hmacBody digest alg (hmacBlock alg) r.2.2 r.2.1 inner msg out sz
        else .ok ⟨r.1, out, size⟩

/-- `crypto.c` 279-300: `n20_hmac`. -/
def n20Hmac (ctx : Option DigestFn) : HmacFn := fun alg key msg out size =>
  match ctx with
  | none => .ok ⟨.invalidContext, out, size⟩
  | some digest => hmacInternal digest (List.replicate 128 0) (List.replicate 64 0) alg key msg out size

/-- `crypto.c` 343-380: `n20_hkdf_extract`. -/
def n20HkdfExtract (ctx : Option HmacFn) : ExtractFn := fun alg ikm salt prk size =>
  match ctx with
  | none => .ok ⟨.invalidContext, prk, size⟩
  | some hmac =>
    if digestEnumToSize alg = 0 then .ok ⟨.unknownAlgorithm, prk, size⟩
    else if ikm.buffer = none ∧ ikm.size ≠ 0 then .ok ⟨.nullSliceIkm, prk, size⟩
    else if salt.buffer = none ∧ salt.size ≠ 0 then .ok ⟨.nullSliceSalt, prk, size⟩
    else match size with
      | none => .ok ⟨.nullSize, prk, size⟩
      | some sz =>
        if sz < digestEnumToSize alg ∨ prk = none then .ok ⟨.insufficientBufferSize, prk, some (digestEnumToSize alg)⟩
        else hmac alg salt (some ⟨1, some [ikm]⟩) prk size

/-- `crypto.c` 415-425: `hmac_inputs`; `prev` is the position and size of the previous block in the output memory. -/
def expandInput (mem : Bytes) (prev : Option (Nat × UInt64)) (info : Slice) (i : UInt8) : GatherList :=
  ⟨3, some [match prev with
    | none => ⟨0, none⟩
    | some (off, n) => ⟨n, some ⟨mem.take off, mem.drop off⟩⟩, info, ⟨1, localPtr [i]⟩]⟩

/-- The variables of the loop in `n20_hkdf_expand` (`crypto.c` 413-438). -/
structure ExpandState where
  keyOctets : UInt64
  digestSize : UInt64
  mem : Bytes
  off : Nat
  prev : Option (Nat × UInt64)
  i : UInt8

/-- `crypto.c` 430-438: the body of the loop; the result of `ctx->hmac` is ignored. -/
def expandStep (hmac : HmacFn) (alg : UInt32) (prk info : Slice) (s : ExpandState) : Except UB ExpandState := do
  let r ← hmac alg prk (some (expandInput s.mem s.prev info s.i)) (some (s.mem.drop s.off)) (some s.digestSize)
  let n := r.size.getD s.digestSize
  .ok ⟨s.keyOctets - n, n, s.mem.take s.off ++ r.out.getD (s.mem.drop s.off), s.off + n.toNat, some (s.off, n), s.i + 1⟩

/-- `crypto.c` 429-439: the loop.  The first argument bounds the number of iterations: `key_octets` of them are enough
unless `ctx->hmac` changes the size to 0. -/
def expandLoop (hmac : HmacFn) (alg : UInt32) (prk info : Slice) : Nat → ExpandState → Except UB ExpandState
  | 0, _ => .error .diverges
  | fuel + 1, s =>
    if s.keyOctets ≥ s.digestSize then do
      let s ← expandStep hmac alg prk info s
      expandLoop hmac alg prk info fuel s
    else .ok s

/-- `crypto.c` 446-458: the last, incomplete block. -/
def expandRest (hmac : HmacFn) (alg : UInt32) (prk info : Slice) (s : ExpandState) : Except UB (N20Error × Option Bytes) :=
  if s.keyOctets > 0 then do
    let T : Bytes := List.replicate 64 0
    let r ← hmac alg prk (some (expandInput s.mem s.prev info s.i)) (some T) (some s.digestSize)
    if r.err = .ok then do
      let mem ← memcpy (some s.mem) (UInt64.ofNat s.off) (localPtr (r.out.getD T)) s.keyOctets
      .ok (.ok, some mem)
    else .ok (r.err, some s.mem)
  else .ok (.ok, some s.mem)

/-- `crypto.c` 382-459: `n20_hkdf_expand`. -/
def n20HkdfExpand (ctx : Option HmacFn) : ExpandFn := fun alg prk info keyOctets out =>
  match ctx with
  | none => .ok (.invalidContext, out)
  | some hmac =>
    if digestEnumToSize alg = 0 then .ok (.unknownAlgorithm, out)
    else if prk.buffer = none ∧ prk.size ≠ 0 then .ok (.nullSlicePrk, out)
    else if info.buffer = none ∧ info.size ≠ 0 then .ok (.nullSliceInfo, out)
    else if keyOctets = 0 then .ok (.ok, out)
    else match out with
      | none => .ok (.insufficientBufferSize, none)
      | some mem => do
        let s ← expandLoop hmac alg prk info (keyOctets.toNat + 1) ⟨keyOctets, digestEnumToSize alg, mem, 0, none, 1⟩
        expandRest hmac alg prk info s

/-- `crypto.c` 302-341: `n20_hkdf`. -/
def n20Hkdf (ctx : Option (ExtractFn × ExpandFn)) : HkdfFn := fun alg ikm salt info keyOctets out =>
  match ctx with
  | none => .ok (.invalidContext, out)
  | some (extract, expand) =>
    if digestEnumToSize alg = 0 then .ok (.unknownAlgorithm, out)
    else if ikm.buffer = none ∧ ikm.size ≠ 0 then .ok (.nullSliceIkm, out)
    else if salt.buffer = none ∧ salt.size ≠ 0 then .ok (.nullSliceSalt, out)
    else if info.buffer = none ∧ info.size ≠ 0 then .ok (.nullSliceInfo, out)
    else do
      let prk : Bytes := List.replicate 64 0
      let r ← extract alg ikm salt (some prk) (some (digestEnumToSize alg))
      if r.err = .ok then expand alg ⟨r.size.getD (digestEnumToSize alg), localPtr (r.out.getD prk)⟩ info keyOctets out
      else .ok (r.err, out)

/-- `include/nat20/crypto.h` 163-471: `n20_crypto_digest_context_t`. -/
structure DigestCtx where
  digest : DigestFn
  hmac : HmacFn
  hkdf : HkdfFn
  hkdfExtract : ExtractFn
  hkdfExpand : ExpandFn

/-- `crypto.c` 461-467: `n20_crypto_digest_context`. -/
def nat20Ctx : DigestCtx :=
  let digest := n20Digest (some ())
  let hmac := n20Hmac (some digest)
  let extract := n20HkdfExtract (some hmac)
  let expand := n20HkdfExpand (some hmac)
  ⟨digest, hmac, n20Hkdf (some (extract, expand)), extract, expand⟩

/-- `crypto.c` 469-476: `n20_crypto_nat20_open`; `ctx` is the contents of `*ctx_out`. -/
def nat20Open (ctxOut : Option (Option DigestCtx)) : N20Error × Option (Option DigestCtx) :=
  match ctxOut with
  | none => (.unexpectedNull, none)
  | some _ => (.ok, some (some nat20Ctx))

/-- `crypto.c` 478-484: `n20_crypto_nat20_close`. -/
def nat20Close (ctx : Option DigestCtx) : N20Error :=
  match ctx with
  | none => .unexpectedNull
  | some _ => .ok

end Nat20
