import Verif.Model.Sized
import Verif.Model.Digest
/-!
# The native digest functions with another `size_t`

The functions of `Model/Sha2` and `Model/Digest` in which `size_t` occurs, once more, for a `size_t` of `w` bits.  Words of SHA-2 have `b` bits here.
`crypto.c` stands for `src/crypto/nat20/crypto.c`.
-/

namespace Nat20.Sized

/-- `sha256.c` 75, `sha512.c` 87: `R_INDEX`, computed in `size_t` (or in `int` if that is wider; the lowest three bits are the same). -/
def rIndex (w i x : Nat) : Fin 8 := Fin.ofNat 8 ((((0 : BitVec w) - BitVec.ofNat w i) + BitVec.ofNat w x) &&& 7).toNat

section
variable (w : Nat) {b : Nat} (P : ShaCode b)

/-- `sha256.c` 98-104 and 111-117, `sha512.c` 110-116 and 123-129: one round, `t1` is the word of the schedule.
Simplification: reading `K` past its end gives 0; `K` has `rounds` elements (C39). -/
def shaRound (j : Nat) (t1 : BitVec b) (R : Vector (BitVec b) 8) : Vector (BitVec b) 8 :=
  let t1 := t1 + R[rIndex w j 7]
  let t1 := t1 + P.SIGMA1 R[rIndex w j 4]
  let t1 := t1 + shaCh R[rIndex w j 4] R[rIndex w j 5] R[rIndex w j 6]
  let t1 := t1 + P.K.getD j 0
  let R := R.set (rIndex w j 7) (t1 + P.SIGMA0 R[rIndex w j 0] + shaMajority R[rIndex w j 0] R[rIndex w j 1] R[rIndex w j 2])
  R.set (rIndex w j 3) (R[rIndex w j 3] + t1)

/-- `sha256.c` 95-105, `sha512.c` 107-117: the first `n` of the sixteen rounds that use the block directly. -/
def shaRounds16 (W : Vector (BitVec b) 16) (R : Vector (BitVec b) 8) : Nat → Vector (BitVec b) 8
  | 0 => R
  | j + 1 => shaRound w P j W[wIndex j] (shaRounds16 W R j)

/-- `sha256.c` 107-118, `sha512.c` 119-130: `n` further rounds. -/
def shaRoundsExt (s : Vector (BitVec b) 16 × Vector (BitVec b) 8) : Nat → Vector (BitVec b) 16 × Vector (BitVec b) 8
  | 0 => s
  | n + 1 =>
    let (W, R) := shaRoundsExt s n
    let j := 16 + n
    let t1 := W[wIndex j] + (P.sigma1 W[wIndex (j - 2)] + W[wIndex (j - 7)] + P.sigma0 W[wIndex (j - 15)])
    (W.set (wIndex j) t1, shaRound w P j t1 R)

/-- `sha256.c` 86-129, `sha512.c` 98-141: `n20_sha256_main`, `n20_sha512_main`.  Erasing `R` and `t1` is in `Model/Steps`. -/
def shaMain (s : ShaState b) : ShaState b :=
  let (W, R) := shaRoundsExt w P (s.W, shaRounds16 w P s.W s.H 16) (P.rounds - 16)
  { s with W := W, H := Vector.zipWith (· + ·) s.H R, fill := 0 }

/-- `sha256.c` 139-153, `sha512.c` 151-165: the outer loop.  The first argument bounds the number of iterations; it is chosen
such that it is never used up, as every iteration but perhaps the first consumes an octet. -/
def shaUpdateLoop : Nat → ShaState b → Bytes → Except UB (ShaState b)
  | 0, s, _ => .ok s
  | fuel + 1, s, data =>
    if data = [] then .ok s
    else do
      let (s, j, rest) ← shaFill P s s.fill.toNat data
      if j < P.block then .ok { s with fill := UInt32.ofNat j } else shaUpdateLoop fuel (shaMain w P s) rest

/-- `sha256.c` 131-154, `sha512.c` 143-166: `n20_sha256_update`, `n20_sha512_update`. -/
def shaUpdate (state : Option (ShaState b)) (data : Slice w) : Except UB (Option (ShaState b)) :=
  match state, data.buffer with
  | some s, some p =>
    if p.data.length < data.size.toNat then .error .oobRead
    else do
      let s := { s with total := s.total + toUInt64 data.size }
      let s ← shaUpdateLoop w P (data.size.toNat + 1) s (p.data.take data.size.toNat)
      .ok (some s)
  | state, _ => .ok state

/-- `sha256.c` 181-188, `sha512.c` 193-200: the case of a block without space for the length. -/
def shaFinishBlock (s : ShaState b) (i : Nat) : Except UB (ShaState b × Nat) :=
  if i > P.padLimit then do
    let s ← shaShiftLoop P (fun _ => 0) (P.block - i) i s
    .ok (shaMain w P s, 0)
  else .ok (s, i)

/-- `sha256.c` 159-218, `sha512.c` 171-234: `n20_sha224_sha256_finalize`, `n20_sha384_sha512_finalize`; `digest` is the
accessible memory at the output pointer.  Returns the new state and the new contents of that memory. -/
def shaFinalize (state : Option (ShaState b)) (digest : Option Bytes) (size : Nat) :
    Except UB (Option (ShaState b) × Option Bytes) :=
  match state with
  | none => .ok (none, digest)
  | some s => do
    let i := s.fill.toNat
    let s ← shaShiftIn P s i 0x80
    let (s, i) ← shaFinishBlock w P s (i + 1)
    let s ← shaShiftLoop P (fun _ => 0) (P.lengthAt - i) i s
    let s ← shaShiftLoop P (shaLengthByte P s.total) (P.block - P.lengthAt) P.lengthAt s
    let s := shaMain w P s
    match digest with
    | none => .error .nullDeref
    | some d =>
      if d.length < size then .error .oobWrite
      else .ok (some s, some ((List.range size).map (shaDigestByte P s.H) ++ d.drop size))

end

/-- `sha256.c` 131-157: `n20_sha256_update`, of which `n20_sha224_update` is an alias. -/
def sha256Update (w : Nat) := shaUpdate w sha256Code

/-- `sha512.c` 143-169: `n20_sha512_update`, of which `n20_sha384_update` is an alias. -/
def sha512Update (w : Nat) := shaUpdate w sha512Code

/-- `sha256.c` 220-222: `n20_sha256_finalize`. -/
def sha256Finalize (w : Nat) (s : Option (ShaState 32)) (d : Option Bytes) := shaFinalize w sha256Code s d 32

/-- `sha256.c` 224-226: `n20_sha224_finalize`. -/
def sha224Finalize (w : Nat) (s : Option (ShaState 32)) (d : Option Bytes) := shaFinalize w sha256Code s d 28

/-- `sha512.c` 236-238: `n20_sha512_finalize`. -/
def sha512Finalize (w : Nat) (s : Option (ShaState 64)) (d : Option Bytes) := shaFinalize w sha512Code s d 64

/-- `sha512.c` 240-242: `n20_sha384_finalize`. -/
def sha384Finalize (w : Nat) (s : Option (ShaState 64)) (d : Option Bytes) := shaFinalize w sha512Code s d 48

section
variable {w : Nat}

/-- `include/nat20/crypto.h` 134-152: `n20_crypto_gather_list_t`; `list` are the accessible slices at the list pointer. -/
structure GatherList (w : Nat) where
  count : BitVec w
  list : Option (List (Slice w))
  deriving DecidableEq, Repr

/-- What a call with an output buffer and an in/out size leaves behind
(the return value, `digest_out` and `digest_size_in_out` of `crypto.c` 59-147; likewise for the other functions). -/
structure Reply (w : Nat) where
  err : N20Error
  out : Option Bytes
  size : Option (BitVec w)
  deriving DecidableEq, Repr

/-- `crypto.c` 40-53: `digest_enum_to_size`; the enumerators (`include/nat20/crypto.h` 36-53) are 0, 1, 2, 3. -/
def digestEnumToSize (alg : UInt32) : BitVec w :=
  if alg = 0 then 28 else if alg = 1 then 32 else if alg = 2 then 48 else if alg = 3 then 64 else 0

/-- `crypto.c` 114-123: the update of the selected state. -/
def digestUpdate (alg : UInt32) (st : DigestState) (s : Slice w) : Except UB DigestState :=
  if alg = 0 ∨ alg = 1 then do
    let r ← sha256Update w (some st.sha256) s
    .ok { st with sha256 := r.getD st.sha256 }
  else do
    let r ← sha512Update w (some st.sha512) s
    .ok { st with sha512 := r.getD st.sha512 }

/-- `crypto.c` 108-124: the loop over the slices of one list; the first argument is `msg_in[j].count - i`. -/
def digestList (alg : UInt32) : Nat → List (Slice w) → DigestState → Except UB (N20Error × DigestState)
  | 0, _, st => .ok (.ok, st)
  | _ + 1, [], _ => .error .oobRead
  | n + 1, s :: rest, st =>
    if s.size = 0 then digestList alg n rest st
    else match s.buffer with
      | none => .ok (.nullSlice, st)
      | some _ => do
        let st ← digestUpdate alg st s
        digestList alg n rest st

/-- `crypto.c` 109: evaluating `msg_in[j].list[i]` for a gather list. -/
def digestGather (alg : UInt32) (g : GatherList w) (st : DigestState) : Except UB (N20Error × DigestState) :=
  match g.list with
  | none => if g.count = 0 then .ok (.ok, st) else .error .nullDeref
  | some l => digestList alg g.count.toNat l st

/-- `crypto.c` 107-125: the loop over the gather lists; the first argument is `msg_count - j`. -/
def digestLists (alg : UInt32) : Nat → List (GatherList w) → DigestState → Except UB (N20Error × DigestState)
  | 0, _, st => .ok (.ok, st)
  | _ + 1, [], _ => .error .oobRead
  | n + 1, g :: rest, st => do
    let r ← digestGather alg g st
    if r.1 = .ok then digestLists alg n rest r.2 else .ok r

/-- `crypto.c` 127-142: the second switch. -/
def digestFinalize (w : Nat) (alg : UInt32) (st : DigestState) (out : Option Bytes) : Except UB (Option Bytes) :=
  if alg = 0 then do let r ← sha224Finalize w (some st.sha256) out; .ok r.2
  else if alg = 1 then do let r ← sha256Finalize w (some st.sha256) out; .ok r.2
  else if alg = 2 then do let r ← sha384Finalize w (some st.sha512) out; .ok r.2
  else do let r ← sha512Finalize w (some st.sha512) out; .ok r.2

/-- `crypto.c` 99-146: `n20_digest_internal` from the check of the message on. -/
def digestMessage (st : DigestState) (alg : UInt32) (msg : Option (List (GatherList w))) (count : BitVec w) (out : Option Bytes) (size : BitVec w) :
    Except UB (Reply w) :=
  match msg with
  | none => .ok ⟨.nullData, out, some size⟩
  | some [] => .error .oobRead
  | some (g :: gs) =>
    if g.count ≠ 0 ∧ g.list = none then .ok ⟨.nullList, out, some size⟩
    else do
      let r ← digestLists alg count.toNat (g :: gs) st
      if r.1 = .ok then do
        let o ← digestFinalize w alg r.2 out
        .ok ⟨.ok, o, some (digestEnumToSize alg)⟩
      else .ok ⟨r.1, out, some size⟩

/-- `crypto.c` 59-147: `n20_digest_internal`. -/
def digestInternal (st : DigestState) (alg : UInt32) (msg : Option (List (GatherList w))) (count : BitVec w) (out : Option Bytes)
    (size : Option (BitVec w)) : Except UB (Reply w) :=
  match digestInit st alg with
  | none => .ok ⟨.unknownAlgorithm, out, size⟩
  | some st =>
    match size with
    | none => .ok ⟨.nullSize, out, size⟩
    | some sz =>
      if digestEnumToSize alg > sz ∨ out = none then .ok ⟨.insufficientBufferSize, out, some (digestEnumToSize alg)⟩
      else digestMessage st alg msg count out sz

/-- The type of `n20_crypto_digest_context_t.digest`, without the context (`include/nat20/crypto.h` 255-260). -/
abbrev DigestFn (w : Nat) := UInt32 → Option (List (GatherList w)) → BitVec w → Option Bytes → Option (BitVec w) → Except UB (Reply w)
/-- The type of `n20_crypto_digest_context_t.hmac` (`include/nat20/crypto.h` 318-323). -/
abbrev HmacFn (w : Nat) := UInt32 → Slice w → Option (GatherList w) → Option Bytes → Option (BitVec w) → Except UB (Reply w)
/-- The type of `n20_crypto_digest_context_t.hkdf_extract`: algorithm, ikm, salt, prk, prk size (`include/nat20/crypto.h` 420-425). -/
abbrev ExtractFn (w : Nat) := UInt32 → Slice w → Slice w → Option Bytes → Option (BitVec w) → Except UB (Reply w)
/-- The type of `n20_crypto_digest_context_t.hkdf_expand`: algorithm, prk, info, number of octets, output
(`include/nat20/crypto.h` 466-471). -/
abbrev ExpandFn (w : Nat) := UInt32 → Slice w → Slice w → BitVec w → Option Bytes → Except UB (N20Error × Option Bytes)
/-- The type of `n20_crypto_digest_context_t.hkdf`: algorithm, ikm, salt, info, number of octets, output
(`include/nat20/crypto.h` 367-373). -/
abbrev HkdfFn (w : Nat) := UInt32 → Slice w → Slice w → Slice w → BitVec w → Option Bytes → Except UB (N20Error × Option Bytes)

/-- `crypto.c` 149-166: `n20_digest`.  A context is represented by the members the function uses, here none. -/
def n20Digest (ctx : Option Unit) : DigestFn w := fun alg msg count out size =>
  match ctx with
  | none => .ok ⟨.invalidContext, out, size⟩
  | some _ => digestInternal DigestState.zero alg msg count out size

/-- `crypto.c` 211-225: `K` becomes the key or its digest. -/
def hmacKey (digest : DigestFn w) (alg : UInt32) (key : Slice w) (block digestSize : BitVec w) (K : Bytes) : Except UB (N20Error × Bytes × BitVec w) :=
  if key.size > block then do
    let r ← digest alg (some [⟨1, some [key]⟩]) 1 (some K) (some digestSize)
    .ok (r.err, r.out.getD K, r.size.getD digestSize)
  else do
    let K ← memcpy (some K) 0 key.buffer key.size
    .ok (.ok, K, digestSize)

/-- `crypto.c` 229-231, 260-265: `K[i] ^= x` for the octets of a block. -/
def hmacXor (block : BitVec w) (x : UInt8) (K : Bytes) : Bytes := (K.take block.toNat).map (· ^^^ x) ++ K.drop block.toNat

/-- `crypto.c` 260-276: the outer digest. -/
def hmacOuter (digest : DigestFn w) (alg : UInt32) (block digestSize : BitVec w) (K inner : Bytes) (out : Option Bytes) (size : BitVec w) : Except UB (Reply w) :=
  digest alg (some [⟨1, some [⟨block, localPtr (hmacXor block 0x6a K)⟩]⟩, ⟨1, some [⟨digestSize, localPtr inner⟩]⟩]) 2 out (some size)

/-- `crypto.c` 229-276: `n20_hmac_internal` once `K` holds the padded key. -/
def hmacBody (digest : DigestFn w) (alg : UInt32) (block digestSize : BitVec w) (K inner : Bytes) (msg : Option (GatherList w)) (out : Option Bytes) (size : BitVec w) :
    Except UB (Reply w) :=
  match msg with
  | none => .ok ⟨.nullData, out, some size⟩
  | some g =>
    if g.count ≠ 0 ∧ g.list = none then .ok ⟨.nullList, out, some size⟩
    else do
      let K := hmacXor block 0x36 K
      let r ← digest alg (some [⟨1, some [⟨block, localPtr K⟩]⟩, g]) 2 (some inner) (some digestSize)
      if r.err = .ok then hmacOuter digest alg block (r.size.getD digestSize) K (r.out.getD inner) out size
      else .ok ⟨r.err, out, some size⟩

/-- `crypto.c` 183-194: the block size. -/
def hmacBlock (alg : UInt32) : BitVec w := if alg = 0 ∨ alg = 1 then 64 else 128

/-- `crypto.c` 170-277: `n20_hmac_internal`. -/
def hmacInternal (digest : DigestFn w) (K inner : Bytes) : HmacFn w := fun alg key msg out size =>
  if digestEnumToSize alg = (0 : BitVec w) then .ok ⟨.unknownAlgorithm, out, size⟩
  else match size with
    | none => .ok ⟨.nullSize, out, size⟩
    | some sz =>
      if key.buffer = none ∧ key.size ≠ 0 then .ok ⟨.nullSliceKey, out, size⟩
      else if out = none ∨ sz < digestEnumToSize alg then .ok ⟨.insufficientBufferSize, out, some (digestEnumToSize alg)⟩
      else do
        let r ← hmacKey digest alg key (hmacBlock alg) (digestEnumToSize alg) K
        if r.1 = .ok then hmacBody digest alg (hmacBlock alg) r.2.2 r.2.1 inner msg out sz
        else .ok ⟨r.1, out, size⟩

/-- `crypto.c` 279-300: `n20_hmac`. -/
def n20Hmac (ctx : Option (DigestFn w)) : HmacFn w := fun alg key msg out size =>
  match ctx with
  | none => .ok ⟨.invalidContext, out, size⟩
  | some digest => hmacInternal digest (List.replicate 128 0) (List.replicate 64 0) alg key msg out size

/-- `crypto.c` 343-380: `n20_hkdf_extract`. -/
def n20HkdfExtract (ctx : Option (HmacFn w)) : ExtractFn w := fun alg ikm salt prk size =>
  match ctx with
  | none => .ok ⟨.invalidContext, prk, size⟩
  | some hmac =>
    if digestEnumToSize alg = (0 : BitVec w) then .ok ⟨.unknownAlgorithm, prk, size⟩
    else if ikm.buffer = none ∧ ikm.size ≠ 0 then .ok ⟨.nullSliceIkm, prk, size⟩
    else if salt.buffer = none ∧ salt.size ≠ 0 then .ok ⟨.nullSliceSalt, prk, size⟩
    else match size with
      | none => .ok ⟨.nullSize, prk, size⟩
      | some sz =>
        if sz < digestEnumToSize alg ∨ prk = none then .ok ⟨.insufficientBufferSize, prk, some (digestEnumToSize alg)⟩
        else hmac alg salt (some ⟨1, some [ikm]⟩) prk size

/-- `crypto.c` 415-425: `hmac_inputs`; `prev` is the position and size of the previous block in the output memory. -/
def expandInput (mem : Bytes) (prev : Option (Nat × BitVec w)) (info : Slice w) (i : UInt8) : GatherList w :=
  ⟨3, some [match prev with
    | none => ⟨0, none⟩
    | some (off, n) => ⟨n, some ⟨mem.take off, mem.drop off⟩⟩, info, ⟨1, localPtr [i]⟩]⟩

/-- The variables of the loop in `n20_hkdf_expand` (`crypto.c` 413-438). -/
structure ExpandState (w : Nat) where
  keyOctets : BitVec w
  digestSize : BitVec w
  mem : Bytes
  off : Nat
  prev : Option (Nat × BitVec w)
  i : UInt8

/-- `crypto.c` 430-438: the body of the loop; the result of `ctx->hmac` is ignored. -/
def expandStep (hmac : HmacFn w) (alg : UInt32) (prk info : Slice w) (s : ExpandState w) : Except UB (ExpandState w) := do
  let r ← hmac alg prk (some (expandInput s.mem s.prev info s.i)) (some (s.mem.drop s.off)) (some s.digestSize)
  let n := r.size.getD s.digestSize
  .ok ⟨s.keyOctets - n, n, s.mem.take s.off ++ r.out.getD (s.mem.drop s.off), s.off + n.toNat, some (s.off, n), s.i + 1⟩

/-- `crypto.c` 429-439: the loop.  The first argument bounds the number of iterations: `key_octets` of them are enough
unless `ctx->hmac` changes the size to 0. -/
def expandLoop (hmac : HmacFn w) (alg : UInt32) (prk info : Slice w) : Nat → (ExpandState w) → Except UB (ExpandState w)
  | 0, _ => .error .diverges
  | fuel + 1, s =>
    if s.keyOctets ≥ s.digestSize then do
      let s ← expandStep hmac alg prk info s
      expandLoop hmac alg prk info fuel s
    else .ok s

/-- `crypto.c` 446-458: the last, incomplete block. -/
def expandRest (hmac : HmacFn w) (alg : UInt32) (prk info : Slice w) (s : ExpandState w) : Except UB (N20Error × Option Bytes) :=
  if s.keyOctets > 0 then do
    let T : Bytes := List.replicate 64 0
    let r ← hmac alg prk (some (expandInput s.mem s.prev info s.i)) (some T) (some s.digestSize)
    if r.err = .ok then do
      let mem ← memcpy (some s.mem) (BitVec.ofNat w s.off) (localPtr (r.out.getD T)) s.keyOctets
      .ok (.ok, some mem)
    else .ok (r.err, some s.mem)
  else .ok (.ok, some s.mem)

/-- `crypto.c` 382-459: `n20_hkdf_expand`. -/
def n20HkdfExpand (ctx : Option (HmacFn w)) : ExpandFn w := fun alg prk info keyOctets out =>
  match ctx with
  | none => .ok (.invalidContext, out)
  | some hmac =>
    if digestEnumToSize alg = (0 : BitVec w) then .ok (.unknownAlgorithm, out)
    else if prk.buffer = none ∧ prk.size ≠ 0 then .ok (.nullSlicePrk, out)
    else if info.buffer = none ∧ info.size ≠ 0 then .ok (.nullSliceInfo, out)
    else if keyOctets = 0 then .ok (.ok, out)
    else match out with
      | none => .ok (.insufficientBufferSize, none)
      | some mem => do
        let s ← expandLoop hmac alg prk info (keyOctets.toNat + 1) ⟨keyOctets, digestEnumToSize alg, mem, 0, none, 1⟩
        expandRest hmac alg prk info s

/-- `crypto.c` 302-341: `n20_hkdf`. -/
def n20Hkdf (ctx : Option (ExtractFn w × ExpandFn w)) : HkdfFn w := fun alg ikm salt info keyOctets out =>
  match ctx with
  | none => .ok (.invalidContext, out)
  | some (extract, expand) =>
    if digestEnumToSize alg = (0 : BitVec w) then .ok (.unknownAlgorithm, out)
    else if ikm.buffer = none ∧ ikm.size ≠ 0 then .ok (.nullSliceIkm, out)
    else if salt.buffer = none ∧ salt.size ≠ 0 then .ok (.nullSliceSalt, out)
    else if info.buffer = none ∧ info.size ≠ 0 then .ok (.nullSliceInfo, out)
    else do
      let prk : Bytes := List.replicate 64 0
      let r ← extract alg ikm salt (some prk) (some (digestEnumToSize alg))
      if r.err = .ok then expand alg ⟨r.size.getD (digestEnumToSize alg), localPtr (r.out.getD prk)⟩ info keyOctets out
      else .ok (r.err, out)

/-- `include/nat20/crypto.h` 163-471: `n20_crypto_digest_context_t`. -/
structure DigestCtx (w : Nat) where
  digest : DigestFn w
  hmac : HmacFn w
  hkdf : HkdfFn w
  hkdfExtract : ExtractFn w
  hkdfExpand : ExpandFn w

/-- `crypto.c` 461-467: `n20_crypto_digest_context`. -/
def nat20Ctx : DigestCtx w :=
  let digest := n20Digest (some ())
  let hmac := n20Hmac (some digest)
  let extract := n20HkdfExtract (some hmac)
  let expand := n20HkdfExpand (some hmac)
  ⟨digest, hmac, n20Hkdf (some (extract, expand)), extract, expand⟩

/-- `crypto.c` 469-476: `n20_crypto_nat20_open`; `ctx` is the contents of `*ctx_out`. -/
def nat20Open (ctxOut : Option (Option (DigestCtx w))) : N20Error × Option (Option (DigestCtx w)) :=
  match ctxOut with
  | none => (.unexpectedNull, none)
  | some _ => (.ok, some (some nat20Ctx))

/-- `crypto.c` 478-484: `n20_crypto_nat20_close`. -/
def nat20Close (ctx : Option (DigestCtx w)) : N20Error :=
  match ctx with
  | none => .unexpectedNull
  | some _ => .ok

end

end Nat20.Sized
