import Verif.Spec.Resources
/-!
# Threads that use the reference context

`Model/Boringssl.lean` runs each function of `src/crypto/crypto_boringssl.cpp` (`bssl.cpp`) in one go.  Here the functions are programs that stop at
every access to what threads share: the calls of the library, `new`, `delete`, and the key objects.  Between two such steps of one thread, other
threads make steps of their own.

Simplifications: a call of the library is one step, so the library itself must be fit for use by several threads, as BoringSSL is.  A key object is
read once, when a call starts to use it (its members do not change after its construction).  The memory that the caller passes is not shared, so
reading and writing it is no step.
-/

namespace Nat20

open Fips

/-- What the library answers to one call: whether it succeeded, what it left in its output if not, and the signature it makes if it is asked for one
(the library behind all calls in `bssl.cpp` 104-1020, see `Lib`). -/
structure CallAnswer where
  ok : Bool
  junk : Nat → UInt8
  sign : Curve → Nat → Bytes → Nat × Nat

/-- What is in an output of `n` octets after a call that failed (e.g. the output of `HKDF_expand`, `bssl.cpp` 355). -/
def CallAnswer.output (c : CallAnswer) (n : Nat) : Bytes := (List.range n).map c.junk

/-- The answer to call number `n` (see `Lib`; `bssl.cpp` 104-1020). -/
def Lib.answer (lib : Lib) (n : Nat) : CallAnswer := ⟨!lib.fails n, lib.junk n, fun c d h => lib.ecSign c d h n⟩

/-- What the library computes independently of the number of the call (see `Lib`; `bssl.cpp` 536, 715, 800, 964, 984). -/
structure KeyFns where
  edPublic : Bytes → Bytes
  edSign : Bytes → Bytes → Bytes
  ecPublic : Curve → Nat → Nat × Nat
  patience : Nat

/-- See `KeyFns` (`bssl.cpp` 536, 715, 800, 964, 984). -/
def Lib.fns (lib : Lib) : KeyFns := ⟨lib.edPublic, lib.edSign, lib.ecPublic, lib.patience⟩

/-- Programs that call the library: one that is finished, one that has undefined behaviour, and one that calls the library and goes on with its
answer (the functions of `bssl.cpp` 104-1001 between the accesses to the heap). -/
inductive L (α : Type) where
  | done (a : α)
  | fault (e : UB)
  | call (k : CallAnswer → L α)

/-- One program after another (sequencing in `bssl.cpp` 104-1001). -/
def L.bind {α β : Type} : L α → (α → L β) → L β
  | .done a, f => f a
  | .fault e, _ => .fault e
  | .call k, f => .call fun c => (k c).bind f

instance : Monad L where
  pure := .done
  bind := L.bind

/-- A call of the library (e.g. `bssl.cpp` 217, 355, 630, 643). -/
def callL : L CallAnswer := .call .done

/-- The same if the answer is used only to see whether the call succeeded (e.g. `bssl.cpp` 143, 145, 186, 761). -/
def libCallL : L Bool := .call fun c => .done c.ok

/-- Undefined behaviour that is a consequence of memory accesses (`bssl.cpp` 149-162, 221-227, 372-379). -/
def liftL {α : Type} : Except UB α → L α
  | .ok a => .done a
  | .error e => .fault e

/-- The same with an error code, as `BE` (`bssl.cpp` 405, 641). -/
abbrev LE := ExceptT N20Error L

/-- As `need` (`bssl.cpp` 405-587, 643-733: `if (!call) { return error; }`). -/
def needL (e : N20Error) : LE Unit := (.call fun c => .done (if c.ok then .ok () else .error e) : L _)

/-- The same if what the call left in memory matters later (`bssl.cpp` 826, 836). -/
def needAnswerL (e : N20Error) : LE CallAnswer := (.call fun c => .done (if c.ok then .ok c else .error e) : L _)

/-- `HKDF_expand`: fails for more than 255 digests (`bssl.cpp` 355, 630). -/
def libExpandL (a : Alg) (prk info : Bytes) (n : Nat) : L (Except Bytes Bytes) := do
  let c ← callL
  match c.ok, hkdfExpand a prk info n with
  | true, some okm => return .ok okm
  | true, none => return .error []
  | false, _ => return .error (c.output n)

/-- `bssl.cpp` 135-170: the part of `n20_crypto_boringssl_digest` that needs the message.  The result of `EVP_MD_CTX_new` is not
checked before it is used by `EVP_DigestInit`. -/
def bsslDigestMessageL (a : Alg) (msg : Option (List GatherList)) (count : UInt64) (d : Bytes) (sz : UInt64) : L Reply :=
  match msg with
  | none => return ⟨.nullData, some d, some sz⟩
  | some [] => liftL (.error .oobRead)
  | some (g :: gs) =>
    if g.count ≠ 0 ∧ g.list = none then return ⟨.nullList, some d, some sz⟩
    else do
      let new ← libCallL
      if new = false then liftL (.error .nullDeref)
      else do
        let init ← libCallL
        if init = false then return ⟨.noResources, some d, some sz⟩
        else liftL (bsslDigestRun a (g :: gs) count d sz)

/-- `bssl.cpp` 104-171: `n20_crypto_boringssl_digest`. -/
def bsslDigestL (ctx : Option Unit) (alg : UInt32) (msg : Option (List GatherList)) (count : UInt64) (out : Option Bytes)
    (size : Option UInt64) : L Reply :=
  match ctx with
  | none => return ⟨.invalidContext, out, size⟩
  | some _ =>
    match bsslMd alg, size, out with
    | none, _, _ => return ⟨.unknownAlgorithm, out, size⟩
    | some _, none, _ => return ⟨.nullSize, out, size⟩
    | some _, some _, none => return ⟨.insufficientBufferSize, out, some (bsslDigestSize alg)⟩
    | some a, some sz, some d =>
      if bsslDigestSize alg > sz then return ⟨.insufficientBufferSize, out, some (bsslDigestSize alg)⟩
      else bsslDigestMessageL a msg count d sz

/-- `bssl.cpp` 229-234: `HMAC_Final`. -/
def bsslHmacFinalL (a : Alg) (key text : Bytes) (d : Bytes) (sz : UInt64) : L Reply := do
  let c ← callL
  if c.ok = false then do
    let o ← liftL (writeOut (some d) (c.output a.size))
    return ⟨.implementationSpecific, o, some sz⟩
  else do
    let o ← liftL (writeOut (some d) (hmac a key text))
    return ⟨.ok, o, some (UInt64.ofNat a.size)⟩

/-- `bssl.cpp` 209-234: the part of `n20_crypto_boringssl_hmac` that needs the message. -/
def bsslHmacMessageL (a : Alg) (key : Slice) (msg : Option GatherList) (d : Bytes) (sz : UInt64) : L Reply :=
  match msg with
  | none => return ⟨.nullData, some d, some sz⟩
  | some g =>
    if g.count ≠ 0 ∧ g.list = none then return ⟨.nullList, some d, some sz⟩
    else do
      let k ← liftL (readArg key)
      let init ← libCallL
      if init = false then return ⟨.noResources, some d, some sz⟩
      else do
        let r ← liftL (bsslSlices g.count.toNat (g.list.getD []) [])
        if r.1 = .ok then bsslHmacFinalL a k r.2 d sz else return ⟨r.1, some d, some sz⟩

/-- `bssl.cpp` 173-235: `n20_crypto_boringssl_hmac`. -/
def bsslHmacL (ctx : Option Unit) (alg : UInt32) (key : Slice) (msg : Option GatherList) (out : Option Bytes) (size : Option UInt64) : L Reply :=
  match ctx, size with
  | none, _ => return ⟨.invalidContext, out, size⟩
  | some _, none => return ⟨.nullSize, out, size⟩
  | some _, some sz => do
    let new ← libCallL
    if new = false then return ⟨.noResources, out, size⟩
    else match bsslMd alg, out with
      | none, _ => return ⟨.unknownAlgorithm, out, size⟩
      | some a, out =>
        if key.buffer = none ∧ key.size ≠ 0 then return ⟨.nullSliceKey, out, size⟩
        else match out with
          | none => return ⟨.insufficientBufferSize, out, some (bsslDigestSize alg)⟩
          | some d =>
            if bsslDigestSize alg > sz then return ⟨.insufficientBufferSize, out, some (bsslDigestSize alg)⟩
            else bsslHmacMessageL a key msg d sz

/-- `bssl.cpp` 269-282 and 355-358: the tail of `n20_crypto_boringssl_hkdf` and `n20_crypto_boringssl_hkdf_expand`. -/
def bsslExpandOutL (a : Alg) (prk info : Bytes) (keyOctets : UInt64) (out : Option Bytes) : L (N20Error × Option Bytes) := do
  let r ← libExpandL a prk info keyOctets.toNat
  match r with
  | .ok okm => return (.ok, ← liftL (writeOut out okm))
  | .error junk => return (.implementationSpecific, ← liftL (writeOut out junk))

/-- `bssl.cpp` 237-282: `n20_crypto_boringssl_hkdf`. -/
def bsslHkdfL (ctx : Option Unit) (alg : UInt32) (ikm salt info : Slice) (keyOctets : UInt64) (out : Option Bytes) : L (N20Error × Option Bytes) :=
  match ctx, bsslMd alg with
  | none, _ => return (.invalidContext, out)
  | some _, none => return (.unknownAlgorithm, out)
  | some _, some a =>
    if ikm.buffer = none ∧ ikm.size ≠ 0 then return (.nullSliceIkm, out)
    else if salt.buffer = none ∧ salt.size ≠ 0 then return (.nullSliceSalt, out)
    else if info.buffer = none ∧ info.size ≠ 0 then return (.nullSliceInfo, out)
    else if keyOctets ≠ 0 ∧ out = none then return (.insufficientBufferSize, out)
    else do
      let ikm ← liftL (readArg ikm)
      let salt ← liftL (readArg salt)
      let info ← liftL (readArg info)
      bsslExpandOutL a (hkdfExtract a salt ikm) info keyOctets out

/-- `bssl.cpp` 317-321: `HKDF_extract`. -/
def bsslExtractOutL (a : Alg) (salt ikm : Bytes) (d : Bytes) (sz : UInt64) : L Reply := do
  let c ← callL
  if c.ok = false then do
    let o ← liftL (writeOut (some d) (c.output a.size))
    return ⟨.implementationSpecific, o, some sz⟩
  else do
    let o ← liftL (writeOut (some d) (hkdfExtract a salt ikm))
    return ⟨.ok, o, some (UInt64.ofNat a.size)⟩

/-- `bssl.cpp` 284-322: `n20_crypto_boringssl_hkdf_extract`. -/
def bsslExtractL (ctx : Option Unit) (alg : UInt32) (ikm salt : Slice) (prk : Option Bytes) (size : Option UInt64) : L Reply :=
  match ctx, bsslMd alg with
  | none, _ => return ⟨.invalidContext, prk, size⟩
  | some _, none => return ⟨.unknownAlgorithm, prk, size⟩
  | some _, some a =>
    if ikm.buffer = none ∧ ikm.size ≠ 0 then return ⟨.nullSliceIkm, prk, size⟩
    else if salt.buffer = none ∧ salt.size ≠ 0 then return ⟨.nullSliceSalt, prk, size⟩
    else match size, prk with
      | none, _ => return ⟨.nullSize, prk, size⟩
      | some _, none => return ⟨.insufficientBufferSize, prk, some (bsslDigestSize alg)⟩
      | some sz, some d =>
        if sz < bsslDigestSize alg then return ⟨.insufficientBufferSize, prk, some (bsslDigestSize alg)⟩
        else do
          let ikm ← liftL (readArg ikm)
          let salt ← liftL (readArg salt)
          bsslExtractOutL a salt ikm d sz

/-- `bssl.cpp` 324-359: `n20_crypto_boringssl_hkdf_expand`. -/
def bsslExpandL (ctx : Option Unit) (alg : UInt32) (prk info : Slice) (keyOctets : UInt64) (out : Option Bytes) : L (N20Error × Option Bytes) :=
  match ctx, bsslMd alg with
  | none, _ => return (.invalidContext, out)
  | some _, none => return (.unknownAlgorithm, out)
  | some _, some a =>
    if prk.buffer = none ∧ prk.size ≠ 0 then return (.nullSlicePrk, out)
    else if info.buffer = none ∧ info.size ≠ 0 then return (.nullSliceInfo, out)
    else if keyOctets = 0 then return (.ok, out)
    else if out = none then return (.insufficientBufferSize, out)
    else do
      let prk ← liftL (readArg prk)
      let info ← liftL (readArg info)
      bsslExpandOutL a prk info keyOctets out

/-- `BN_bn2bin_padded`: fails if the number does not fit (`bssl.cpp` 471, 475). -/
def bnPaddedL (n : Nat) (k : Nat) : LE Bytes := do
  needL .noResources
  if k < 256 ^ n then return toBE n k else throw .noResources

/-- `bssl.cpp` 422-481, the shift: the leftmost `qlen` bits of the digest `h1` of `size` octets. -/
def rfcShiftL (size qlen h1 : Nat) : LE Nat :=
  if size * 8 > qlen then do
    needL .noResources
    return h1 >>> (size * 8 - qlen)
  else return h1

/-- `bssl.cpp` 422-481: `h1` for a message. -/
def rfcH1L (a : Alg) (m : Bytes) (q : Nat) : LE Bytes := do
  let qlen := bnNumBits q
  let rlen := (qlen + 7) / 8
  needL .implementationSpecific
  let digest := sha2 a m
  needL .noResources
  let h1 ← rfcShiftL digest.length qlen (Der.fromBE digest)
  needL .noResources
  needL .noResources
  let h2 : Int := (h1 : Int) - (q : Int)
  if h2 < 0 then bnPaddedL rlen h1 else bnPaddedL rlen h2.toNat

/-- `bssl.cpp` 501-513, 572-579: `K = HMAC_K(V || octet || more)`. -/
def rfcUpdateKL (a : Alg) (K V : Bytes) (octet : UInt8) (more : Bytes) : LE Bytes := do
  needL .noResources
  needL .implementationSpecific
  return hmac a K (V ++ [octet] ++ more)

/-- `bssl.cpp` 516-519, 543-546, 582-585: `V = HMAC_K(V)`. -/
def rfcUpdateVL (a : Alg) (K V : Bytes) : LE Bytes := do
  needL .implementationSpecific
  return hmac a K V

/-- `bssl.cpp` 499-522: the two rounds that put the seed and the message into `K` and `V`. -/
def rfcSeedL (a : Alg) (x h1 : Bytes) (K V : Bytes) : LE (Bytes × Bytes) := do
  let K ← rfcUpdateKL a K V 0 (x ++ h1)
  let V ← rfcUpdateVL a K V
  let K ← rfcUpdateKL a K V 1 (x ++ h1)
  let V ← rfcUpdateVL a K V
  return (K, V)

/-- `bssl.cpp` 541-549: the loop that fills `T`; the first argument is `iterations - i`. -/
def rfcTL (a : Alg) (K : Bytes) : Nat → Bytes → Bytes → LE (Bytes × Bytes)
  | 0, V, T => return (V, T)
  | n + 1, V, T => do
    let V ← rfcUpdateVL a K V
    rfcTL a K n V (T ++ V)

/-- `bssl.cpp` 536-586: the loop; the first argument bounds the number of iterations. -/
def rfcLoopL (fns : KeyFns) (a : Alg) (q : Nat) : Nat → Bytes → Bytes → LE Nat
  | 0, _, _ => (liftL (.error .diverges) : L _)
  | fuel + 1, K, V => do
    let qlen := bnNumBits q
    let iterations := (qlen + a.size * 8 - 1) / (a.size * 8)
    let r ← rfcTL a K iterations V []
    needL .noResources
    needL .noResources
    let k := Der.fromBE r.2 >>> (r.2.length * 8 - qlen)
    if k ≠ 0 ∧ k < q then return k
    else do
      let K ← rfcUpdateKL a K r.1 0 []
      let V ← rfcUpdateVL a K r.1
      rfcLoopL fns a q fuel K V

/-- `bssl.cpp` 422-481: `h1` is empty without a message. -/
def rfcOptH1L (a : Alg) (m : Option Bytes) (q : Nat) : LE Bytes :=
  match m with
  | none => return []
  | some m => rfcH1L a m q

/-- `bssl.cpp` 405-587: `rfc6979_k_generation`.  Simplification: lengths in bits are natural numbers (`q` has less than 2^32 bits). -/
def rfc6979L (fns : KeyFns) (x : Bytes) (m : Option Bytes) (alg : UInt32) (q : Nat) : LE Nat :=
  match bsslMd alg with
  | none => throw .unknownAlgorithm
  | some a => do
    let h1 ← rfcOptH1L a m q
    needL .noResources
    let r ← rfcSeedL a x h1 (List.replicate a.size 0) (List.replicate a.size 1)
    rfcLoopL fns a q fns.patience r.1 r.2

/-- `bssl.cpp` 361-382: `gather_list_to_vector`. -/
def gatherToVectorL (g : Option GatherList) : LE Bytes :=
  match g with
  | none => throw .nullData
  | some g =>
    if g.count ≠ 0 ∧ g.list = none then throw .nullList
    else do
      let r ← (liftL (bsslSlices g.count.toNat (g.list.getD []) []) : L _)
      if r.1 = .ok then return r.2 else throw r.1

/-- `bssl.cpp` 678-725: the key pair for a private key. -/
def bsslEcKeyL (fns : KeyFns) (type : UInt32) (derived : Bytes) : LE BsslKey := do
  let curve := if type = 1 then Curve.p256 else Curve.p384
  needL .implementationSpecific
  let d ← rfc6979L fns derived none 3 curve.order
  needL .noResources
  needL .implementationSpecific
  needL .noResources
  needL .implementationSpecific
  needL .implementationSpecific
  needL .implementationSpecific
  needL .noResources
  return ⟨type, .inr (.ec curve d)⟩

/-- `bssl.cpp` 641-733: the derived key object. -/
def bsslMakeKeyL (fns : KeyFns) (type : UInt32) (derived : Bytes) : LE BsslKey :=
  if type = 3 then do
    needL .implementationSpecific
    return ⟨type, .inr (.ed25519 derived)⟩
  else if type = 4 then return ⟨type, .inl derived⟩
  else if type = 1 ∨ type = 2 then bsslEcKeyL fns type derived
  else throw .invalidKeyType

/-- `bssl.cpp` 621-639: the 32 octets a key is made of. -/
def bsslDeriveL (bits : Bytes) (context : Option GatherList) : LE Bytes := do
  let c ← gatherToVectorL context
  let r ← (libExpandL .sha512 bits c 32 : L _)
  match r with
  | .ok okm => return okm
  | .error _ => throw .implementationSpecific

/-- `bssl.cpp` 621-733: the key object of `n20_crypto_boringssl_kdf`, from `gather_list_to_vector` on. -/
def bsslKdfKeyL (fns : KeyFns) (bits : Bytes) (type : UInt32) (context : Option GatherList) : LE BsslKey := do
  let derived ← bsslDeriveL bits context
  bsslMakeKeyL fns type derived

/-- `bssl.cpp` 829-841: the loop over the message; the answer of the latest call is kept. -/
def signUpdateL : Nat → List Slice → Bytes → CallAnswer → LE (Bytes × CallAnswer)
  | 0, _, acc, last => return (acc, last)
  | _ + 1, [], _, _ => (liftL (.error .oobRead) : L _)
  | n + 1, s :: rest, acc, last =>
    if s.size = 0 then signUpdateL n rest acc last
    else match s.buffer with
      | none => throw .nullSlice
      | some p => do
        let bs ← (liftL (readSlice p s.size) : L _)
        let c ← needAnswerL .implementationSpecific
        signUpdateL n rest (acc ++ bs) c

/-- `bssl.cpp` 817-841: the octets to be signed, and the answer of the latest call. -/
def ecMessageL (msg : Option GatherList) : LE (Bytes × CallAnswer) :=
  match msg with
  | none => throw .nullData
  | some g =>
    if g.count ≠ 0 ∧ g.list = none then throw .nullList
    else do
      let c ← needAnswerL .implementationSpecific
      signUpdateL g.count.toNat (g.list.getD []) [] c

/-- `bssl.cpp` 843-900: `EVP_DigestSignFinal`, which gets the private key, and what follows.  `rest` is what is in the part of
`signature_buffer` that is not written to. -/
def ecFinalL (a : Alg) (key : PKey) (text : Bytes) (signatureSize : UInt64) (rest : Bytes) (d : Bytes) : L Reply := do
  let c ← callL
  if c.ok = false then return ⟨.implementationSpecific, some d, some 104⟩
  else match key with
    | .ed25519 _ => liftL (.error .badCast)
    | .ec curve x => do
      let rs := c.sign curve x (sha2 a text)
      let der := ecdsaDer rs.1 rs.2
      if 104 < der.length then return ⟨.implementationSpecific, some d, some 104⟩
      else do
        let out ← liftL (sigUnwrap (der ++ rest.drop der.length) signatureSize.toNat d)
        return ⟨.ok, some out, some signatureSize⟩

/-- `bssl.cpp` 815-901: ECDSA. -/
def ecSignL (a : Alg) (key : PKey) (msg : Option GatherList) (signatureSize : UInt64) (d : Bytes) (sz : UInt64) : L Reply := do
  let r ← (ecMessageL msg).run
  match r with
  | .error e => return ⟨e, some d, some sz⟩
  | .ok (text, last) => ecFinalL a key text signatureSize (last.output 104) d

/-- `bssl.cpp` 800-813: `EVP_DigestSign` for Ed25519. -/
def edFinalL (fns : KeyFns) (key : PKey) (text : Bytes) (d : Bytes) (sz : UInt64) : L Reply := do
  let c ← callL
  match c.ok, key with
  | false, _ => do
    let o ← liftL (writeOut (some d) (c.output 64))
    return ⟨.implementationSpecific, o, some sz⟩
  | true, .ec _ _ => liftL (.error .badCast)
  | true, .ed25519 seed => do
    let o ← liftL (writeOut (some d) (fns.edSign seed text))
    return ⟨.ok, o, some (UInt64.ofNat (fns.edSign seed text).length)⟩

/-- `bssl.cpp` 794-814: Ed25519. -/
def edSignL (fns : KeyFns) (key : PKey) (msg : Option GatherList) (d : Bytes) (sz : UInt64) : L Reply := do
  let init ← libCallL
  if init = false then return ⟨.implementationSpecific, some d, some sz⟩
  else do
    let r ← (gatherToVectorL msg).run
    match r with
    | .error e => return ⟨e, some d, some sz⟩
    | .ok text => edFinalL fns key text d sz

/-- `bssl.cpp` 761-905: `n20_crypto_boringssl_sign` once the key is known not to be a CDI. -/
def bsslSignRunL (fns : KeyFns) (type : UInt32) (key : PKey) (msg : Option GatherList) (out : Option Bytes) (sz : UInt64) : L Reply := do
  let new ← libCallL
  if new = false then return ⟨.noResources, out, some sz⟩
  else match signatureSize type, out with
    | none, _ => return ⟨.invalidKey, out, some sz⟩
    | some n, none => return ⟨.insufficientBufferSize, out, some n⟩
    | some n, some d =>
      if sz < n then return ⟨.insufficientBufferSize, out, some n⟩
      else if type = 3 then edSignL fns key msg d sz
      else if type = 1 then ecSignL .sha256 key msg n d sz
      else ecSignL .sha384 key msg n d sz

/-- `bssl.cpp` 955-983: the public key of an EC key. -/
def ecPublicKeyL (fns : KeyFns) (type : UInt32) (curve : Curve) (x : Nat) (n : UInt64) (d : Bytes) (sz : UInt64) : L Reply :=
  if type ≠ 1 ∧ type ≠ 2 then return ⟨.implementationSpecific, some d, some sz⟩
  else do
    let ok ← libCallL
    if ok = false then return ⟨.noResources, some d, some sz⟩
    else do
      let info := x962 curve (fns.ecPublic curve x)
      if info.length ≠ n.toNat + 1 ∨ info.head? ≠ some 0x04 then return ⟨.implementationSpecific, some d, some n⟩
      else do
        let o ← liftL (memcpy (some d) 0 (localPtr (info.drop 1)) n)
        return ⟨.ok, some o, some n⟩

/-- `bssl.cpp` 984-997: the public key of an Ed25519 key. -/
def edPublicKeyL (fns : KeyFns) (type : UInt32) (seed : Bytes) (d : Bytes) (sz : UInt64) : L Reply :=
  if type ≠ 3 then return ⟨.implementationSpecific, some d, some sz⟩
  else do
    let ok ← libCallL
    if ok = false then return ⟨.implementationSpecific, some d, some sz⟩
    else do
      let o ← liftL (writeOut (some d) (fns.edPublic seed))
      if (fns.edPublic seed).length ≠ 32 then return ⟨.implementationSpecific, o, some (UInt64.ofNat (fns.edPublic seed).length)⟩
      else return ⟨.ok, o, some 32⟩

/-! ## Calls -/

/-- The end of a call: nothing more to do to the heap, `new` (`bssl.cpp` 648, 658, 722, 1063) or `delete` (`bssl.cpp` 1015). -/
inductive Final where
  | reply (r : ApiReply)
  | create (key : BsslKey)
  | destroy (p : Nat)

/-- A call, from the access to the key object, if there is one (`bssl.cpp` 610, 754, 928), to the end. -/
inductive CallProg where
  | load (p : Nat) (k : BsslKey → L Final)
  | run (l : L Final)

/-- The end of a function that makes a key object (`bssl.cpp` 597-734). -/
def keyFinalL (c : LE BsslKey) (old : Option Nat) : L Final := do
  let r ← c.run
  match r with
  | .ok key => return .create key
  | .error e => return .reply { err := e, key := some old }

/-- `bssl.cpp` 610-734: `n20_crypto_boringssl_kdf` once the key object is known. -/
def bsslKdfL (fns : KeyFns) (k : BsslKey) (type : UInt32) (context : Option GatherList) (keyOut : Option (Option Nat)) : L Final :=
  if k.type ≠ 4 then return .reply { err := .invalidKey, key := keyOut }
  else do
    let bits ← liftL (castCdi k)
    match keyOut with
    | none => return .reply { err := .nullKeyOut, key := keyOut }
    | some old => keyFinalL (bsslKdfKeyL fns bits type context) old

/-- `bssl.cpp` 754-906: `n20_crypto_boringssl_sign` once the key object is known. -/
def bsslSignL (fns : KeyFns) (k : BsslKey) (msg : Option GatherList) (out : Option Bytes) (sz : UInt64) : L Reply :=
  if k.type = 4 then return ⟨.invalidKey, out, some sz⟩
  else do
    let key ← liftL (castEvp k)
    bsslSignRunL fns k.type key msg out sz

/-- `bssl.cpp` 928-1001: `n20_crypto_boringssl_key_get_public_key` once the key object is known. -/
def bsslPublicKeyL (fns : KeyFns) (k : BsslKey) (out : Option Bytes) (sz : UInt64) : L Reply :=
  match publicKeySize k.type, out with
  | none, _ => return ⟨.invalidKey, out, some sz⟩
  | some n, none => return ⟨.insufficientBufferSize, out, some n⟩
  | some n, some d =>
    if sz < n then return ⟨.insufficientBufferSize, out, some n⟩
    else do
      let key ← liftL (castEvp k)
      match key with
      | .ec curve x => ecPublicKeyL fns k.type curve x n d sz
      | .ed25519 seed => edPublicKeyL fns k.type seed d sz

/-- `bssl.cpp` 1048-1073: `n20_crypto_boringssl_make_secret`. -/
def bsslMakeSecretL (ctx : Option Unit) (secret : Option Slice) (keyOut : Option (Option Nat)) : L Final :=
  match ctx, secret with
  | none, _ => return .reply { err := .invalidContext, key := keyOut }
  | some _, none => return .reply { err := .nullData, key := keyOut }
  | some _, some s =>
    match s.buffer with
    | none => return .reply { err := .nullData, key := keyOut }
    | some p =>
      if s.size = 0 then return .reply { err := .nullData, key := keyOut }
      else match keyOut with
        | none => return .reply { err := .nullKeyOut, key := keyOut }
        | some _ => do
          let bits ← liftL (readSlice p s.size)
          return .create ⟨4, .inl bits⟩

/-- The end of a function that leaves the heap alone (`bssl.cpp` 104-359, 736-1001). -/
def replyL (l : L Reply) : L Final := do return .reply (← l).api

/-- The same for functions without a size (`bssl.cpp` 237-282, 324-359). -/
def outL (l : L (N20Error × Option Bytes)) : L Final := do return .reply (outReply (← l))

/-- The program of a call (`bssl.cpp` 104-1073). -/
def ApiOp.prog (fns : KeyFns) : ApiOp → CallProg
  | .key (.kdf none _ _ _ keyOut) => .run (return .reply { err := .invalidContext, key := keyOut })
  | .key (.kdf (some _) none _ _ keyOut) => .run (return .reply { err := .nullKeyIn, key := keyOut })
  | .key (.kdf (some _) (some p) type context keyOut) => .load p fun k => bsslKdfL fns k type context keyOut
  | .key (.sign none _ _ out size) => .run (return .reply { err := .invalidContext, out := out, size := size })
  | .key (.sign (some _) none _ out size) => .run (return .reply { err := .nullKeyIn, out := out, size := size })
  | .key (.sign (some _) (some _) _ out none) => .run (return .reply { err := .nullSize, out := out })
  | .key (.sign (some _) (some p) msg out (some sz)) => .load p fun k => replyL (bsslSignL fns k msg out sz)
  | .key (.publicKey none _ out size) => .run (return .reply { err := .invalidContext, out := out, size := size })
  | .key (.publicKey (some _) none out size) => .run (return .reply { err := .nullKeyIn, out := out, size := size })
  | .key (.publicKey (some _) (some _) out none) => .run (return .reply { err := .nullSize, out := out })
  | .key (.publicKey (some _) (some p) out (some sz)) => .load p fun k => replyL (bsslPublicKeyL fns k out sz)
  | .key (.free none _) => .run (return .reply { err := .invalidContext })
  | .key (.free (some _) none) => .run (return .reply { err := .ok })
  | .key (.free (some _) (some p)) => .run (return .destroy p)
  | .key (.makeSecret ctx secret keyOut) => .run (bsslMakeSecretL ctx secret keyOut)
  | .digest ctx alg msg count out size => .run (replyL (bsslDigestL ctx alg msg count out size))
  | .hmac ctx alg k msg out size => .run (replyL (bsslHmacL ctx alg k msg out size))
  | .hkdf ctx alg ikm salt info n out => .run (outL (bsslHkdfL ctx alg ikm salt info n out))
  | .extract ctx alg ikm salt prk size => .run (replyL (bsslExtractL ctx alg ikm salt prk size))
  | .expand ctx alg prk info n out => .run (outL (bsslExpandL ctx alg prk info n out))

/-! ## Threads -/

/-- A program that uses the context: it stops, or makes a call (any of `bssl.cpp` 104-1073) and goes on depending on what the call returned. -/
inductive Client where
  | stop
  | call (op : ApiOp) (k : ApiReply → Client)

/-- A thread: between two calls, or in a call of which the given part is left (`bssl.cpp` 104-1073). -/
inductive CallThread where
  | idle (c : Client)
  | busy (op : ApiOp) (p : CallProg) (k : ApiReply → Client)

/-- All threads (they are numbered), what they share, and the calls that have returned so far with the number of the thread, in the order in which they
returned (the calls of `bssl.cpp` 104-1073). -/
structure Pool where
  world : World
  threads : Nat → CallThread
  log : List (Nat × ApiOp × ApiReply)

/-- The end of a call: the access to the heap, and what the call returns (`bssl.cpp` 648, 658, 722, 1015, 1063). -/
def Final.commit : Final → B ApiReply
  | .reply r => return r
  | .create key => do return { err := .ok, key := some (some (← newKey key)) }
  | .destroy p => do
    deleteKey p
    return { err := .ok }

/-- One step of thread `i`: it starts a call, reads a key object, calls the library, or returns (`bssl.cpp` 104-1073). -/
def Pool.step (lib : Lib) (i : Nat) (s : Pool) : Except UB Pool :=
  match s.threads i with
  | .idle .stop => .ok s
  | .idle (.call op k) => .ok { s with threads := setAt s.threads i (.busy op (op.prog lib.fns) k) }
  | .busy op (.load p l) k =>
    match s.world.heap[p]? with
    | some (some key) => .ok { s with threads := setAt s.threads i (.busy op (.run (l key)) k) }
    | _ => .error .useAfterFree
  | .busy _ (.run (.fault e)) _ => .error e
  | .busy op (.run (.call l)) k =>
    .ok { s with world := { s.world with calls := s.world.calls + 1 }, threads := setAt s.threads i (.busy op (.run (l (lib.answer s.world.calls))) k) }
  | .busy op (.run (.done f)) k =>
    match f.commit s.world with
    | .error e => .error e
    | .ok (r, w) => .ok ⟨w, setAt s.threads i (.idle (k r)), s.log ++ [(i, op, r)]⟩

/-- The steps of a schedule: which thread is the next one to make a step (the threads that run `bssl.cpp` 104-1073). -/
def Pool.exec (lib : Lib) : List Nat → Pool → Except UB Pool
  | [], s => .ok s
  | i :: rest, s => do
    let s ← s.step lib i
    Pool.exec lib rest s

end Nat20
