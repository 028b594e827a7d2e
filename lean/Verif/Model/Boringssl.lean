import Verif.Spec.Digest
/-!
# Model of `src/crypto/crypto_boringssl.cpp`

`bssl.cpp` below stands for this file.

The file is a layer on top of BoringSSL.  BoringSSL itself is not part of the repository; what the model takes for granted about
it is collected here, in the section about the library: its hash functions, HMAC and HKDF compute the standards
(`Verif/Spec/Digest.lean`), and every call whose result the file checks may fail at any time.  Which calls fail, what a failed
call leaves behind in its output, and the values of the elliptic curve operations, are given by a `Lib`, about which nothing is
known unless a theorem says so.

`operator new` and `std::vector` are assumed to succeed (they would throw through the C interface otherwise).
-/

namespace Nat20

open Fips

/-! ## The library -/

/-- `EC_group_p256`, `EC_group_p384` (`bssl.cpp` 668, 670). -/
inductive Curve where
  | p256
  | p384
  deriving DecidableEq, Repr

/-- The order of the base point (FIPS 186-4 D.1.2.3, D.1.2.4); `EC_GROUP_get0_order` (`bssl.cpp` 673). -/
def Curve.order : Curve → Nat
  | .p256 => 0xffffffff00000000ffffffffffffffffbce6faada7179e84f3b9cac2fc632551
  | .p384 => 0xffffffffffffffffffffffffffffffffffffffffffffffffc7634d81f4372ddf581a0db248b0a77aecec196accc52973

/-- Octets of a coordinate and of a scalar (`bssl.cpp` 420, 934-938). -/
def Curve.octets : Curve → Nat
  | .p256 => 32
  | .p384 => 48

/-- An `EVP_PKEY` with a private key (`bssl.cpp` 70, 643, 715). -/
inductive PKey where
  | ed25519 (seed : Bytes)
  | ec (curve : Curve) (d : Nat)
  deriving DecidableEq, Repr

/-- What the library and the environment do (the library behind all calls in `bssl.cpp` 104-1020). -/
structure Lib where
  /-- the `n`-th call fails, if it is one that can -/
  fails : Nat → Bool
  /-- what the `n`-th call leaves in octet `i` of its output when it fails -/
  junk : Nat → Nat → UInt8
  /-- Ed25519: the public key for a seed -/
  edPublic : Bytes → Bytes
  /-- Ed25519: the signature of a message -/
  edSign : Bytes → Bytes → Bytes
  /-- the public point for a private key -/
  ecPublic : Curve → Nat → Nat × Nat
  /-- ECDSA: `r` and `s` for a private key and a digest; the nonce depends on the number of the call -/
  ecSign : Curve → Nat → Bytes → Nat → Nat × Nat
  /-- how many iterations of the (potentially infinite) loop of `rfc6979_k_generation` are followed -/
  patience : Nat

/-- `bssl.cpp` 59-72: `n20_bssl_key_base`, `n20_bssl_cdi_key`, `n20_bssl_evp_pkey`; which of the two derived classes an object is
an instance of, is independent of its `type` member. -/
structure BsslKey where
  type : UInt32
  body : Bytes ⊕ PKey
  deriving DecidableEq, Repr

/-- The number of library calls so far, and the key objects created so far; destroyed ones are `none`.  A pointer to a key object
is its position (the heap behind `new` and `delete` in `bssl.cpp` 648, 658, 722, 1015, 1063). -/
structure World where
  calls : Nat
  heap : List (Option BsslKey)
  deriving DecidableEq, Repr

/-- Computations of the layer (the functions of `bssl.cpp` 104-1073). -/
abbrev B := StateT World (Except UB)

/-- A call of the library that may fail; the result tells whether it succeeded (e.g. `bssl.cpp` 217, 355, 630, 643). -/
def libCall (lib : Lib) : B Bool := fun w => .ok (!lib.fails w.calls, { w with calls := w.calls + 1 })

/-- What the latest call of the library, having failed, left in an output of `n` octets
(e.g. the output of `HKDF_expand`, `bssl.cpp` 355). -/
def libJunk (lib : Lib) (n : Nat) : B Bytes := fun w => .ok ((List.range n).map (lib.junk (w.calls - 1)), w)

/-- Undefined behaviour that is a consequence of memory accesses (the memory accesses in `bssl.cpp` 149-162, 221-227, 372-379). -/
def liftB {α : Type} (x : Except UB α) : B α := fun w => x.map fun a => (a, w)

/-- Writing octets to the memory at an output pointer (the outputs of the library calls, e.g. `bssl.cpp` 317, 355, 980). -/
def writeOut (out : Option Bytes) (bs : Bytes) : Except UB (Option Bytes) :=
  match out with
  | none => if bs = [] then .ok none else .error .nullDeref
  | some d => if d.length < bs.length then .error .oobWrite else .ok (some (bs ++ d.drop bs.length))

/-- `HKDF_expand`: fails for more than 255 digests (`bssl.cpp` 355, 630). -/
def libExpand (lib : Lib) (a : Alg) (prk info : Bytes) (n : Nat) : B (Except Bytes Bytes) := do
  let ok ← libCall lib
  match ok, hkdfExpand a prk info n with
  | true, some okm => return .ok okm
  | true, none => return .error []
  | false, _ => return .error (← libJunk lib n)

/-- Reading a slice (the arguments of the library calls in `bssl.cpp` 158, 217, 226). -/
def readSlice (p : Ptr) (n : UInt64) : Except UB Bytes := if p.data.length < n.toNat then .error .oobRead else .ok (p.data.take n.toNat)

/-- Reading the octets of a slice which may be at NULL if it is empty (the arguments of `HMAC_Init_ex`, `HKDF`, `HKDF_extract`, `HKDF_expand`)
(`bssl.cpp` 217, 317, 355). -/
def readArg (s : Slice) : Except UB Bytes :=
  match s.buffer with
  | none => if s.size = 0 then .ok [] else .error .nullDeref
  | some p => readSlice p s.size

/-! ## Digests -/

/-- `bssl.cpp` 74-87: `digest_enum_to_bssl_evp_md`. -/
def bsslMd (alg : UInt32) : Option Alg :=
  if alg = 0 then some .sha224 else if alg = 1 then some .sha256 else if alg = 2 then some .sha384 else if alg = 3 then some .sha512 else none

/-- `bssl.cpp` 89-102: `digest_enum_to_size`. -/
def bsslDigestSize (alg : UInt32) : UInt64 :=
  if alg = 0 then 28 else if alg = 1 then 32 else if alg = 2 then 48 else if alg = 3 then 64 else 0

/-- `bssl.cpp` 153-161, 221-227, 372-379: the loops over the slices of a list in `n20_crypto_boringssl_digest`, `_hmac` and in
`gather_list_to_vector`.  The accumulated octets are those passed to `EVP_DigestUpdate`, `HMAC_Update`, or appended to the vector. -/
def bsslSlices : Nat → List Slice → Bytes → Except UB (N20Error × Bytes)
  | 0, _, acc => .ok (.ok, acc)
  | _ + 1, [], _ => .error .oobRead
  | n + 1, s :: rest, acc =>
    if s.size = 0 then bsslSlices n rest acc
    else match s.buffer with
      | none => .ok (.nullSlice, acc)
      | some p => do
        let bs ← readSlice p s.size
        bsslSlices n rest (acc ++ bs)

/-- `bssl.cpp` 150-162: one gather list; empty ones and those at NULL are skipped. -/
def bsslGather (g : GatherList) (acc : Bytes) : Except UB (N20Error × Bytes) :=
  if g.count = 0 then .ok (.ok, acc)
  else match g.list with
    | none => .ok (.ok, acc)
    | some l => bsslSlices g.count.toNat l acc

/-- `bssl.cpp` 149-162: the loop over the gather lists. -/
def bsslLists : Nat → List GatherList → Bytes → Except UB (N20Error × Bytes)
  | 0, _, acc => .ok (.ok, acc)
  | _ + 1, [], _ => .error .oobRead
  | n + 1, g :: rest, acc => do
    let r ← bsslGather g acc
    if r.1 = .ok then bsslLists n rest r.2 else .ok r

/-- `bssl.cpp` 149-170: the update loop, `EVP_DigestFinal` and the size. -/
def bsslDigestRun (a : Alg) (msg : List GatherList) (count : UInt64) (d : Bytes) (sz : UInt64) : Except UB Reply := do
  let r ← bsslLists count.toNat msg []
  if r.1 = .ok then do
    let o ← writeOut (some d) (sha2 a r.2)
    .ok ⟨.ok, o, some (UInt64.ofNat a.size)⟩
  else .ok ⟨r.1, some d, some sz⟩

/-- `bssl.cpp` 135-170: the part of `n20_crypto_boringssl_digest` that needs the message.  The result of `EVP_MD_CTX_new` is not
checked before it is used by `EVP_DigestInit`. -/
def bsslDigestMessage (lib : Lib) (a : Alg) (msg : Option (List GatherList)) (count : UInt64) (d : Bytes) (sz : UInt64) : B Reply :=
  match msg with
  | none => return ⟨.nullData, some d, some sz⟩
  | some [] => liftB (.error .oobRead)
  | some (g :: gs) =>
    if g.count ≠ 0 ∧ g.list = none then return ⟨.nullList, some d, some sz⟩
    else do
      let new ← libCall lib
      if new = false then liftB (.error .nullDeref)
      else do
        let init ← libCall lib
        if init = false then return ⟨.noResources, some d, some sz⟩
        else liftB (bsslDigestRun a (g :: gs) count d sz)

/-- `bssl.cpp` 104-171: `n20_crypto_boringssl_digest`. -/
def bsslDigest (lib : Lib) (ctx : Option Unit) (alg : UInt32) (msg : Option (List GatherList)) (count : UInt64) (out : Option Bytes)
    (size : Option UInt64) : B Reply :=
  match ctx with
  | none => return ⟨.invalidContext, out, size⟩
  | some _ =>
    match bsslMd alg, size, out with
    | none, _, _ => return ⟨.unknownAlgorithm, out, size⟩
    | some _, none, _ => return ⟨.nullSize, out, size⟩
    | some _, some _, none => return ⟨.insufficientBufferSize, out, some (bsslDigestSize alg)⟩
    | some a, some sz, some d =>
      if bsslDigestSize alg > sz then return ⟨.insufficientBufferSize, out, some (bsslDigestSize alg)⟩
      else bsslDigestMessage lib a msg count d sz

/-- `bssl.cpp` 229-234: `HMAC_Final`. -/
def bsslHmacFinal (lib : Lib) (a : Alg) (key text : Bytes) (d : Bytes) (sz : UInt64) : B Reply := do
  let final ← libCall lib
  if final = false then do
    let junk ← libJunk lib a.size
    let o ← liftB (writeOut (some d) junk)
    return ⟨.implementationSpecific, o, some sz⟩
  else do
    let o ← liftB (writeOut (some d) (hmac a key text))
    return ⟨.ok, o, some (UInt64.ofNat a.size)⟩

/-- `bssl.cpp` 209-234: the part of `n20_crypto_boringssl_hmac` that needs the message. -/
def bsslHmacMessage (lib : Lib) (a : Alg) (key : Slice) (msg : Option GatherList) (d : Bytes) (sz : UInt64) : B Reply :=
  match msg with
  | none => return ⟨.nullData, some d, some sz⟩
  | some g =>
    if g.count ≠ 0 ∧ g.list = none then return ⟨.nullList, some d, some sz⟩
    else do
      let k ← liftB (readArg key)
      let init ← libCall lib
      if init = false then return ⟨.noResources, some d, some sz⟩
      else do
        let r ← liftB (bsslSlices g.count.toNat (g.list.getD []) [])
        if r.1 = .ok then bsslHmacFinal lib a k r.2 d sz else return ⟨r.1, some d, some sz⟩

/-- `bssl.cpp` 173-235: `n20_crypto_boringssl_hmac`. -/
def bsslHmac (lib : Lib) (ctx : Option Unit) (alg : UInt32) (key : Slice) (msg : Option GatherList) (out : Option Bytes) (size : Option UInt64) : B Reply :=
  match ctx, size with
  | none, _ => return ⟨.invalidContext, out, size⟩
  | some _, none => return ⟨.nullSize, out, size⟩
  | some _, some sz => do
    let new ← libCall lib
    if new = false then return ⟨.noResources, out, size⟩
    else match bsslMd alg, out with
      | none, _ => return ⟨.unknownAlgorithm, out, size⟩
      | some a, out =>
        if key.buffer = none ∧ key.size ≠ 0 then return ⟨.nullSliceKey, out, size⟩
        else match out with
          | none => return ⟨.insufficientBufferSize, out, some (bsslDigestSize alg)⟩
          | some d =>
            if bsslDigestSize alg > sz then return ⟨.insufficientBufferSize, out, some (bsslDigestSize alg)⟩
            else bsslHmacMessage lib a key msg d sz

/-- `bssl.cpp` 269-282 and 355-358: the tail of `n20_crypto_boringssl_hkdf` and `n20_crypto_boringssl_hkdf_expand`. -/
def bsslExpandOut (lib : Lib) (a : Alg) (prk info : Bytes) (keyOctets : UInt64) (out : Option Bytes) : B (N20Error × Option Bytes) := do
  let r ← libExpand lib a prk info keyOctets.toNat
  match r with
  | .ok okm => return (.ok, ← liftB (writeOut out okm))
  | .error junk => return (.implementationSpecific, ← liftB (writeOut out junk))

/-- `bssl.cpp` 237-282: `n20_crypto_boringssl_hkdf`. -/
def bsslHkdf (lib : Lib) (ctx : Option Unit) (alg : UInt32) (ikm salt info : Slice) (keyOctets : UInt64) (out : Option Bytes) : B (N20Error × Option Bytes) :=
  match ctx, bsslMd alg with
  | none, _ => return (.invalidContext, out)
  | some _, none => return (.unknownAlgorithm, out)
  | some _, some a =>
    if ikm.buffer = none ∧ ikm.size ≠ 0 then return (.nullSliceIkm, out)
    else if salt.buffer = none ∧ salt.size ≠ 0 then return (.nullSliceSalt, out)
    else if info.buffer = none ∧ info.size ≠ 0 then return (.nullSliceInfo, out)
    else if keyOctets ≠ 0 ∧ out = none then return (.insufficientBufferSize, out)
    else do
      let ikm ← liftB (readArg ikm)
      let salt ← liftB (readArg salt)
      let info ← liftB (readArg info)
      bsslExpandOut lib a (hkdfExtract a salt ikm) info keyOctets out

/-- `bssl.cpp` 317-321: `HKDF_extract`. -/
def bsslExtractOut (lib : Lib) (a : Alg) (salt ikm : Bytes) (d : Bytes) (sz : UInt64) : B Reply := do
  let ok ← libCall lib
  if ok = false then do
    let junk ← libJunk lib a.size
    let o ← liftB (writeOut (some d) junk)
    return ⟨.implementationSpecific, o, some sz⟩
  else do
    let o ← liftB (writeOut (some d) (hkdfExtract a salt ikm))
    return ⟨.ok, o, some (UInt64.ofNat a.size)⟩

/-- `bssl.cpp` 284-322: `n20_crypto_boringssl_hkdf_extract`. -/
def bsslExtract (lib : Lib) (ctx : Option Unit) (alg : UInt32) (ikm salt : Slice) (prk : Option Bytes) (size : Option UInt64) : B Reply :=
  match ctx, bsslMd alg with
  | none, _ => return ⟨.invalidContext, prk, size⟩
  | some _, none => return ⟨.unknownAlgorithm, prk, size⟩
  | some _, some a =>
    if ikm.buffer = none ∧ ikm.size ≠ 0 then return ⟨.nullSliceIkm, prk, size⟩
    else if salt.buffer = none ∧ salt.size ≠ 0 then return ⟨.nullSliceSalt, prk, size⟩
    else match size, prk with
      | none, _ => return ⟨.nullSize, prk, size⟩
      | some _, none => return ⟨.insufficientBufferSize, prk, some (bsslDigestSize alg)⟩
      | some sz, some d =>
        if sz < bsslDigestSize alg then return ⟨.insufficientBufferSize, prk, some (bsslDigestSize alg)⟩
        else do
          let ikm ← liftB (readArg ikm)
          let salt ← liftB (readArg salt)
          bsslExtractOut lib a salt ikm d sz

/-- `bssl.cpp` 324-359: `n20_crypto_boringssl_hkdf_expand`. -/
def bsslExpand (lib : Lib) (ctx : Option Unit) (alg : UInt32) (prk info : Slice) (keyOctets : UInt64) (out : Option Bytes) : B (N20Error × Option Bytes) :=
  match ctx, bsslMd alg with
  | none, _ => return (.invalidContext, out)
  | some _, none => return (.unknownAlgorithm, out)
  | some _, some a =>
    if prk.buffer = none ∧ prk.size ≠ 0 then return (.nullSlicePrk, out)
    else if info.buffer = none ∧ info.size ≠ 0 then return (.nullSliceInfo, out)
    else if keyOctets = 0 then return (.ok, out)
    else if out = none then return (.insufficientBufferSize, out)
    else do
      let prk ← liftB (readArg prk)
      let info ← liftB (readArg info)
      bsslExpandOut lib a prk info keyOctets out

/-! ## RFC 6979 -/

/-- Computations that end with an error code or a value, the `std::variant` results (`bssl.cpp` 361, 405). -/
abbrev BE := ExceptT N20Error B

/-- A call of the library; if it fails, the function returns the given error
(`bssl.cpp` 405-587, 643-733: `if (!call) { return error; }`). -/
def need (lib : Lib) (e : N20Error) : BE Unit := fun w =>
  .ok (if lib.fails w.calls then .error e else .ok (), { w with calls := w.calls + 1 })

/-- `BN_num_bits` (`bssl.cpp` 419). -/
def bnNumBits (q : Nat) : Nat := if q = 0 then 0 else Nat.log2 q + 1

/-- `BN_bn2bin_padded`: fails if the number does not fit (`bssl.cpp` 471, 475). -/
def bnPadded (lib : Lib) (n : Nat) (k : Nat) : BE Bytes := do
  need lib .noResources
  if k < 256 ^ n then return toBE n k else throw .noResources

/-- `bssl.cpp` 422-481, the shift: the leftmost `qlen` bits of the digest `h1` of `size` octets. -/
def rfcShift (lib : Lib) (size qlen h1 : Nat) : BE Nat :=
  if size * 8 > qlen then do
    need lib .noResources
    return h1 >>> (size * 8 - qlen)
  else return h1

/-- `bssl.cpp` 422-481: `h1` for a message. -/
def rfcH1 (lib : Lib) (a : Alg) (m : Bytes) (q : Nat) : BE Bytes := do
  let qlen := bnNumBits q
  let rlen := (qlen + 7) / 8
  need lib .implementationSpecific
  let digest := sha2 a m
  need lib .noResources
  let h1 ← rfcShift lib digest.length qlen (Der.fromBE digest)
  need lib .noResources
  need lib .noResources
  let h2 : Int := (h1 : Int) - (q : Int)
  if h2 < 0 then bnPadded lib rlen h1 else bnPadded lib rlen h2.toNat

/-- `bssl.cpp` 501-513, 572-579: `K = HMAC_K(V || octet || more)`. -/
def rfcUpdateK (lib : Lib) (a : Alg) (K V : Bytes) (octet : UInt8) (more : Bytes) : BE Bytes := do
  need lib .noResources
  need lib .implementationSpecific
  return hmac a K (V ++ [octet] ++ more)

/-- `bssl.cpp` 516-519, 543-546, 582-585: `V = HMAC_K(V)`. -/
def rfcUpdateV (lib : Lib) (a : Alg) (K V : Bytes) : BE Bytes := do
  need lib .implementationSpecific
  return hmac a K V

/-- `bssl.cpp` 499-522: the two rounds that put the seed and the message into `K` and `V`. -/
def rfcSeed (lib : Lib) (a : Alg) (x h1 : Bytes) (K V : Bytes) : BE (Bytes × Bytes) := do
  let K ← rfcUpdateK lib a K V 0 (x ++ h1)
  let V ← rfcUpdateV lib a K V
  let K ← rfcUpdateK lib a K V 1 (x ++ h1)
  let V ← rfcUpdateV lib a K V
  return (K, V)

/-- `bssl.cpp` 541-549: the loop that fills `T`; the first argument is `iterations - i`. -/
def rfcT (lib : Lib) (a : Alg) (K : Bytes) : Nat → Bytes → Bytes → BE (Bytes × Bytes)
  | 0, V, T => return (V, T)
  | n + 1, V, T => do
    let V ← rfcUpdateV lib a K V
    rfcT lib a K n V (T ++ V)

/-- `bssl.cpp` 536-586: the loop; the first argument bounds the number of iterations. -/
def rfcLoop (lib : Lib) (a : Alg) (q : Nat) : Nat → Bytes → Bytes → BE Nat
  | 0, _, _ => fun _ => .error .diverges
  | fuel + 1, K, V => do
    let qlen := bnNumBits q
    let iterations := (qlen + a.size * 8 - 1) / (a.size * 8)
    let r ← rfcT lib a K iterations V []
    need lib .noResources
    need lib .noResources
    let k := Der.fromBE r.2 >>> (r.2.length * 8 - qlen)
    if k ≠ 0 ∧ k < q then return k
    else do
      let K ← rfcUpdateK lib a K r.1 0 []
      let V ← rfcUpdateV lib a K r.1
      rfcLoop lib a q fuel K V

/-- `bssl.cpp` 422-481: `h1` is empty without a message. -/
def rfcOptH1 (lib : Lib) (a : Alg) (m : Option Bytes) (q : Nat) : BE Bytes :=
  match m with
  | none => return []
  | some m => rfcH1 lib a m q

/-- `bssl.cpp` 405-587: `rfc6979_k_generation`.  Simplification: lengths in bits are natural numbers (`q` has less than 2^32 bits). -/
def rfc6979 (lib : Lib) (x : Bytes) (m : Option Bytes) (alg : UInt32) (q : Nat) : BE Nat :=
  match bsslMd alg with
  | none => throw .unknownAlgorithm
  | some a => do
    let h1 ← rfcOptH1 lib a m q
    need lib .noResources
    let r ← rfcSeed lib a x h1 (List.replicate a.size 0) (List.replicate a.size 1)
    rfcLoop lib a q lib.patience r.1 r.2

/-! ## Keys -/

/-- Access to a key object through a pointer (`bssl.cpp` 610, 754, 928, 1013). -/
def loadKey (p : Nat) : B BsslKey := fun w =>
  match w.heap[p]? with
  | some (some k) => .ok (k, w)
  | _ => .error .useAfterFree

/-- `new` (`bssl.cpp` 648, 658, 722, 1063). -/
def newKey (k : BsslKey) : B Nat := fun w => .ok (w.heap.length, { w with heap := w.heap ++ [some k] })

/-- `delete` (`bssl.cpp` 1015). -/
def deleteKey (p : Nat) : B Unit := fun w =>
  match w.heap[p]? with
  | some (some _) => .ok ((), { w with heap := w.heap.set p none })
  | _ => .error .useAfterFree

/-- `bssl.cpp` 361-382: `gather_list_to_vector`. -/
def gatherToVector (g : Option GatherList) : BE Bytes :=
  match g with
  | none => throw .nullData
  | some g =>
    if g.count ≠ 0 ∧ g.list = none then throw .nullList
    else do
      let r ← (liftB (bsslSlices g.count.toNat (g.list.getD []) []) : B _)
      if r.1 = .ok then return r.2 else throw r.1

/-- `static_cast<n20_bssl_cdi_key*>` (`bssl.cpp` 615). -/
def castCdi (k : BsslKey) : Except UB Bytes :=
  match k.body with
  | .inl bits => .ok bits
  | .inr _ => .error .badCast

/-- `static_cast<n20_bssl_evp_pkey*>` (`bssl.cpp` 759, 950). -/
def castEvp (k : BsslKey) : Except UB PKey :=
  match k.body with
  | .inl _ => .error .badCast
  | .inr key => .ok key

/-- `bssl.cpp` 678-725: the key pair for a private key. -/
def bsslEcKey (lib : Lib) (type : UInt32) (derived : Bytes) : BE BsslKey := do
  let curve := if type = 1 then Curve.p256 else Curve.p384
  need lib .implementationSpecific
  let d ← rfc6979 lib derived none 3 curve.order
  need lib .noResources
  need lib .implementationSpecific
  need lib .noResources
  need lib .implementationSpecific
  need lib .implementationSpecific
  need lib .implementationSpecific
  need lib .noResources
  return ⟨type, .inr (.ec curve d)⟩

/-- `bssl.cpp` 641-733: the derived key object. -/
def bsslMakeKey (lib : Lib) (type : UInt32) (derived : Bytes) : BE BsslKey :=
  if type = 3 then do
    need lib .implementationSpecific
    return ⟨type, .inr (.ed25519 derived)⟩
  else if type = 4 then return ⟨type, .inl derived⟩
  else if type = 1 ∨ type = 2 then bsslEcKey lib type derived
  else throw .invalidKeyType

/-- `bssl.cpp` 621-639: the 32 octets a key is made of. -/
def bsslDerive (lib : Lib) (bits : Bytes) (context : Option GatherList) : BE Bytes := do
  let c ← gatherToVector context
  let r ← (libExpand lib .sha512 bits c 32 : B _)
  match r with
  | .ok okm => return okm
  | .error _ => throw .implementationSpecific

/-- `bssl.cpp` 621-733: the key object of `n20_crypto_boringssl_kdf`, from `gather_list_to_vector` on. -/
def bsslKdfKey (lib : Lib) (bits : Bytes) (type : UInt32) (context : Option GatherList) : BE BsslKey := do
  let derived ← bsslDerive lib bits context
  bsslMakeKey lib type derived

/-- `bssl.cpp` 621-733: the same, up to the assignment of `*key_out` at the end. -/
def bsslKdfRun (lib : Lib) (bits : Bytes) (type : UInt32) (context : Option GatherList) : BE Nat := do
  let key ← bsslKdfKey lib bits type context
  (newKey key : B _)

/-- An error code and the value of an output parameter for a key handle afterwards; handles that are NULL are `none`
(`key_out` of `bssl.cpp` 597-601, 1048-1050). -/
abbrev KeyReply := N20Error × Option (Option Nat)

/-- The result of a function that assigns its output in case of success only (`bssl.cpp` 597-734, 1048-1071). -/
def keyReply (c : BE Nat) (old : Option Nat) : B KeyReply := do
  let r ← c.run
  match r with
  | .ok p => return (.ok, some (some p))
  | .error e => return (e, some old)

/-- `bssl.cpp` 597-734: `n20_crypto_boringssl_kdf`; `keyOut` is the contents of `*key_out` before the call. -/
def bsslKdf (lib : Lib) (ctx : Option Unit) (keyIn : Option Nat) (type : UInt32) (context : Option GatherList) (keyOut : Option (Option Nat)) : B KeyReply :=
  match ctx, keyIn with
  | none, _ => return (.invalidContext, keyOut)
  | some _, none => return (.nullKeyIn, keyOut)
  | some _, some p => do
    let k ← loadKey p
    if k.type ≠ 4 then return (.invalidKey, keyOut)
    else do
      let bits ← liftB (castCdi k)
      match keyOut with
      | none => return (.nullKeyOut, keyOut)
      | some old => keyReply (bsslKdfRun lib bits type context) old

/-- `bssl.cpp` 1048-1073: `n20_crypto_boringssl_make_secret`. -/
def bsslMakeSecret (ctx : Option Unit) (secret : Option Slice) (keyOut : Option (Option Nat)) : B KeyReply :=
  match ctx, secret with
  | none, _ => return (.invalidContext, keyOut)
  | some _, none => return (.nullData, keyOut)
  | some _, some s =>
    match s.buffer with
    | none => return (.nullData, keyOut)
    | some p =>
      if s.size = 0 then return (.nullData, keyOut)
      else match keyOut with
        | none => return (.nullKeyOut, keyOut)
        | some _ => do
          let bits ← liftB (readSlice p s.size)
          let h ← newKey ⟨4, .inl bits⟩
          return (.ok, some (some h))

/-- `bssl.cpp` 1003-1018: `n20_crypto_boringssl_key_free`. -/
def bsslKeyFree (ctx : Option Unit) (key : Option Nat) : B N20Error :=
  match ctx, key with
  | none, _ => return .invalidContext
  | some _, none => return .ok
  | some _, some p => do
    deleteKey p
    return .ok

/-! ## Signatures -/

/-- The DER encoding of an ECDSA signature (RFC 3279 2.2.3), the result of `EVP_DigestSignFinal` (`bssl.cpp` 847). -/
def ecdsaDer (r s : Nat) : Bytes := (Der.sequence [Der.integer r, Der.integer s]).encode

/-- `bssl.cpp` 858-887: octet `i` of `signature_buffer`. -/
def sigOctet (buf : Bytes) (i : Nat) : Except UB Nat :=
  match buf[i]? with
  | some b => .ok b.toNat
  | none => .error .oobRead

/-- `bssl.cpp` 894-897: `memcpy(signature_out + end - size, &signature_buffer[offset], size)`. -/
def sigCopy (out buf : Bytes) (stop offset size : Nat) : Except UB Bytes :=
  if buf.length < offset + size then .error .oobRead
  else if stop < size ∨ out.length < stop then .error .oobWrite
  else .ok (out.take (stop - size) ++ (buf.drop offset).take size ++ out.drop stop)

/-- `bssl.cpp` 881-888: cutting off a leading zero octet. -/
def sigTrim (integerSize offset size : Nat) : Nat × Nat := if size = integerSize + 1 then (offset + 1, size - 1) else (offset, size)

/-- `bssl.cpp` 851-897: `signature_buffer` to the fixed size format in `signature_out`. -/
def sigUnwrap (buf : Bytes) (signatureSize : Nat) (out : Bytes) : Except UB Bytes := do
  let integerSize := signatureSize / 2
  let rSize ← sigOctet buf 3
  let sSize ← sigOctet buf (5 + rSize)
  let r := sigTrim integerSize 4 rSize
  let s := sigTrim integerSize (6 + rSize) sSize
  if out.length < signatureSize then .error .oobWrite
  else do
    let out := List.replicate signatureSize 0 ++ out.drop signatureSize
    let out ← sigCopy out buf integerSize r.1 r.2
    sigCopy out buf (integerSize + integerSize) s.1 s.2

/-- `bssl.cpp` 829-841: the loop over the message. -/
def signUpdate (lib : Lib) : Nat → List Slice → Bytes → BE Bytes
  | 0, _, acc => return acc
  | _ + 1, [], _ => (liftB (.error .oobRead) : B _)
  | n + 1, s :: rest, acc =>
    if s.size = 0 then signUpdate lib n rest acc
    else match s.buffer with
      | none => throw .nullSlice
      | some p => do
        let bs ← (liftB (readSlice p s.size) : B _)
        need lib .implementationSpecific
        signUpdate lib n rest (acc ++ bs)

/-- `bssl.cpp` 817-841: the octets to be signed. -/
def ecMessage (lib : Lib) (msg : Option GatherList) : BE Bytes :=
  match msg with
  | none => throw .nullData
  | some g =>
    if g.count ≠ 0 ∧ g.list = none then throw .nullList
    else do
      need lib .implementationSpecific
      signUpdate lib g.count.toNat (g.list.getD []) []

/-- `bssl.cpp` 843-900: `EVP_DigestSignFinal`, which gets the private key, and what follows.  `rest` is what is in the part of
`signature_buffer` that is not written to. -/
def ecFinal (lib : Lib) (a : Alg) (key : PKey) (text : Bytes) (signatureSize : UInt64) (rest : Bytes) (d : Bytes) : B Reply := do
  let n ← (fun w => .ok (w.calls, w) : B Nat)
  let ok ← libCall lib
  if ok = false then return ⟨.implementationSpecific, some d, some 104⟩
  else match key with
    | .ed25519 _ => liftB (.error .badCast)
    | .ec curve x => do
      let rs := lib.ecSign curve x (sha2 a text) n
      let der := ecdsaDer rs.1 rs.2
      if 104 < der.length then return ⟨.implementationSpecific, some d, some 104⟩
      else do
        let out ← liftB (sigUnwrap (der ++ rest.drop der.length) signatureSize.toNat d)
        return ⟨.ok, some out, some signatureSize⟩

/-- `bssl.cpp` 815-901: ECDSA. -/
def ecSign (lib : Lib) (a : Alg) (key : PKey) (msg : Option GatherList) (signatureSize : UInt64) (d : Bytes) (sz : UInt64) : B Reply := do
  let r ← (ecMessage lib msg).run
  match r with
  | .error e => return ⟨e, some d, some sz⟩
  | .ok text => do
    let rest ← libJunk lib 104
    ecFinal lib a key text signatureSize rest d

/-- `bssl.cpp` 800-813: `EVP_DigestSign` for Ed25519. -/
def edFinal (lib : Lib) (key : PKey) (text : Bytes) (d : Bytes) (sz : UInt64) : B Reply := do
  let ok ← libCall lib
  match ok, key with
  | false, _ => do
    let junk ← libJunk lib 64
    let o ← liftB (writeOut (some d) junk)
    return ⟨.implementationSpecific, o, some sz⟩
  | true, .ec _ _ => liftB (.error .badCast)
  | true, .ed25519 seed => do
    let o ← liftB (writeOut (some d) (lib.edSign seed text))
    return ⟨.ok, o, some (UInt64.ofNat (lib.edSign seed text).length)⟩

/-- `bssl.cpp` 794-814: Ed25519. -/
def edSign (lib : Lib) (key : PKey) (msg : Option GatherList) (d : Bytes) (sz : UInt64) : B Reply := do
  let init ← libCall lib
  if init = false then return ⟨.implementationSpecific, some d, some sz⟩
  else do
    let r ← (gatherToVector msg).run
    match r with
    | .error e => return ⟨e, some d, some sz⟩
    | .ok text => edFinal lib key text d sz

/-- `bssl.cpp` 771-786: the size of the signature. -/
def signatureSize (type : UInt32) : Option UInt64 :=
  if type = 3 then some 64 else if type = 1 then some 64 else if type = 2 then some 96 else none

/-- `bssl.cpp` 761-905: `n20_crypto_boringssl_sign` once the key is known not to be a CDI. -/
def bsslSignRun (lib : Lib) (type : UInt32) (key : PKey) (msg : Option GatherList) (out : Option Bytes) (sz : UInt64) : B Reply := do
  let new ← libCall lib
  if new = false then return ⟨.noResources, out, some sz⟩
  else match signatureSize type, out with
    | none, _ => return ⟨.invalidKey, out, some sz⟩
    | some n, none => return ⟨.insufficientBufferSize, out, some n⟩
    | some n, some d =>
      if sz < n then return ⟨.insufficientBufferSize, out, some n⟩
      else if type = 3 then edSign lib key msg d sz
      else if type = 1 then ecSign lib .sha256 key msg n d sz
      else ecSign lib .sha384 key msg n d sz

/-- `bssl.cpp` 736-906: `n20_crypto_boringssl_sign`. -/
def bsslSign (lib : Lib) (ctx : Option Unit) (key : Option Nat) (msg : Option GatherList) (out : Option Bytes) (size : Option UInt64) : B Reply :=
  match ctx, key, size with
  | none, _, _ => return ⟨.invalidContext, out, size⟩
  | some _, none, _ => return ⟨.nullKeyIn, out, size⟩
  | some _, some _, none => return ⟨.nullSize, out, size⟩
  | some _, some p, some sz => do
    let k ← loadKey p
    if k.type = 4 then return ⟨.invalidKey, out, size⟩
    else do
      let key ← liftB (castEvp k)
      bsslSignRun lib k.type key msg out sz

/-! ## Public keys -/

/-- The X9.62 encoding of an uncompressed point, the result of `i2d_PublicKey` (`bssl.cpp` 964). -/
def x962 (curve : Curve) (p : Nat × Nat) : Bytes := 0x04 :: (toBE curve.octets p.1 ++ toBE curve.octets p.2)

/-- `bssl.cpp` 930-943: the size of the public key. -/
def publicKeySize (type : UInt32) : Option UInt64 :=
  if type = 3 then some 32 else if type = 1 then some 64 else if type = 2 then some 96 else none

/-- `bssl.cpp` 955-983: the public key of an EC key. -/
def ecPublicKey (lib : Lib) (type : UInt32) (curve : Curve) (x : Nat) (n : UInt64) (d : Bytes) (sz : UInt64) : B Reply :=
  if type ≠ 1 ∧ type ≠ 2 then return ⟨.implementationSpecific, some d, some sz⟩
  else do
    let ok ← libCall lib
    if ok = false then return ⟨.noResources, some d, some sz⟩
    else do
      let info := x962 curve (lib.ecPublic curve x)
      if info.length ≠ n.toNat + 1 ∨ info.head? ≠ some 0x04 then return ⟨.implementationSpecific, some d, some n⟩
      else do
        let o ← liftB (memcpy (some d) 0 (localPtr (info.drop 1)) n)
        return ⟨.ok, some o, some n⟩

/-- `bssl.cpp` 984-997: the public key of an Ed25519 key. -/
def edPublicKey (lib : Lib) (type : UInt32) (seed : Bytes) (d : Bytes) (sz : UInt64) : B Reply :=
  if type ≠ 3 then return ⟨.implementationSpecific, some d, some sz⟩
  else do
    let ok ← libCall lib
    if ok = false then return ⟨.implementationSpecific, some d, some sz⟩
    else do
      let o ← liftB (writeOut (some d) (lib.edPublic seed))
      if (lib.edPublic seed).length ≠ 32 then return ⟨.implementationSpecific, o, some (UInt64.ofNat (lib.edPublic seed).length)⟩
      else return ⟨.ok, o, some 32⟩

/-- `bssl.cpp` 912-1001: `n20_crypto_boringssl_key_get_public_key`. -/
def bsslPublicKey (lib : Lib) (ctx : Option Unit) (key : Option Nat) (out : Option Bytes) (size : Option UInt64) : B Reply :=
  match ctx, key, size with
  | none, _, _ => return ⟨.invalidContext, out, size⟩
  | some _, none, _ => return ⟨.nullKeyIn, out, size⟩
  | some _, some _, none => return ⟨.nullSize, out, size⟩
  | some _, some p, some sz => do
    let k ← loadKey p
    match publicKeySize k.type, out with
    | none, _ => return ⟨.invalidKey, out, size⟩
    | some n, none => return ⟨.insufficientBufferSize, out, some n⟩
    | some n, some d =>
      if sz < n then return ⟨.insufficientBufferSize, out, some n⟩
      else do
        let key ← liftB (castEvp k)
        match key with
        | .ec curve x => ecPublicKey lib k.type curve x n d sz
        | .ed25519 seed => edPublicKey lib k.type seed d sz

/-! ## The context -/

/-- `bssl.cpp` 1030-1038: `n20_crypto_boringssl_open`; `ctxOut` is the contents of `*ctx`. -/
def bsslOpen (ctxOut : Option (Option Unit)) : N20Error × Option (Option Unit) :=
  match ctxOut with
  | none => (.unexpectedNull, none)
  | some _ => (.ok, some (some ()))

/-- `bssl.cpp` 1040-1046: `n20_crypto_boringssl_close`. -/
def bsslClose (ctx : Option Unit) : N20Error :=
  match ctx with
  | none => .unexpectedNull
  | some _ => .ok

end Nat20
