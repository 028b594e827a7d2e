import Verif.Model.Boringssl
/-!
# The library objects of the reference context

`Model/Boringssl.lean` says which library calls `src/crypto/crypto_boringssl.cpp` (`bssl.cpp`) makes and what they compute.  Here the functions that
take objects from the library are repeated with the objects: when each one is created, used, handed over and destroyed.  A `bssl::UniquePtr`
(`bssl.cpp` 42-52) destroys its object when its scope is left, by whichever `return`.

Simplification: uses of an object in a row with nothing destroyed in between are one use.
-/

namespace Nat20

open Fips

/-- The types of the objects (`bssl.cpp` 44-52), and memory that is released with `OPENSSL_free` (`bssl.cpp` 908-910). -/
inductive ObjKind where
  | mdCtx | hmacCtx | bignum | ecPoint | ecKey | pkey | buffer
  deriving DecidableEq, Repr

/-- An object of the library.  An `EVP_PKEY` may own an `EC_KEY` (`bssl.cpp` 720). -/
structure LibObj where
  kind : ObjKind
  child : Option Nat
  deriving DecidableEq, Repr

/-- The world of `Model/Boringssl.lean` together with the objects of the library (`bssl.cpp` 42-72).  Objects are numbered; numbers are not reused. -/
structure RWorld where
  world : World
  /-- the objects that exist -/
  live : Nat → Option LibObj
  /-- the number of the next object -/
  next : Nat
  /-- the member `key` of the key object at a handle (`bssl.cpp` 69-72) -/
  member : Nat → Option Nat

/-- Changing one value of a function (used for the memory of the library behind `bssl.cpp` 143-1015). -/
def setAt {α : Type} (f : Nat → α) (i : Nat) (v : α) : Nat → α := fun j => if j = i then v else f j

/-- Computations with objects (the functions of `bssl.cpp` 104-1073). -/
abbrev R := StateT RWorld (Except UB)

/-- The same with an error code, as `BE` (`bssl.cpp` 405, 641). -/
abbrev RE := ExceptT N20Error R

/-- A computation that deals with no objects (e.g. the argument checks, `bssl.cpp` 110-141). -/
def liftW {α : Type} (m : B α) : R α := fun s =>
  match m s.world with
  | .error e => .error e
  | .ok (a, w) => .ok (a, { s with world := w })

/-- The same for computations with error codes (e.g. `bssl.cpp` 621-639). -/
def liftE {α : Type} (m : BE α) : RE α := liftW m.run

/-- `X_new()` and the like (`bssl.cpp` 143, 186, 439, 459, 488, 557, 643, 684, 698, 715, 761, 964); NULL is `none`. -/
def newObj (lib : Lib) (kind : ObjKind) : R (Option Nat) := fun s =>
  .ok (if lib.fails s.world.calls then (none, { s with world := { s.world with calls := s.world.calls + 1 } })
    else (some s.next, { s with
      world := { s.world with calls := s.world.calls + 1 }, live := setAt s.live s.next (some ⟨kind, none⟩), next := s.next + 1 }))

/-- Passing an object to the library (e.g. `bssl.cpp` 145, 217, 226, 450). -/
def useObj (p : Option Nat) : R Unit := fun s =>
  match p with
  | none => .error .nullDeref
  | some i => match s.live i with
    | none => .error .useAfterFree
    | some _ => .ok ((), s)

/-- Destroying one object (the deleters of `bssl::UniquePtr`, `bssl.cpp` 42, and `BoringsslDeleter`, `bssl.cpp` 908-910). -/
def destroyObj (i : Nat) : R LibObj := fun s =>
  match s.live i with
  | none => .error .useAfterFree
  | some o => .ok (o, { s with live := setAt s.live i none })

/-- The destructor of a unique pointer (`bssl.cpp` 42-52): NULL is left alone, an `EVP_PKEY` destroys the `EC_KEY` that it owns. -/
def freeObj (p : Option Nat) : R Unit :=
  match p with
  | none => return ()
  | some i => do
    let o ← destroyObj i
    match o.child with
    | none => return ()
    | some j => do
      let _ ← destroyObj j
      return ()

/-- The scope of a variable that holds a unique pointer, from its initialisation to the end of the function, by whichever `return`
(e.g. `bssl.cpp` 143-171). -/
def scope {α : Type} (p : Option Nat) (body : R α) : R α := do
  let r ← body
  freeObj p
  return r

/-- The same in functions with error codes (e.g. `bssl.cpp` 439-480). -/
def scopeE {α : Type} (p : Option Nat) (body : RE α) : RE α := ExceptT.mk (scope p body.run)

/-- The scope of a variable whose object is handed over in case of success (`bssl.cpp` 565-568, 698-720). -/
def scopeMove {α : Type} (p : Option Nat) (body : RE α) : RE α := ExceptT.mk do
  let r ← body.run
  match r with
  | .error e => do
    freeObj p
    return .error e
  | .ok a => return .ok a

/-- `auto p = X_PTR_t(X_new()); if (!p) return error;` (e.g. `bssl.cpp` 439-442, 488-491). -/
def newObjE (lib : Lib) (kind : ObjKind) (e : N20Error) : RE Nat := ExceptT.mk do
  let p ← newObj lib kind
  match p with
  | none => return .error e
  | some i => return .ok i

/-- Passing an object to the library, in functions with error codes (e.g. `bssl.cpp` 450, 557). -/
def useObjE (i : Nat) : RE Unit := ExceptT.mk do
  useObj (some i)
  return .ok ()

/-- `EVP_PKEY_assign_EC_KEY(key.get(), ec_key.release())` (`bssl.cpp` 720); as in BoringSSL it cannot fail. -/
def assignEcKey (key ecKey : Nat) : RE Unit := fun s =>
  match s.live key, s.live ecKey with
  | some o, some _ => .ok (.ok (), { s with live := setAt s.live key (some { o with child := some ecKey }) })
  | _, _ => .error .useAfterFree

/-! ## Digests -/

/-- `bssl.cpp` 135-170: the part of `n20_crypto_boringssl_digest` that needs the message. -/
def bsslDigestMessageR (lib : Lib) (a : Alg) (msg : Option (List GatherList)) (count : UInt64) (d : Bytes) (sz : UInt64) : R Reply :=
  match msg with
  | none => return ⟨.nullData, some d, some sz⟩
  | some [] => liftW (liftB (.error .oobRead))
  | some (g :: gs) =>
    if g.count ≠ 0 ∧ g.list = none then return ⟨.nullList, some d, some sz⟩
    else do
      let ctx ← newObj lib .mdCtx
      scope ctx do
        useObj ctx
        let init ← liftW (libCall lib)
        if init = false then return ⟨.noResources, some d, some sz⟩
        else do
          useObj ctx
          liftW (liftB (bsslDigestRun a (g :: gs) count d sz))

/-- `bssl.cpp` 104-171: `n20_crypto_boringssl_digest`. -/
def bsslDigestR (lib : Lib) (ctx : Option Unit) (alg : UInt32) (msg : Option (List GatherList)) (count : UInt64) (out : Option Bytes)
    (size : Option UInt64) : R Reply :=
  match ctx with
  | none => return ⟨.invalidContext, out, size⟩
  | some _ =>
    match bsslMd alg, size, out with
    | none, _, _ => return ⟨.unknownAlgorithm, out, size⟩
    | some _, none, _ => return ⟨.nullSize, out, size⟩
    | some _, some _, none => return ⟨.insufficientBufferSize, out, some (bsslDigestSize alg)⟩
    | some a, some sz, some d =>
      if bsslDigestSize alg > sz then return ⟨.insufficientBufferSize, out, some (bsslDigestSize alg)⟩
      else bsslDigestMessageR lib a msg count d sz

/-- `bssl.cpp` 209-234: the part of `n20_crypto_boringssl_hmac` that needs the message; `ctx` is `hmac_ctx`. -/
def bsslHmacMessageR (lib : Lib) (ctx : Option Nat) (a : Alg) (key : Slice) (msg : Option GatherList) (d : Bytes) (sz : UInt64) : R Reply :=
  match msg with
  | none => return ⟨.nullData, some d, some sz⟩
  | some g =>
    if g.count ≠ 0 ∧ g.list = none then return ⟨.nullList, some d, some sz⟩
    else do
      let k ← liftW (liftB (readArg key))
      useObj ctx
      let init ← liftW (libCall lib)
      if init = false then return ⟨.noResources, some d, some sz⟩
      else do
        let r ← liftW (liftB (bsslSlices g.count.toNat (g.list.getD []) []))
        if r.1 = .ok then do
          useObj ctx
          liftW (bsslHmacFinal lib a k r.2 d sz)
        else return ⟨r.1, some d, some sz⟩

/-- `bssl.cpp` 191-234: `n20_crypto_boringssl_hmac` from the second check on. -/
def bsslHmacRestR (lib : Lib) (ctx : Option Nat) (alg : UInt32) (key : Slice) (msg : Option GatherList) (out : Option Bytes) (sz : UInt64) : R Reply :=
  match bsslMd alg, out with
  | none, _ => return ⟨.unknownAlgorithm, out, some sz⟩
  | some a, out =>
    if key.buffer = none ∧ key.size ≠ 0 then return ⟨.nullSliceKey, out, some sz⟩
    else match out with
      | none => return ⟨.insufficientBufferSize, out, some (bsslDigestSize alg)⟩
      | some d =>
        if bsslDigestSize alg > sz then return ⟨.insufficientBufferSize, out, some (bsslDigestSize alg)⟩
        else bsslHmacMessageR lib ctx a key msg d sz

/-- `bssl.cpp` 173-235: `n20_crypto_boringssl_hmac`. -/
def bsslHmacR (lib : Lib) (ctx : Option Unit) (alg : UInt32) (key : Slice) (msg : Option GatherList) (out : Option Bytes) (size : Option UInt64) : R Reply :=
  match ctx, size with
  | none, _ => return ⟨.invalidContext, out, size⟩
  | some _, none => return ⟨.nullSize, out, size⟩
  | some _, some sz => do
    let hctx ← newObj lib .hmacCtx
    if hctx = none then return ⟨.noResources, out, size⟩
    else scope hctx (bsslHmacRestR lib hctx alg key msg out sz)

/-! ## RFC 6979 -/

/-- `bssl.cpp` 459-478: `h1 - q`, or `h1` if that is negative; `b1` is `h1_bn`. -/
def rfcReduceR (lib : Lib) (b1 : Nat) (rlen h1 q : Nat) : RE Bytes := do
  let b2 ← newObjE lib .bignum .noResources
  scopeE (some b2) do
    useObjE b1
    useObjE b2
    liftE (need lib .noResources)
    let h2 : Int := (h1 : Int) - (q : Int)
    if h2 < 0 then do
      useObjE b1
      liftE (bnPadded lib rlen h1)
    else do
      useObjE b2
      liftE (bnPadded lib rlen h2.toNat)

/-- `bssl.cpp` 422-481: `h1` for a message. -/
def rfcH1R (lib : Lib) (a : Alg) (m : Bytes) (q : Nat) : RE Bytes := do
  let qlen := bnNumBits q
  let rlen := (qlen + 7) / 8
  liftE (need lib .implementationSpecific)
  let digest := sha2 a m
  let b1 ← newObjE lib .bignum .noResources
  scopeE (some b1) do
    useObjE b1
    let h1 ← liftE (rfcShift lib digest.length qlen (Der.fromBE digest))
    rfcReduceR lib b1 rlen h1 q

/-- `bssl.cpp` 571-585: a new `K` and `V` after a candidate was rejected; `ctx` is `hmac_ctx`. -/
def rfcAgainR (lib : Lib) (ctx : Nat) (a : Alg) (K V : Bytes) : RE (Bytes × Bytes) := do
  useObjE ctx
  let K ← liftE (rfcUpdateK lib a K V 0 [])
  let V ← liftE (rfcUpdateV lib a K V)
  return (K, V)

/-- `bssl.cpp` 536-586: the loop; `ctx` is `hmac_ctx` and `k` the candidate of the previous iteration, which is destroyed when another one is assigned
(557) or the function is left.  The result is the number and the object that holds it. -/
def rfcLoopR (lib : Lib) (ctx : Nat) (a : Alg) (q : Nat) : Nat → Option Nat → Bytes → Bytes → RE (Nat × Nat)
  | 0, _, _, _ => fun _ => .error .diverges
  | fuel + 1, k, K, V => do
    let qlen := bnNumBits q
    let iterations := (qlen + a.size * 8 - 1) / (a.size * 8)
    let r ← scopeMove k (liftE (rfcT lib a K iterations V []))
    let new ← (ExceptT.lift (newObj lib .bignum) : RE _)
    (ExceptT.lift (freeObj k) : RE _)
    match new with
    | none => throw .noResources
    | some i => do
      scopeMove (some i) (do
        useObjE i
        liftE (need lib .noResources))
      let c := Der.fromBE r.2 >>> (r.2.length * 8 - qlen)
      if c ≠ 0 ∧ c < q then return (c, i)
      else do
        let KV ← scopeMove (some i) (rfcAgainR lib ctx a K r.1)
        rfcLoopR lib ctx a q fuel (some i) KV.1 KV.2

/-- `bssl.cpp` 422-481: `h1` is empty without a message. -/
def rfcOptH1R (lib : Lib) (a : Alg) (m : Option Bytes) (q : Nat) : RE Bytes :=
  match m with
  | none => return []
  | some m => rfcH1R lib a m q

/-- `bssl.cpp` 405-587: `rfc6979_k_generation`. -/
def rfc6979R (lib : Lib) (x : Bytes) (m : Option Bytes) (alg : UInt32) (q : Nat) : RE (Nat × Nat) :=
  match bsslMd alg with
  | none => throw .unknownAlgorithm
  | some a => do
    let h1 ← rfcOptH1R lib a m q
    let ctx ← newObjE lib .hmacCtx .noResources
    scopeE (some ctx) do
      useObjE ctx
      let r ← liftE (rfcSeed lib a x h1 (List.replicate a.size 0) (List.replicate a.size 1))
      rfcLoopR lib ctx a q lib.patience none r.1 r.2

/-! ## Keys -/

/-- `new` and the assignment of the member `key` (`bssl.cpp` 648-653, 658-660, 722-724, 1058-1064). -/
def newKeyR (k : BsslKey) (member : Option Nat) : R Nat := do
  let h ← liftW (newKey k)
  fun s => .ok (h, { s with member := setAt s.member h member })

/-- `bssl.cpp` 698-725: the `EVP_PKEY` of the key object `key` for a private key `k` and a public key `point`. -/
def ecKeyR (lib : Lib) (key : BsslKey) (k point : Nat) : RE (BsslKey × Option Nat) := do
  let ec ← newObjE lib .ecKey .noResources
  scopeMove (some ec) do
    useObjE ec
    liftE (need lib .implementationSpecific)
    useObjE k
    liftE (need lib .implementationSpecific)
    useObjE point
    liftE (need lib .implementationSpecific)
    let pkey ← newObjE lib .pkey .noResources
    assignEcKey pkey ec
    return (key, some pkey)

/-- `bssl.cpp` 684-725: the same for a private key. -/
def ecPairR (lib : Lib) (key : BsslKey) (k : Nat) : RE (BsslKey × Option Nat) := do
  let point ← newObjE lib .ecPoint .noResources
  scopeE (some point) do
    useObjE point
    useObjE k
    liftE (need lib .implementationSpecific)
    ecKeyR lib key k point

/-- `bssl.cpp` 664-725: the key object and its member `key`. -/
def bsslEcKeyR (lib : Lib) (type : UInt32) (derived : Bytes) : RE (BsslKey × Option Nat) := do
  let curve := if type = 1 then Curve.p256 else Curve.p384
  liftE (need lib .implementationSpecific)
  let r ← rfc6979R lib derived none 3 curve.order
  scopeE (some r.2) (ecPairR lib ⟨type, .inr (.ec curve r.1)⟩ r.2)

/-- `bssl.cpp` 641-733: the derived key object. -/
def bsslMakeKeyR (lib : Lib) (type : UInt32) (derived : Bytes) : RE (BsslKey × Option Nat) :=
  if type = 3 then do
    let key ← newObjE lib .pkey .implementationSpecific
    return (⟨type, .inr (.ed25519 derived)⟩, some key)
  else if type = 4 then return (⟨type, .inl derived⟩, none)
  else if type = 1 ∨ type = 2 then bsslEcKeyR lib type derived
  else throw .invalidKeyType

/-- `bssl.cpp` 621-733: the key object and its member, from `gather_list_to_vector` on. -/
def bsslKdfKeyR (lib : Lib) (bits : Bytes) (type : UInt32) (context : Option GatherList) : RE (BsslKey × Option Nat) := do
  let derived ← liftE (bsslDerive lib bits context)
  bsslMakeKeyR lib type derived

/-- `bssl.cpp` 621-733: the same, up to the assignment of `*key_out` at the end. -/
def bsslKdfRunR (lib : Lib) (bits : Bytes) (type : UInt32) (context : Option GatherList) : RE Nat := do
  let key ← bsslKdfKeyR lib bits type context
  (ExceptT.lift (newKeyR key.1 key.2) : RE _)

/-- The result of a function that assigns its output in case of success only (`bssl.cpp` 597-734). -/
def keyReplyR (c : RE Nat) (old : Option Nat) : R KeyReply := do
  let r ← c.run
  match r with
  | .ok p => return (.ok, some (some p))
  | .error e => return (e, some old)

/-- `bssl.cpp` 597-734: `n20_crypto_boringssl_kdf`. -/
def bsslKdfR (lib : Lib) (ctx : Option Unit) (keyIn : Option Nat) (type : UInt32) (context : Option GatherList) (keyOut : Option (Option Nat)) : R KeyReply :=
  match ctx, keyIn with
  | none, _ => return (.invalidContext, keyOut)
  | some _, none => return (.nullKeyIn, keyOut)
  | some _, some p => do
    let k ← liftW (loadKey p)
    if k.type ≠ 4 then return (.invalidKey, keyOut)
    else do
      let bits ← liftW (liftB (castCdi k))
      match keyOut with
      | none => return (.nullKeyOut, keyOut)
      | some old => keyReplyR (bsslKdfRunR lib bits type context) old

/-- `bssl.cpp` 1048-1073: `n20_crypto_boringssl_make_secret`. -/
def bsslMakeSecretR (ctx : Option Unit) (secret : Option Slice) (keyOut : Option (Option Nat)) : R KeyReply :=
  match ctx, secret with
  | none, _ => return (.invalidContext, keyOut)
  | some _, none => return (.nullData, keyOut)
  | some _, some s =>
    match s.buffer with
    | none => return (.nullData, keyOut)
    | some p =>
      if s.size = 0 then return (.nullData, keyOut)
      else match keyOut with
        | none => return (.nullKeyOut, keyOut)
        | some _ => do
          let bits ← liftW (liftB (readSlice p s.size))
          let h ← newKeyR ⟨4, .inl bits⟩ none
          return (.ok, some (some h))

/-- The member `key` of a key object (`bssl.cpp` 71). -/
def memberOf (p : Nat) : R (Option Nat) := fun s => .ok (s.member p, s)

/-- `bssl.cpp` 1003-1018: `n20_crypto_boringssl_key_free`; the destructor (62, 67, 72) is virtual, so that the member is destroyed with its key object. -/
def bsslKeyFreeR (ctx : Option Unit) (key : Option Nat) : R N20Error :=
  match ctx, key with
  | none, _ => return .invalidContext
  | some _, none => return .ok
  | some _, some p => do
    liftW (deleteKey p)
    let m ← memberOf p
    freeObj m
    return .ok

/-! ## Signatures and public keys -/

/-- `bssl.cpp` 765-905: `n20_crypto_boringssl_sign` from the second check on; `ctx` is `md_ctx`, `m` the member `key` of the key object. -/
def bsslSignRestR (lib : Lib) (ctx m : Option Nat) (type : UInt32) (key : PKey) (msg : Option GatherList) (out : Option Bytes) (sz : UInt64) : R Reply :=
  match signatureSize type, out with
  | none, _ => return ⟨.invalidKey, out, some sz⟩
  | some n, none => return ⟨.insufficientBufferSize, out, some n⟩
  | some n, some d =>
    if sz < n then return ⟨.insufficientBufferSize, out, some n⟩
    else do
      useObj ctx
      useObj m
      if type = 3 then liftW (edSign lib key msg d sz)
      else if type = 1 then liftW (ecSign lib .sha256 key msg n d sz)
      else liftW (ecSign lib .sha384 key msg n d sz)

/-- `bssl.cpp` 761-905: `n20_crypto_boringssl_sign` once the key is known not to be a CDI. -/
def bsslSignRunR (lib : Lib) (m : Option Nat) (type : UInt32) (key : PKey) (msg : Option GatherList) (out : Option Bytes) (sz : UInt64) : R Reply := do
  let ctx ← newObj lib .mdCtx
  if ctx = none then return ⟨.noResources, out, some sz⟩
  else scope ctx (bsslSignRestR lib ctx m type key msg out sz)

/-- `bssl.cpp` 736-906: `n20_crypto_boringssl_sign`. -/
def bsslSignR (lib : Lib) (ctx : Option Unit) (key : Option Nat) (msg : Option GatherList) (out : Option Bytes) (size : Option UInt64) : R Reply :=
  match ctx, key, size with
  | none, _, _ => return ⟨.invalidContext, out, size⟩
  | some _, none, _ => return ⟨.nullKeyIn, out, size⟩
  | some _, some _, none => return ⟨.nullSize, out, size⟩
  | some _, some p, some sz => do
    let k ← liftW (loadKey p)
    if k.type = 4 then return ⟨.invalidKey, out, size⟩
    else do
      let key ← liftW (liftB (castEvp k))
      let m ← memberOf p
      bsslSignRunR lib m k.type key msg out sz

/-- `bssl.cpp` 970-983: the part of the EC case of `n20_crypto_boringssl_key_get_public_key` that deals with the memory from `i2d_PublicKey`. -/
def ecPublicKeyCopy (info : Bytes) (n : UInt64) (d : Bytes) : B Reply :=
  if info.length ≠ n.toNat + 1 ∨ info.head? ≠ some 0x04 then return ⟨.implementationSpecific, some d, some n⟩
  else do
    let o ← liftB (memcpy (some d) 0 (localPtr (info.drop 1)) n)
    return ⟨.ok, some o, some n⟩

/-- `bssl.cpp` 955-983: the public key of an EC key; `m` is the member `key`. -/
def ecPublicKeyR (lib : Lib) (m : Option Nat) (type : UInt32) (curve : Curve) (x : Nat) (n : UInt64) (d : Bytes) (sz : UInt64) : R Reply :=
  if type ≠ 1 ∧ type ≠ 2 then return ⟨.implementationSpecific, some d, some sz⟩
  else do
    useObj m
    let info ← newObj lib .buffer
    if info = none then return ⟨.noResources, some d, some sz⟩
    else scope info do
      useObj info
      liftW (ecPublicKeyCopy (x962 curve (lib.ecPublic curve x)) n d)

/-- `bssl.cpp` 984-997: the public key of an Ed25519 key. -/
def edPublicKeyR (lib : Lib) (m : Option Nat) (type : UInt32) (seed : Bytes) (d : Bytes) (sz : UInt64) : R Reply := do
  useObj m
  liftW (edPublicKey lib type seed d sz)

/-- `bssl.cpp` 912-1001: `n20_crypto_boringssl_key_get_public_key`. -/
def bsslPublicKeyR (lib : Lib) (ctx : Option Unit) (key : Option Nat) (out : Option Bytes) (size : Option UInt64) : R Reply :=
  match ctx, key, size with
  | none, _, _ => return ⟨.invalidContext, out, size⟩
  | some _, none, _ => return ⟨.nullKeyIn, out, size⟩
  | some _, some _, none => return ⟨.nullSize, out, size⟩
  | some _, some p, some sz => do
    let k ← liftW (loadKey p)
    match publicKeySize k.type, out with
    | none, _ => return ⟨.invalidKey, out, size⟩
    | some n, none => return ⟨.insufficientBufferSize, out, some n⟩
    | some n, some d =>
      if sz < n then return ⟨.insufficientBufferSize, out, some n⟩
      else do
        let key ← liftW (liftB (castEvp k))
        let m ← memberOf p
        match key with
        | .ec curve x => ecPublicKeyR lib m k.type curve x n d sz
        | .ed25519 seed => edPublicKeyR lib m k.type seed d sz

end Nat20
