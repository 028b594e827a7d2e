import Verif.Model.Resources
/-!
# Running out of memory in the reference context

`src/crypto/crypto_boringssl.cpp` (`bssl.cpp`) allocates memory with `new` and with `std::vector`.  If there is none left, these throw an exception, and nothing
in the file catches one.  Only `n20_crypto_boringssl_kdf`, `_sign` (with an Ed25519 key) and `_make_secret` allocate; they are repeated here.  Before an exception
leaves a function, the destructors of its variables run, as before a `return`.

Simplifications: an insertion into a vector and a copy of a vector may allocate, whether or not the vector has room; allocations in a row that are released
together on every path are still told apart by `AllocSite`, so that each of them may fail.
-/

namespace Nat20

open Fips

/-- The places where memory is allocated: appending slice `i` to a vector (`bssl.cpp` 377), copying a vector (626, 805: the variable is `const`, so that
`std::move` copies), `derived` (628), `V` (484), `K` (486), `T` (539), `new` (648, 658, 722, 1063) and the contents of a secret (1069). -/
inductive AllocSite where
  | insert (i : Nat) | copy | derived | v | k | t | newKey | bits
  deriving DecidableEq, Repr

/-- Whether there is memory left during a call (`bssl.cpp` 377-1069): it may depend on the place and on the number of library calls so far, so that each allocation
of a call may succeed or fail. -/
abbrev AllocOk := AllocSite → Nat → Bool

/-- Why a function is left early (`bssl.cpp` 405-1073): by returning an error, or by an exception. -/
inductive Stop where
  | code (e : N20Error)
  | badAlloc
  deriving DecidableEq, Repr

/-- As `RE`, with exceptions (`bssl.cpp` 405, 597). -/
abbrev XE := ExceptT Stop R

/-- An allocation (`bssl.cpp` 377, 484, 486, 539, 626, 628, 648, 658, 722, 805, 1063, 1069). -/
def allocX (mem : AllocOk) (site : AllocSite) : XE Unit := fun s =>
  if mem site s.world.calls then .ok (.ok (), s) else .ok (.error .badAlloc, s)

/-- A computation without allocations and objects (e.g. `bssl.cpp` 630-639). -/
def liftX {α : Type} (m : BE α) : XE α := fun s =>
  match m.run s.world with
  | .error u => .error u
  | .ok (.error e, w) => .ok (.error (.code e), { s with world := w })
  | .ok (.ok a, w) => .ok (.ok a, { s with world := w })

/-- As `newObjE` (e.g. `bssl.cpp` 488-491). -/
def newObjX (lib : Lib) (kind : ObjKind) (e : N20Error) : XE Nat := ExceptT.mk do
  let p ← newObj lib kind
  match p with
  | none => return .error (.code e)
  | some i => return .ok i

/-- As `useObjE` (e.g. `bssl.cpp` 557). -/
def useObjX (i : Nat) : XE Unit := ExceptT.mk do
  useObj (some i)
  return .ok ()

/-- As `scopeE`; the destructor runs when an exception is thrown, too (e.g. `bssl.cpp` 488-587). -/
def scopeX {α : Type} (p : Option Nat) (body : XE α) : XE α := ExceptT.mk (scope p body.run)

/-- As `scopeMove`: the object is kept in case of success only (`bssl.cpp` 565-568, 643-651, 698-720, 715-724). -/
def scopeMoveX {α : Type} (p : Option Nat) (body : XE α) : XE α := ExceptT.mk do
  let r ← body.run
  match r with
  | .error e => do
    freeObj p
    return .error e
  | .ok a => return .ok a

/-! ## Key derivation -/

/-- `bssl.cpp` 372-379: the loop of `gather_list_to_vector`; `i` is the number of the slice. -/
def gatherSlicesX (mem : AllocOk) : Nat → Nat → List Slice → Bytes → XE Bytes
  | _, 0, _, acc => return acc
  | _, _ + 1, [], _ => fun _ => .error .oobRead
  | i, n + 1, s :: rest, acc =>
    if s.size = 0 then gatherSlicesX mem (i + 1) n rest acc
    else match s.buffer with
      | none => throw (.code .nullSlice)
      | some p => do
        allocX mem (.insert i)
        let bs ← liftX (liftB (readSlice p s.size) : B _)
        gatherSlicesX mem (i + 1) n rest (acc ++ bs)

/-- `bssl.cpp` 361-382 and 626, 805: `gather_list_to_vector` and the copy of its result. -/
def gatherToVectorX (mem : AllocOk) (g : Option GatherList) : XE Bytes :=
  match g with
  | none => throw (.code .nullData)
  | some g =>
    if g.count ≠ 0 ∧ g.list = none then throw (.code .nullList)
    else do
      let bytes ← gatherSlicesX mem 0 g.count.toNat (g.list.getD []) []
      allocX mem .copy
      return bytes

/-- `bssl.cpp` 630-639: `HKDF_expand` into `derived`. -/
def expandDerived (lib : Lib) (bits c : Bytes) : BE Bytes := do
  let r ← (libExpand lib .sha512 bits c 32 : B _)
  match r with
  | .ok okm => return okm
  | .error _ => throw .implementationSpecific

/-- `bssl.cpp` 621-639: the 32 octets a key is made of. -/
def bsslDeriveX (lib : Lib) (mem : AllocOk) (bits : Bytes) (context : Option GatherList) : XE Bytes := do
  let c ← gatherToVectorX mem context
  allocX mem .derived
  liftX (expandDerived lib bits c)

/-- `bssl.cpp` 571-585: a new `K` and `V`. -/
def rfcAgainX (lib : Lib) (ctx : Nat) (a : Alg) (K V : Bytes) : XE (Bytes × Bytes) := do
  useObjX ctx
  let K ← liftX (rfcUpdateK lib a K V 0 [])
  let V ← liftX (rfcUpdateV lib a K V)
  return (K, V)

/-- `bssl.cpp` 538-549: filling `T`. -/
def rfcTX (lib : Lib) (mem : AllocOk) (a : Alg) (K V : Bytes) (iterations : Nat) : XE (Bytes × Bytes) := do
  allocX mem .t
  liftX (rfcT lib a K iterations V [])

/-- `bssl.cpp` 536-586: the loop, as `rfcLoopR`. -/
def rfcLoopX (lib : Lib) (mem : AllocOk) (ctx : Nat) (a : Alg) (q : Nat) : Nat → Option Nat → Bytes → Bytes → XE (Nat × Nat)
  | 0, _, _, _ => fun _ => .error .diverges
  | fuel + 1, k, K, V => do
    let qlen := bnNumBits q
    let iterations := (qlen + a.size * 8 - 1) / (a.size * 8)
    let r ← scopeMoveX k (rfcTX lib mem a K V iterations)
    let new ← (ExceptT.lift (newObj lib .bignum) : XE _)
    (ExceptT.lift (freeObj k) : XE _)
    match new with
    | none => throw (.code .noResources)
    | some i => do
      scopeMoveX (some i) (do
        useObjX i
        liftX (need lib .noResources))
      let c := Der.fromBE r.2 >>> (r.2.length * 8 - qlen)
      if c ≠ 0 ∧ c < q then return (c, i)
      else do
        let KV ← scopeMoveX (some i) (rfcAgainX lib ctx a K r.1)
        rfcLoopX lib mem ctx a q fuel (some i) KV.1 KV.2

/-- `bssl.cpp` 405-587: `rfc6979_k_generation` without a message, as it is called (675-676). -/
def rfc6979X (lib : Lib) (mem : AllocOk) (x : Bytes) (alg : UInt32) (q : Nat) : XE (Nat × Nat) :=
  match bsslMd alg with
  | none => throw (.code .unknownAlgorithm)
  | some a => do
    allocX mem .v
    allocX mem .k
    let ctx ← newObjX lib .hmacCtx .noResources
    scopeX (some ctx) do
      useObjX ctx
      let r ← liftX (rfcSeed lib a x [] (List.replicate a.size 0) (List.replicate a.size 1))
      rfcLoopX lib mem ctx a q lib.patience none r.1 r.2

/-- `bssl.cpp` 720: as `assignEcKey`. -/
def assignEcKeyX (key ecKey : Nat) : XE Unit := fun s =>
  match s.live key, s.live ecKey with
  | some o, some _ => .ok (.ok (), { s with live := setAt s.live key (some { o with child := some ecKey }) })
  | _, _ => .error .useAfterFree

/-- `bssl.cpp` 698-720: the `EVP_PKEY`; from 720 on it owns the `EC_KEY`. -/
def ecPkeyX (lib : Lib) (k point : Nat) : XE Nat := do
  let ec ← newObjX lib .ecKey .noResources
  scopeMoveX (some ec) do
    useObjX ec
    liftX (need lib .implementationSpecific)
    useObjX k
    liftX (need lib .implementationSpecific)
    useObjX point
    liftX (need lib .implementationSpecific)
    let pkey ← newObjX lib .pkey .noResources
    assignEcKeyX pkey ec
    return pkey

/-- `bssl.cpp` 698-725: as `ecKeyR`; if `new` (722) throws, the `EVP_PKEY` is still in `key` (715). -/
def ecKeyX (lib : Lib) (mem : AllocOk) (key : BsslKey) (k point : Nat) : XE (BsslKey × Option Nat) := do
  let pkey ← ecPkeyX lib k point
  scopeMoveX (some pkey) (allocX mem .newKey)
  return (key, some pkey)

/-- `bssl.cpp` 684-725: the same for a private key. -/
def ecPairX (lib : Lib) (mem : AllocOk) (key : BsslKey) (k : Nat) : XE (BsslKey × Option Nat) := do
  let point ← newObjX lib .ecPoint .noResources
  scopeX (some point) do
    useObjX point
    useObjX k
    liftX (need lib .implementationSpecific)
    ecKeyX lib mem key k point

/-- `bssl.cpp` 664-725: the key object and its member `key`. -/
def bsslEcKeyX (lib : Lib) (mem : AllocOk) (type : UInt32) (derived : Bytes) : XE (BsslKey × Option Nat) := do
  let curve := if type = 1 then Curve.p256 else Curve.p384
  liftX (need lib .implementationSpecific)
  let r ← rfc6979X lib mem derived 3 curve.order
  scopeX (some r.2) (ecPairX lib mem ⟨type, .inr (.ec curve r.1)⟩ r.2)

/-- `bssl.cpp` 641-733: the derived key object. -/
def bsslMakeKeyX (lib : Lib) (mem : AllocOk) (type : UInt32) (derived : Bytes) : XE (BsslKey × Option Nat) :=
  if type = 3 then do
    let key ← newObjX lib .pkey .implementationSpecific
    scopeMoveX (some key) (allocX mem .newKey)
    return (⟨type, .inr (.ed25519 derived)⟩, some key)
  else if type = 4 then do
    allocX mem .newKey
    return (⟨type, .inl derived⟩, none)
  else if type = 1 ∨ type = 2 then bsslEcKeyX lib mem type derived
  else throw (.code .invalidKeyType)

/-- `bssl.cpp` 621-733: the key object and its member, from `gather_list_to_vector` on. -/
def bsslKdfKeyX (lib : Lib) (mem : AllocOk) (bits : Bytes) (type : UInt32) (context : Option GatherList) : XE (BsslKey × Option Nat) := do
  let derived ← bsslDeriveX lib mem bits context
  bsslMakeKeyX lib mem type derived

/-- `bssl.cpp` 621-733: the same, up to the assignment of `*key_out` at the end. -/
def bsslKdfRunX (lib : Lib) (mem : AllocOk) (bits : Bytes) (type : UInt32) (context : Option GatherList) : XE Nat := do
  let key ← bsslKdfKeyX lib mem bits type context
  (ExceptT.lift (newKeyR key.1 key.2) : XE _)

/-! ## Calls -/

/-- The end of a call (`bssl.cpp` 597-734, 736-906, 1048-1073): it returns `r`, or an exception leaves it while `l` is in the variables of the caller. -/
inductive Ended (α β : Type) where
  | returned (r : α)
  | threw (l : β)
  deriving DecidableEq, Repr

/-- As `keyReplyR` (`bssl.cpp` 597-734): `*key_out` is assigned in case of success only. -/
def keyReplyX (c : XE Nat) (old : Option Nat) : R (Ended KeyReply (Option (Option Nat))) := do
  let r ← c.run
  match r with
  | .ok p => return .returned (.ok, some (some p))
  | .error (.code e) => return .returned (e, some old)
  | .error .badAlloc => return .threw (some old)

/-- `bssl.cpp` 597-734: `n20_crypto_boringssl_kdf`. -/
def bsslKdfX (lib : Lib) (mem : AllocOk) (ctx : Option Unit) (keyIn : Option Nat) (type : UInt32) (context : Option GatherList) (keyOut : Option (Option Nat)) :
    R (Ended KeyReply (Option (Option Nat))) :=
  match ctx, keyIn with
  | none, _ => return .returned (.invalidContext, keyOut)
  | some _, none => return .returned (.nullKeyIn, keyOut)
  | some _, some p => do
    let k ← liftW (loadKey p)
    if k.type ≠ 4 then return .returned (.invalidKey, keyOut)
    else do
      let bits ← liftW (liftB (castCdi k))
      match keyOut with
      | none => return .returned (.nullKeyOut, keyOut)
      | some old => keyReplyX (bsslKdfRunX lib mem bits type context) old

/-- `bssl.cpp` 1063-1072: the key object is created with no contents; until 1071 only the variable `new_key`, which is no unique pointer, refers to it. -/
def makeSecretRunX (mem : AllocOk) (p : Ptr) (size : UInt64) : XE Nat := do
  allocX mem .newKey
  let h ← (ExceptT.lift (newKeyR ⟨4, .inl []⟩ none) : XE _)
  allocX mem .bits
  let bits ← liftX (liftB (readSlice p size) : B _)
  (fun s => .ok (.ok h, { s with world := { s.world with heap := s.world.heap.set h (some ⟨4, .inl bits⟩) } }) : XE Nat)

/-- `bssl.cpp` 1048-1073: `n20_crypto_boringssl_make_secret`. -/
def bsslMakeSecretX (mem : AllocOk) (ctx : Option Unit) (secret : Option Slice) (keyOut : Option (Option Nat)) : R (Ended KeyReply (Option (Option Nat))) :=
  match ctx, secret with
  | none, _ => return .returned (.invalidContext, keyOut)
  | some _, none => return .returned (.nullData, keyOut)
  | some _, some s =>
    match s.buffer with
    | none => return .returned (.nullData, keyOut)
    | some p =>
      if s.size = 0 then return .returned (.nullData, keyOut)
      else match keyOut with
        | none => return .returned (.nullKeyOut, keyOut)
        | some old => keyReplyX (makeSecretRunX mem p s.size) old

/-- `bssl.cpp` 794-814: Ed25519. -/
def edSignX (lib : Lib) (mem : AllocOk) (key : PKey) (msg : Option GatherList) (d : Bytes) (sz : UInt64) : R (Ended Reply (Option Bytes × Option UInt64)) := do
  let init ← liftW (libCall lib)
  if init = false then return .returned ⟨.implementationSpecific, some d, some sz⟩
  else do
    let r ← (gatherToVectorX mem msg).run
    match r with
    | .error (.code e) => return .returned ⟨e, some d, some sz⟩
    | .error .badAlloc => return .threw (some d, some sz)
    | .ok text => do return .returned (← liftW (edFinal lib key text d sz))

/-- `bssl.cpp` 765-905: as `bsslSignRestR`. -/
def bsslSignRestX (lib : Lib) (mem : AllocOk) (ctx m : Option Nat) (type : UInt32) (key : PKey) (msg : Option GatherList) (out : Option Bytes) (sz : UInt64) :
    R (Ended Reply (Option Bytes × Option UInt64)) :=
  match signatureSize type, out with
  | none, _ => return .returned ⟨.invalidKey, out, some sz⟩
  | some n, none => return .returned ⟨.insufficientBufferSize, out, some n⟩
  | some n, some d =>
    if sz < n then return .returned ⟨.insufficientBufferSize, out, some n⟩
    else do
      useObj ctx
      useObj m
      if type = 3 then edSignX lib mem key msg d sz
      else if type = 1 then do return .returned (← liftW (ecSign lib .sha256 key msg n d sz))
      else do return .returned (← liftW (ecSign lib .sha384 key msg n d sz))

/-- `bssl.cpp` 761-905: `n20_crypto_boringssl_sign` once the key is known not to be a CDI. -/
def bsslSignRunX (lib : Lib) (mem : AllocOk) (m : Option Nat) (type : UInt32) (key : PKey) (msg : Option GatherList) (out : Option Bytes) (sz : UInt64) :
    R (Ended Reply (Option Bytes × Option UInt64)) := do
  let ctx ← newObj lib .mdCtx
  if ctx = none then return .returned ⟨.noResources, out, some sz⟩
  else scope ctx (bsslSignRestX lib mem ctx m type key msg out sz)

/-- `bssl.cpp` 736-906: `n20_crypto_boringssl_sign`. -/
def bsslSignX (lib : Lib) (mem : AllocOk) (ctx : Option Unit) (key : Option Nat) (msg : Option GatherList) (out : Option Bytes) (size : Option UInt64) :
    R (Ended Reply (Option Bytes × Option UInt64)) :=
  match ctx, key, size with
  | none, _, _ => return .returned ⟨.invalidContext, out, size⟩
  | some _, none, _ => return .returned ⟨.nullKeyIn, out, size⟩
  | some _, some _, none => return .returned ⟨.nullSize, out, size⟩
  | some _, some p, some sz => do
    let k ← liftW (loadKey p)
    if k.type = 4 then return .returned ⟨.invalidKey, out, size⟩
    else do
      let key ← liftW (liftB (castEvp k))
      let m ← memberOf p
      bsslSignRunX lib mem m k.type key msg out sz

end Nat20
