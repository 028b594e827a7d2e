import Verif.Model.SizedDigest
import Verif.Model.Boringssl
/-!
# Model of the crypto context on top of the reference library, with `size_t` of another width

The functions of `Model/Boringssl` in which a `size_t` occurs, with a `size_t` of `w` bits as in `Model/Sized`; see there for everything
that is not said here.  The other functions (calls of the library, RFC 6979, key objects, the form of signatures) are those of `Model/Boringssl`.
`bssl.cpp` below stands for `src/crypto/crypto_boringssl.cpp`.
-/

namespace Nat20.Sized

open Fips

variable {w : Nat}

/-- Reading a slice (the arguments of the library calls in `bssl.cpp` 158, 217, 226). -/
def readSlice (p : Ptr) (n : BitVec w) : Except UB Bytes := if p.data.length < n.toNat then .error .oobRead else .ok (p.data.take n.toNat)

/-- Reading the octets of a slice which may be at NULL if it is empty (the arguments of `HMAC_Init_ex`, `HKDF`, `HKDF_extract`, `HKDF_expand`)
(`bssl.cpp` 217, 317, 355). -/
def readArg (s : Slice w) : Except UB Bytes :=
  match s.buffer with
  | none => if s.size = 0 then .ok [] else .error .nullDeref
  | some p => readSlice p s.size

/-- `bssl.cpp` 89-102: `digest_enum_to_size`. -/
def bsslDigestSize (alg : UInt32) : BitVec w :=
  if alg = 0 then 28 else if alg = 1 then 32 else if alg = 2 then 48 else if alg = 3 then 64 else 0

/-- `bssl.cpp` 153-161, 221-227, 372-379: the loops over the slices of a list in `n20_crypto_boringssl_digest`, `_hmac` and in
`gather_list_to_vector`.  The accumulated octets are those passed to `EVP_DigestUpdate`, `HMAC_Update`, or appended to the vector. -/
def bsslSlices : Nat → List (Slice w) → Bytes → Except UB (N20Error × Bytes)
  | 0, _, acc => .ok (.ok, acc)
  | _ + 1, [], _ => .error .oobRead
  | n + 1, s :: rest, acc =>
    if s.size = 0 then bsslSlices n rest acc
    else match s.buffer with
      | none => .ok (.nullSlice, acc)
      | some p => do
        let bs ← readSlice p s.size
        bsslSlices n rest (acc ++ bs)

/-- `bssl.cpp` 150-162: one gather list; empty ones and those at NULL are skipped. -/
def bsslGather (g : GatherList w) (acc : Bytes) : Except UB (N20Error × Bytes) :=
  if g.count = 0 then .ok (.ok, acc)
  else match g.list with
    | none => .ok (.ok, acc)
    | some l => bsslSlices g.count.toNat l acc

/-- `bssl.cpp` 149-162: the loop over the gather lists. -/
def bsslLists : Nat → List (GatherList w) → Bytes → Except UB (N20Error × Bytes)
  | 0, _, acc => .ok (.ok, acc)
  | _ + 1, [], _ => .error .oobRead
  | n + 1, g :: rest, acc => do
    let r ← bsslGather g acc
    if r.1 = .ok then bsslLists n rest r.2 else .ok r

/-- `bssl.cpp` 149-170: the update loop, `EVP_DigestFinal` and the size. -/
def bsslDigestRun (a : Alg) (msg : List (GatherList w)) (count : BitVec w) (d : Bytes) (sz : BitVec w) : Except UB (Reply w) := do
  let r ← bsslLists count.toNat msg []
  if r.1 = .ok then do
    let o ← writeOut (some d) (sha2 a r.2)
    .ok ⟨.ok, o, some (BitVec.ofNat w a.size)⟩
  else .ok ⟨r.1, some d, some sz⟩

/-- `bssl.cpp` 135-170: the part of `n20_crypto_boringssl_digest` that needs the message.  The result of `EVP_MD_CTX_new` is not
checked before it is used by `EVP_DigestInit`. -/
def bsslDigestMessage (lib : Lib) (a : Alg) (msg : Option (List (GatherList w))) (count : BitVec w) (d : Bytes) (sz : BitVec w) : B (Reply w) :=
  match msg with
  | none => return ⟨.nullData, some d, some sz⟩
  | some [] => liftB (.error .oobRead)
  | some (g :: gs) =>
    if g.count ≠ 0 ∧ g.list = none then return ⟨.nullList, some d, some sz⟩
    else do
      let new ← libCall lib
      if new = false then liftB (.error .nullDeref)
      else do
        let init ← libCall lib
        if init = false then return ⟨.noResources, some d, some sz⟩
        else liftB (bsslDigestRun a (g :: gs) count d sz)

/-- `bssl.cpp` 104-171: `n20_crypto_boringssl_digest`. -/
def bsslDigest (lib : Lib) (ctx : Option Unit) (alg : UInt32) (msg : Option (List (GatherList w))) (count : BitVec w) (out : Option Bytes)
    (size : Option (BitVec w)) : B (Reply w) :=
  match ctx with
  | none => return ⟨.invalidContext, out, size⟩
  | some _ =>
    match bsslMd alg, size, out with
    | none, _, _ => return ⟨.unknownAlgorithm, out, size⟩
    | some _, none, _ => return ⟨.nullSize, out, size⟩
    | some _, some _, none => return ⟨.insufficientBufferSize, out, some (bsslDigestSize alg)⟩
    | some a, some sz, some d =>
      if bsslDigestSize alg > sz then return ⟨.insufficientBufferSize, out, some (bsslDigestSize alg)⟩
      else bsslDigestMessage lib a msg count d sz

/-- `bssl.cpp` 229-234: `HMAC_Final`. -/
def bsslHmacFinal (lib : Lib) (a : Alg) (key text : Bytes) (d : Bytes) (sz : BitVec w) : B (Reply w) := do
  let final ← libCall lib
  if final = false then do
    let junk ← libJunk lib a.size
    let o ← liftB (writeOut (some d) junk)
    return ⟨.implementationSpecific, o, some sz⟩
  else do
    let o ← liftB (writeOut (some d) (hmac a key text))
    return ⟨.ok, o, some (BitVec.ofNat w a.size)⟩

/-- `bssl.cpp` 209-234: the part of `n20_crypto_boringssl_hmac` that needs the message. -/
def bsslHmacMessage (lib : Lib) (a : Alg) (key : Slice w) (msg : Option (GatherList w)) (d : Bytes) (sz : BitVec w) : B (Reply w) :=
  match msg with
  | none => return ⟨.nullData, some d, some sz⟩
  | some g =>
    if g.count ≠ 0 ∧ g.list = none then return ⟨.nullList, some d, some sz⟩
    else do
      let k ← liftB (readArg key)
      let init ← libCall lib
      if init = false then return ⟨.noResources, some d, some sz⟩
      else do
        let r ← liftB (bsslSlices g.count.toNat (g.list.getD []) [])
        if r.1 = .ok then bsslHmacFinal lib a k r.2 d sz else return ⟨r.1, some d, some sz⟩

/-- `bssl.cpp` 173-235: `n20_crypto_boringssl_hmac`. -/
def bsslHmac (lib : Lib) (ctx : Option Unit) (alg : UInt32) (key : Slice w) (msg : Option (GatherList w)) (out : Option Bytes) (size : Option (BitVec w)) : B (Reply w) :=
  match ctx, size with
  | none, _ => return ⟨.invalidContext, out, size⟩
  | some _, none => return ⟨.nullSize, out, size⟩
  | some _, some sz => do
    let new ← libCall lib
    if new = false then return ⟨.noResources, out, size⟩
    else match bsslMd alg, out with
      | none, _ => return ⟨.unknownAlgorithm, out, size⟩
      | some a, out =>
        if key.buffer = none ∧ key.size ≠ 0 then return ⟨.nullSliceKey, out, size⟩
        else match out with
          | none => return ⟨.insufficientBufferSize, out, some (bsslDigestSize alg)⟩
          | some d =>
            if bsslDigestSize alg > sz then return ⟨.insufficientBufferSize, out, some (bsslDigestSize alg)⟩
            else bsslHmacMessage lib a key msg d sz

/-- `bssl.cpp` 269-282 and 355-358: the tail of `n20_crypto_boringssl_hkdf` and `n20_crypto_boringssl_hkdf_expand`. -/
def bsslExpandOut (lib : Lib) (a : Alg) (prk info : Bytes) (keyOctets : BitVec w) (out : Option Bytes) : B (N20Error × Option Bytes) := do
  let r ← libExpand lib a prk info keyOctets.toNat
  match r with
  | .ok okm => return (.ok, ← liftB (writeOut out okm))
  | .error junk => return (.implementationSpecific, ← liftB (writeOut out junk))

/-- `bssl.cpp` 237-282: `n20_crypto_boringssl_hkdf`. -/
def bsslHkdf (lib : Lib) (ctx : Option Unit) (alg : UInt32) (ikm salt info : Slice w) (keyOctets : BitVec w) (out : Option Bytes) : B (N20Error × Option Bytes) :=
  match ctx, bsslMd alg with
  | none, _ => return (.invalidContext, out)
  | some _, none => return (.unknownAlgorithm, out)
  | some _, some a =>
    if ikm.buffer = none ∧ ikm.size ≠ 0 then return (.nullSliceIkm, out)
    else if salt.buffer = none ∧ salt.size ≠ 0 then return (.nullSliceSalt, out)
    else if info.buffer = none ∧ info.size ≠ 0 then return (.nullSliceInfo, out)
    else if keyOctets ≠ 0 ∧ out = none then return (.insufficientBufferSize, out)
    else do
      let ikm ← liftB (readArg ikm)
      let salt ← liftB (readArg salt)
      let info ← liftB (readArg info)
      bsslExpandOut lib a (hkdfExtract a salt ikm) info keyOctets out

/-- `bssl.cpp` 317-321: `HKDF_extract`. -/
def bsslExtractOut (lib : Lib) (a : Alg) (salt ikm : Bytes) (d : Bytes) (sz : BitVec w) : B (Reply w) := do
  let ok ← libCall lib
  if ok = false then do
    let junk ← libJunk lib a.size
    let o ← liftB (writeOut (some d) junk)
    return ⟨.implementationSpecific, o, some sz⟩
  else do
    let o ← liftB (writeOut (some d) (hkdfExtract a salt ikm))
    return ⟨.ok, o, some (BitVec.ofNat w a.size)⟩

/-- `bssl.cpp` 284-322: `n20_crypto_boringssl_hkdf_extract`. -/
def bsslExtract (lib : Lib) (ctx : Option Unit) (alg : UInt32) (ikm salt : Slice w) (prk : Option Bytes) (size : Option (BitVec w)) : B (Reply w) :=
  match ctx, bsslMd alg with
  | none, _ => return ⟨.invalidContext, prk, size⟩
  | some _, none => return ⟨.unknownAlgorithm, prk, size⟩
  | some _, some a =>
    if ikm.buffer = none ∧ ikm.size ≠ 0 then return ⟨.nullSliceIkm, prk, size⟩
    else if salt.buffer = none ∧ salt.size ≠ 0 then return ⟨.nullSliceSalt, prk, size⟩
    else match size, prk with
      | none, _ => return ⟨.nullSize, prk, size⟩
      | some _, none => return ⟨.insufficientBufferSize, prk, some (bsslDigestSize alg)⟩
      | some sz, some d =>
        if sz < bsslDigestSize alg then return ⟨.insufficientBufferSize, prk, some (bsslDigestSize alg)⟩
        else do
          let ikm ← liftB (readArg ikm)
          let salt ← liftB (readArg salt)
          bsslExtractOut lib a salt ikm d sz

/-- `bssl.cpp` 324-359: `n20_crypto_boringssl_hkdf_expand`. -/
def bsslExpand (lib : Lib) (ctx : Option Unit) (alg : UInt32) (prk info : Slice w) (keyOctets : BitVec w) (out : Option Bytes) : B (N20Error × Option Bytes) :=
  match ctx, bsslMd alg with
  | none, _ => return (.invalidContext, out)
  | some _, none => return (.unknownAlgorithm, out)
  | some _, some a =>
    if prk.buffer = none ∧ prk.size ≠ 0 then return (.nullSlicePrk, out)
    else if info.buffer = none ∧ info.size ≠ 0 then return (.nullSliceInfo, out)
    else if keyOctets = 0 then return (.ok, out)
    else if out = none then return (.insufficientBufferSize, out)
    else do
      let prk ← liftB (readArg prk)
      let info ← liftB (readArg info)
      bsslExpandOut lib a prk info keyOctets out

/-- `bssl.cpp` 361-382: `gather_list_to_vector`. -/
def gatherToVector (g : Option (GatherList w)) : BE Bytes :=
  match g with
  | none => throw .nullData
  | some g =>
    if g.count ≠ 0 ∧ g.list = none then throw .nullList
    else do
      let r ← (liftB (bsslSlices g.count.toNat (g.list.getD []) []) : B _)
      if r.1 = .ok then return r.2 else throw r.1

/-- `bssl.cpp` 621-639: the 32 octets a key is made of. -/
def bsslDerive (lib : Lib) (bits : Bytes) (context : Option (GatherList w)) : BE Bytes := do
  let c ← gatherToVector context
  let r ← (libExpand lib .sha512 bits c 32 : B _)
  match r with
  | .ok okm => return okm
  | .error _ => throw .implementationSpecific

/-- `bssl.cpp` 621-733: the key object of `n20_crypto_boringssl_kdf`, from `gather_list_to_vector` on. -/
def bsslKdfKey (lib : Lib) (bits : Bytes) (type : UInt32) (context : Option (GatherList w)) : BE BsslKey := do
  let derived ← bsslDerive lib bits context
  bsslMakeKey lib type derived

/-- `bssl.cpp` 621-733: the same, up to the assignment of `*key_out` at the end. -/
def bsslKdfRun (lib : Lib) (bits : Bytes) (type : UInt32) (context : Option (GatherList w)) : BE Nat := do
  let key ← bsslKdfKey lib bits type context
  (newKey key : B _)

/-- `bssl.cpp` 597-734: `n20_crypto_boringssl_kdf`; `keyOut` is the contents of `*key_out` before the call. -/
def bsslKdf (lib : Lib) (ctx : Option Unit) (keyIn : Option Nat) (type : UInt32) (context : Option (GatherList w)) (keyOut : Option (Option Nat)) : B KeyReply :=
  match ctx, keyIn with
  | none, _ => return (.invalidContext, keyOut)
  | some _, none => return (.nullKeyIn, keyOut)
  | some _, some p => do
    let k ← loadKey p
    if k.type ≠ 4 then return (.invalidKey, keyOut)
    else do
      let bits ← liftB (castCdi k)
      match keyOut with
      | none => return (.nullKeyOut, keyOut)
      | some old => keyReply (bsslKdfRun lib bits type context) old

/-- `bssl.cpp` 1048-1073: `n20_crypto_boringssl_make_secret`. -/
def bsslMakeSecret (ctx : Option Unit) (secret : Option (Slice w)) (keyOut : Option (Option Nat)) : B KeyReply :=
  match ctx, secret with
  | none, _ => return (.invalidContext, keyOut)
  | some _, none => return (.nullData, keyOut)
  | some _, some s =>
    match s.buffer with
    | none => return (.nullData, keyOut)
    | some p =>
      if s.size = 0 then return (.nullData, keyOut)
      else match keyOut with
        | none => return (.nullKeyOut, keyOut)
        | some _ => do
          let bits ← liftB (readSlice p s.size)
          let h ← newKey ⟨4, .inl bits⟩
          return (.ok, some (some h))

/-- `bssl.cpp` 829-841: the loop over the message. -/
def signUpdate (lib : Lib) : Nat → List (Slice w) → Bytes → BE Bytes
  | 0, _, acc => return acc
  | _ + 1, [], _ => (liftB (.error .oobRead) : B _)
  | n + 1, s :: rest, acc =>
    if s.size = 0 then signUpdate lib n rest acc
    else match s.buffer with
      | none => throw .nullSlice
      | some p => do
        let bs ← (liftB (readSlice p s.size) : B _)
        need lib .implementationSpecific
        signUpdate lib n rest (acc ++ bs)

/-- `bssl.cpp` 817-841: the octets to be signed. -/
def ecMessage (lib : Lib) (msg : Option (GatherList w)) : BE Bytes :=
  match msg with
  | none => throw .nullData
  | some g =>
    if g.count ≠ 0 ∧ g.list = none then throw .nullList
    else do
      need lib .implementationSpecific
      signUpdate lib g.count.toNat (g.list.getD []) []

/-- `bssl.cpp` 843-900: `EVP_DigestSignFinal`, which gets the private key, and what follows.  `rest` is what is in the part of
`signature_buffer` that is not written to. -/
def ecFinal (lib : Lib) (a : Alg) (key : PKey) (text : Bytes) (signatureSize : BitVec w) (rest : Bytes) (d : Bytes) : B (Reply w) := do
  let n ← (fun w => .ok (w.calls, w) : B Nat)
  let ok ← libCall lib
  if ok = false then return ⟨.implementationSpecific, some d, some 104⟩
  else match key with
    | .ed25519 _ => liftB (.error .badCast)
    | .ec curve x => do
      let rs := lib.ecSign curve x (sha2 a text) n
      let der := ecdsaDer rs.1 rs.2
      if 104 < der.length then return ⟨.implementationSpecific, some d, some 104⟩
      else do
        let out ← liftB (sigUnwrap (der ++ rest.drop der.length) signatureSize.toNat d)
        return ⟨.ok, some out, some signatureSize⟩

/-- `bssl.cpp` 815-901: ECDSA. -/
def ecSign (lib : Lib) (a : Alg) (key : PKey) (msg : Option (GatherList w)) (signatureSize : BitVec w) (d : Bytes) (sz : BitVec w) : B (Reply w) := do
  let r ← (ecMessage lib msg).run
  match r with
  | .error e => return ⟨e, some d, some sz⟩
  | .ok text => do
    let rest ← libJunk lib 104
    ecFinal lib a key text signatureSize rest d

/-- `bssl.cpp` 800-813: `EVP_DigestSign` for Ed25519. -/
def edFinal (lib : Lib) (key : PKey) (text : Bytes) (d : Bytes) (sz : BitVec w) : B (Reply w) := do
  let ok ← libCall lib
  match ok, key with
  | false, _ => do
    let junk ← libJunk lib 64
    let o ← liftB (writeOut (some d) junk)
    return ⟨.implementationSpecific, o, some sz⟩
  | true, .ec _ _ => liftB (.error .badCast)
  | true, .ed25519 seed => do
    let o ← liftB (writeOut (some d) (lib.edSign seed text))
    return ⟨.ok, o, some (BitVec.ofNat w (lib.edSign seed text).length)⟩

/-- `bssl.cpp` 794-814: Ed25519. -/
def edSign (lib : Lib) (key : PKey) (msg : Option (GatherList w)) (d : Bytes) (sz : BitVec w) : B (Reply w) := do
  let init ← libCall lib
  if init = false then return ⟨.implementationSpecific, some d, some sz⟩
  else do
    let r ← (gatherToVector msg).run
    match r with
    | .error e => return ⟨e, some d, some sz⟩
    | .ok text => edFinal lib key text d sz

/-- `bssl.cpp` 771-786: the size of the signature. -/
def signatureSize (type : UInt32) : Option (BitVec w) :=
  if type = 3 then some 64 else if type = 1 then some 64 else if type = 2 then some 96 else none

/-- `bssl.cpp` 761-905: `n20_crypto_boringssl_sign` once the key is known not to be a CDI. -/
def bsslSignRun (lib : Lib) (type : UInt32) (key : PKey) (msg : Option (GatherList w)) (out : Option Bytes) (sz : BitVec w) : B (Reply w) := do
  let new ← libCall lib
  if new = false then return ⟨.noResources, out, some sz⟩
  else match signatureSize type, out with
    | none, _ => return ⟨.invalidKey, out, some sz⟩
    | some n, none => return ⟨.insufficientBufferSize, out, some n⟩
    | some n, some d =>
      if sz < n then return ⟨.insufficientBufferSize, out, some n⟩
      else if type = 3 then edSign lib key msg d sz
      else if type = 1 then ecSign lib .sha256 key msg n d sz
      else ecSign lib .sha384 key msg n d sz

/-- `bssl.cpp` 736-906: `n20_crypto_boringssl_sign`. -/
def bsslSign (lib : Lib) (ctx : Option Unit) (key : Option Nat) (msg : Option (GatherList w)) (out : Option Bytes) (size : Option (BitVec w)) : B (Reply w) :=
  match ctx, key, size with
  | none, _, _ => return ⟨.invalidContext, out, size⟩
  | some _, none, _ => return ⟨.nullKeyIn, out, size⟩
  | some _, some _, none => return ⟨.nullSize, out, size⟩
  | some _, some p, some sz => do
    let k ← loadKey p
    if k.type = 4 then return ⟨.invalidKey, out, size⟩
    else do
      let key ← liftB (castEvp k)
      bsslSignRun lib k.type key msg out sz

/-- `bssl.cpp` 930-943: the size of the public key. -/
def publicKeySize (type : UInt32) : Option (BitVec w) :=
  if type = 3 then some 32 else if type = 1 then some 64 else if type = 2 then some 96 else none

/-- `bssl.cpp` 955-983: the public key of an EC key. -/
def ecPublicKey (lib : Lib) (type : UInt32) (curve : Curve) (x : Nat) (n : BitVec w) (d : Bytes) (sz : BitVec w) : B (Reply w) :=
  if type ≠ 1 ∧ type ≠ 2 then return ⟨.implementationSpecific, some d, some sz⟩
  else do
    let ok ← libCall lib
    if ok = false then return ⟨.noResources, some d, some sz⟩
    else do
      let info := x962 curve (lib.ecPublic curve x)
      if info.length ≠ n.toNat + 1 ∨ info.head? ≠ some 0x04 then return ⟨.implementationSpecific, some d, some n⟩
      else do
        let o ← liftB (memcpy (some d) 0 (localPtr (info.drop 1)) n)
        return ⟨.ok, some o, some n⟩

/-- `bssl.cpp` 984-997: the public key of an Ed25519 key. -/
def edPublicKey (lib : Lib) (type : UInt32) (seed : Bytes) (d : Bytes) (sz : BitVec w) : B (Reply w) :=
  if type ≠ 3 then return ⟨.implementationSpecific, some d, some sz⟩
  else do
    let ok ← libCall lib
    if ok = false then return ⟨.implementationSpecific, some d, some sz⟩
    else do
      let o ← liftB (writeOut (some d) (lib.edPublic seed))
      if (lib.edPublic seed).length ≠ 32 then return ⟨.implementationSpecific, o, some (BitVec.ofNat w (lib.edPublic seed).length)⟩
      else return ⟨.ok, o, some 32⟩

/-- `bssl.cpp` 912-1001: `n20_crypto_boringssl_key_get_public_key`. -/
def bsslPublicKey (lib : Lib) (ctx : Option Unit) (key : Option Nat) (out : Option Bytes) (size : Option (BitVec w)) : B (Reply w) :=
  match ctx, key, size with
  | none, _, _ => return ⟨.invalidContext, out, size⟩
  | some _, none, _ => return ⟨.nullKeyIn, out, size⟩
  | some _, some _, none => return ⟨.nullSize, out, size⟩
  | some _, some p, some sz => do
    let k ← loadKey p
    match publicKeySize k.type, out with
    | none, _ => return ⟨.invalidKey, out, size⟩
    | some n, none => return ⟨.insufficientBufferSize, out, some n⟩
    | some n, some d =>
      if sz < n then return ⟨.insufficientBufferSize, out, some n⟩
      else do
        let key ← liftB (castEvp k)
        match key with
        | .ec curve x => ecPublicKey lib k.type curve x n d sz
        | .ed25519 seed => edPublicKey lib k.type seed d sz

end Nat20.Sized
