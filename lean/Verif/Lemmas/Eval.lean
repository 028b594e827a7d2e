import Verif.Props.Sha2
import Verif.Spec.Digest
/-!
# Computing hashes in the kernel

The specification of SHA-2 computes the message schedule by plain recursion, which is too slow to be evaluated.  The model is faster, and it is proved to compute the same (C37, C38).
-/

namespace Nat20

open Fips

/-- The whole message as one chunk. -/
def oneChunk (m : Bytes) : List Slice := [⟨UInt64.ofNat m.length, some ⟨[], m⟩⟩]

/-- A hash, computed with the model. -/
def evalSha (a : Alg) (m : Bytes) : Bytes :=
  if m.length < 2 ^ 61 then
    let d := List.replicate a.size 0
    let r := match a with
      | .sha224 => shaRun sha224Init sha256Update sha224Finalize (oneChunk m) d
      | .sha256 => shaRun sha256Init sha256Update sha256Finalize (oneChunk m) d
      | .sha384 => shaRun sha384Init sha512Update sha384Finalize (oneChunk m) d
      | .sha512 => shaRun sha512Init sha512Update sha512Finalize (oneChunk m) d
    match r with
    | .ok (some x) => x
    | _ => []
  else sha2 a m

theorem sha2_eval (a : Alg) (m : Bytes) : sha2 a m = evalSha a m := by
  unfold evalSha
  by_cases h : m.length < 2 ^ 61
  · rw [if_pos h]
    have hm : (UInt64.ofNat m.length).toNat = m.length := UInt64.toNat_ofNat_of_lt' (by show _ < 2 ^ 64; omega)
    have hv : ∀ c ∈ oneChunk m, c.Valid := by
      intro c hc p hp
      simp only [oneChunk, List.mem_singleton] at hc
      subst hc
      simp only [Option.some.injEq] at hp
      subst hp
      rw [hm]
      exact Nat.le_refl _
    have hb : ((oneChunk m).map Slice.bytes).flatten = m := by
      simp [oneChunk, Slice.bytes, Nat.mod_eq_of_lt (show m.length < 2 ^ 64 by omega)]
    cases a
    · simp only [C37_sha224 (oneChunk m) hv (by rw [hb]; exact h) (List.replicate (Alg.size .sha224) 0) (by decide), hb]
      exact (List.append_nil _).symm
    · simp only [C37_sha256 (oneChunk m) hv (by rw [hb]; exact h) (List.replicate (Alg.size .sha256) 0) (by decide), hb]
      exact (List.append_nil _).symm
    · simp only [C38_sha384 (oneChunk m) hv (by rw [hb]; exact h) (List.replicate (Alg.size .sha384) 0) (by decide), hb]
      exact (List.append_nil _).symm
    · simp only [C38_sha512 (oneChunk m) hv (by rw [hb]; exact h) (List.replicate (Alg.size .sha512) 0) (by decide), hb]
      exact (List.append_nil _).symm
  · rw [if_neg h]

/-- HMAC, computed with the model. -/
def evalHmac (a : Alg) (key msg : Bytes) : Bytes :=
  let k := if key.length > a.block then evalSha a key else key
  let K := k ++ List.replicate (a.block - k.length) 0
  evalSha a (K.map (· ^^^ 0x5c) ++ evalSha a (K.map (· ^^^ 0x36) ++ msg))

theorem hmac_eval (a : Alg) (key msg : Bytes) : hmac a key msg = evalHmac a key msg := by
  unfold hmac evalHmac hmacKeyBlock
  simp only [sha2_eval]

end Nat20
