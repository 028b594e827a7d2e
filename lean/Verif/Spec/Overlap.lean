import Verif.Spec.Arena
/-!
# Specification: what key expansion computes when its output overlaps with its inputs

RFC 5869 with one difference: the pseudorandom key and the info of each block are what their memory holds when the blocks before it have been written.
-/

namespace Nat20

open Fips

/-- T(k), and T(1) | ... | T(k), where the blocks are written to `out` one after the other. `key` is what the pseudorandom key is in a memory. -/
def overlapBlocks (a : Alg) (m : Memory) (key : Memory → Bytes) (info : MSlice) (out : Addr) : Nat → Bytes × Bytes
  | 0 => ([], [])
  | k + 1 =>
    let (t, all) := overlapBlocks a m key info out k
    let now := m.write out all
    let t' := hmac a (key now) (t ++ info.bytes now ++ [UInt8.ofNat (k + 1)])
    (t', all ++ t')

/-- The first `L` octets of T(1) | ... | T(N), N = ceil(L / HashLen). -/
def overlapExpand (a : Alg) (m : Memory) (key : Memory → Bytes) (info : MSlice) (out : Addr) (L : Nat) : Bytes :=
  (overlapBlocks a m key info out ((L + a.size - 1) / a.size)).2.take L

end Nat20
