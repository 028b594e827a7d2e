import Verif.Lemmas.SizedBssl
import Verif.Spec.SizedBssl
import Verif.Props.BsslDigest
/-!
# C85: the reference context does not depend on the width of `size_t`
-/

namespace Nat20.Sized

open Fips

variable {w : Nat} (hw : w ≤ 64) (hw' : 16 ≤ w)

theorem octets_wide (hw : w ≤ 64) {x : B (Reply w)} {y : B Nat20.Reply} (h : Reply.wide <$> x = y) :
    ((fun r => .octets r.err r.out (r.size.map (·.toNat))) <$> x : B BsslAnswer) = (fun r => .octets r.err r.out (r.size.map (·.toNat))) <$> y := by
  subst h
  rw [Functor.map_map]
  congr 1
  funext r
  obtain ⟨err, out, size⟩ := r
  cases size with
  | none => rfl
  | some n => simp only [Reply.wide, Option.map_some, toUInt64_toNat hw]

include hw hw'

/-- **C85.** Every call has the same effect on both platforms: the same result, the same key objects, the same use of the library; or undefined behaviour in both cases. -/
theorem C85_call (lib : Lib) (hlib : Lib.ShortEd lib) (c : BsslCall w) : c.run lib = c.runWide lib := by
  cases c with
  | digest => exact octets_wide hw (bsslDigest_eq hw hw' _ _ _ _ _ _ _)
  | hmac => exact octets_wide hw (bsslHmac_eq hw hw' _ _ _ _ _ _ _)
  | hkdf => unfold BsslCall.run BsslCall.runWide; simp only; rw [bsslHkdf_eq hw]
  | extract => exact octets_wide hw (bsslExtract_eq hw hw' _ _ _ _ _ _ _)
  | expand => unfold BsslCall.run BsslCall.runWide; simp only; rw [bsslExpand_eq hw]
  | secret => unfold BsslCall.run BsslCall.runWide; simp only; rw [bsslMakeSecret_eq hw]
  | kdf => unfold BsslCall.run BsslCall.runWide; simp only; rw [bsslKdf_eq hw]
  | sign => exact octets_wide hw (bsslSign_eq hw hw' _ hlib.1 _ _ _ _ _)
  | publicKey => exact octets_wide hw (bsslPublicKey_eq hw hw' _ hlib.2 _ _ _ _)
  | free => rfl

/-- **C85** (histories).  The same for every program that makes calls one after the other, each of which may depend on the answers to the earlier ones. -/
theorem C85_history (lib : Lib) (hlib : Lib.ShortEd lib) (next : List BsslAnswer → Option (BsslCall w)) (n : Nat) (answers : List BsslAnswer) :
    client next (BsslCall.run lib) n answers = client next (BsslCall.runWide lib) n answers := by
  rw [show BsslCall.run lib = BsslCall.runWide lib from funext (C85_call hw hw' lib hlib)]

/-! ## Non-vacuity -/

omit hw hw'

theorem calmLib_short : Lib.ShortEd calmLib := ⟨fun _ _ => by simp [calmLib], fun _ => by simp [calmLib]⟩

/-- A client on a platform with 32 bits: a secret, an Ed25519 key derived from it, its public key and a signature, and the same key once more with an output buffer that is too small. -/
def exampleClient : List BsslAnswer → Option (BsslCall 32)
  | [] => some (.secret (some ()) (some ⟨2, some ⟨[], [5, 6]⟩⟩) (some none))
  | [.key (_, some cdi)] => some (.kdf (some ()) cdi 3 (some ⟨1, some [⟨1, some ⟨[], [7]⟩⟩]⟩) (some none))
  | [_, .key (_, some key)] => some (.publicKey (some ()) key (some (List.replicate 33 0)) (some 33))
  | [_, .key (_, some key), _] => some (.sign (some ()) key (some ⟨1, some [⟨2, some ⟨[], [1, 2]⟩⟩]⟩) (some (List.replicate 64 0)) (some 64))
  | [_, .key (_, some key), _, _] => some (.sign (some ()) key none none (some 64))
  | [_, .key (_, some key), _, _, _] => some (.free (some ()) key)
  | _ => none

example (w₀ : World) : client exampleClient (BsslCall.run calmLib) 10 [] w₀ = client exampleClient (BsslCall.runWide calmLib) 10 [] w₀ := by
  rw [C85_history (by decide) (by decide) calmLib calmLib_short]

/-- What happens. -/
example : (client exampleClient (BsslCall.run calmLib) 10 [] ⟨0, []⟩).toOption.map (·.1) = some [
    .key (.ok, some (some 0)), .key (.ok, some (some 1)), .octets .ok (some (List.replicate 32 7 ++ [0])) (some 32),
    .octets .ok (some (List.replicate 64 9)) (some 64), .octets .insufficientBufferSize none (some 64), .none_ .ok] := by decide +kernel

end Nat20.Sized
