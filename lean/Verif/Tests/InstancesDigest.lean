import Verif.Props.Sha2
import Verif.Props.Digest
import Verif.Props.BsslDigest
import Verif.Props.Render
/-!
# Every theorem about hashing and key derivation applied to a concrete case

No hypothesis is left open in any of these, so the hypotheses of each theorem are met by the case shown.
-/

namespace Nat20.InstancesDigest

open Fips

def someKey : Slice := ⟨3, some ⟨[9], [1, 2, 3, 4]⟩⟩
def someInfo : Slice := ⟨2, some ⟨[], [5, 6]⟩⟩
def someGather : GatherList := ⟨2, some [⟨1, some ⟨[], [0x61]⟩⟩, ⟨0, none⟩, someKey]⟩
def someChunks : List Slice := [someKey, ⟨0, none⟩, someInfo]
def otherChunks : List Slice := [⟨5, some ⟨[], [1, 2, 3, 5, 6, 7]⟩⟩]
def someOut : Bytes := List.replicate 200 0

theorem someGather_valid : someGather.Valid := ⟨by decide +kernel, by decide +kernel⟩

example := C37_sha256 someChunks (by decide +kernel) (by decide +kernel) someOut (by decide +kernel)
example := C37_sha224 someChunks (by decide +kernel) (by decide +kernel) someOut (by decide +kernel)
example := C37_chunking someChunks otherChunks (by decide +kernel) (by decide +kernel) (by decide +kernel) (by decide +kernel) someOut (by decide +kernel)
example := C38_sha512 someChunks (by decide +kernel) (by decide +kernel) someOut (by decide +kernel)
example := C38_sha384 someChunks (by decide +kernel) (by decide +kernel) someOut (by decide +kernel)
example := C38_chunking someChunks otherChunks (by decide +kernel) (by decide +kernel) (by decide +kernel) (by decide +kernel) someOut (by decide +kernel)
example := C40_digest .sha384 abcMessage 3 ⟨by decide +kernel, by decide +kernel, by decide +kernel⟩ (by decide +kernel) (by decide +kernel) someOut 100 (by decide +kernel) (by decide +kernel)
example := C40_split .sha384 abcMessage [someGather, ⟨0, none⟩] 0 0 ⟨by decide +kernel, by decide +kernel, by decide +kernel⟩ (by decide +kernel) ⟨by decide +kernel, by decide +kernel, by decide +kernel⟩ (by decide +kernel) (by decide +kernel) (by decide +kernel)
  someOut 100 (by decide +kernel) (by decide +kernel)
example := C41_digest_contract_partial (some ()) 2 (some abcMessage) 3 (some someOut) (some 10) (fun l hl => by cases hl; exact ⟨⟨by decide +kernel, by decide +kernel, by decide +kernel⟩, by decide +kernel⟩)
  (fun d sz hd hs => by cases hd; cases hs; decide +kernel) (fun l hl => by cases hl; decide +kernel)
example := C41_later_null_list .sha256 someGather [⟨0, none⟩] [someGather] (by
    intro x hx
    simp at hx
    rcases hx with rfl | rfl
    · exact ⟨someGather_valid, by decide +kernel, by decide +kernel⟩
    · exact ⟨⟨by decide +kernel, by decide +kernel⟩, by decide +kernel, by decide +kernel⟩) 1 (by decide +kernel) 3 (by decide +kernel) someOut 64 (by decide +kernel)
example := C42_hmac_partial .sha512 someKey (by decide +kernel) (by decide +kernel) (by decide +kernel) someGather someGather_valid (by decide +kernel) (by decide +kernel) (by decide +kernel) someOut 100 (by decide +kernel) (by decide +kernel)
example := C42_empty_null_key .sha512 (some someGather) someOut 100 (by decide +kernel)
example := C43_hmac_contract_partial (some ()) 2 someKey (some someGather) (some someOut) (some 10) (by decide +kernel) (by decide +kernel) (by decide +kernel)
  (fun g hg => by cases hg; exact ⟨someGather_valid, by decide +kernel⟩) (fun d sz hd hs => by cases hd; cases hs; decide +kernel)
example := C44_extract_partial .sha256 someInfo someKey (by decide +kernel) (by decide +kernel) (by decide +kernel) (by decide +kernel) (by decide +kernel) (by decide +kernel) someOut 100 (by decide +kernel) (by decide +kernel)
example := C44_expand_partial .sha256 someKey someInfo (by decide +kernel) (by decide +kernel) (by decide +kernel) (by decide +kernel) (by decide +kernel) (by decide +kernel) 100 (by decide +kernel) someOut (by decide +kernel)
example := C44_hkdf_partial .sha256 someKey someKey someInfo (by decide +kernel) (by decide +kernel) (by decide +kernel) (by decide +kernel) (by decide +kernel) (by decide +kernel) (by decide +kernel) (by decide +kernel) (by decide +kernel) 100 (by decide +kernel)
  someOut (by decide +kernel)
example := C44_prefix .sha256 [1] [2] 0 0 (by decide +kernel) [] [] rfl rfl
example := C44_too_long .sha256 someKey someInfo (by decide +kernel) (by decide +kernel) (by decide +kernel) (by decide +kernel) (by decide +kernel) (by decide +kernel) 8161 (by decide +kernel) (List.replicate 8161 0) (by rw [List.length_replicate]; decide)
example := C44_null_salt .sha256 someInfo (by decide +kernel) someOut 100 (by decide +kernel)
example := C45_extract_contract_partial (some ()) 2 someInfo someKey (some someOut) (some 10) (by decide +kernel) (by decide +kernel) (by decide +kernel) (by decide +kernel) (by decide +kernel)
  (fun d sz hd hs => by cases hd; cases hs; decide +kernel)
example := C45_expand_contract_partial (some ()) 2 someKey someInfo 100 (some someOut) (by decide +kernel) (by decide +kernel) (by decide +kernel) (by decide +kernel) (by decide +kernel) (fun d hd => by cases hd; decide +kernel)
example := C45_hkdf_contract_partial (some ()) 2 someKey someKey someInfo 100 (some someOut) (by decide +kernel) (by decide +kernel) (by decide +kernel) (by decide +kernel) (by decide +kernel) (by decide +kernel) (by decide +kernel)
  (fun d hd => by cases hd; decide +kernel)
example := C52_hmac_propagates (fun _ _ _ o s => .ok ⟨.noResources, o, s⟩) .noResources (by decide +kernel) (fun _ _ _ _ _ => ⟨_, rfl, rfl⟩) .sha256 someKey (by decide +kernel) (by decide +kernel)
  someGather (by decide +kernel) someOut 100 (by decide +kernel)
example := C52_extract_propagates (fun _ _ _ o s => .ok ⟨.noResources, o, s⟩) .sha256 someInfo someKey (by decide +kernel) (by decide +kernel) someOut 100 (by decide +kernel)
example := C52_hkdf_propagates (fun _ _ _ o s => .ok ⟨.noResources, o, s⟩) (fun _ _ _ _ o => .ok (.ok, o)) .sha256 someKey someKey someInfo (by decide +kernel) (by decide +kernel) (by decide +kernel) 100
  (some someOut) _ (by decide +kernel) rfl
example := C52_expand_ignores_errors .noResources .sha256 someKey someInfo (by decide +kernel) (by decide +kernel) 3 (by decide +kernel) someOut
example := C52_expand_last_block_partial (fun _ _ g o s => .ok ⟨if ((g.map GatherList.bytes).getD []).getLast? = some 2 then .ok else .noResources, o, s⟩)
  (fun c => if c = 2 then .ok else .noResources) (fun alg k g o s => ⟨_, _, rfl, rfl, rfl, rfl, by intro m c h; simp [h]⟩) .sha256 someKey someInfo (by decide +kernel) (by decide +kernel) 50 (by decide +kernel)
  someOut (by decide +kernel) (by decide +kernel)
example := C52_hkdf_expand_result (fun _ _ _ o s => .ok ⟨.ok, o, s⟩) (fun _ _ _ _ o => .ok (.noResources, o)) .sha256 someKey someKey someInfo (by decide +kernel) (by decide +kernel) (by decide +kernel) 100
  (some someOut) _ _ rfl
example := C56_digest_partial calmLib (some ()) 2 (some abcMessage) 3 (some someOut) (some 10) (fun l hl => by cases hl; exact ⟨by decide +kernel, by decide +kernel, by decide +kernel⟩)
  (fun d sz hd hs => by cases hd; cases hs; decide +kernel) (fun l hl => by cases hl; decide +kernel) ⟨0, []⟩ rfl
example := C56_digest_unchecked_allocation brokenLib .sha256 someGather [] (by decide +kernel) 1 someOut 64 (by decide +kernel) ⟨1, []⟩ rfl
example := C56_digest_later_null_list calmLib (fun _ => rfl) .sha256 ⟨0, none⟩ [⟨1, none⟩, ⟨0, none⟩] 3 ⟨by decide, by decide, by decide⟩ (by decide) (by decide) ⟨⟨1, none⟩, by decide, by decide⟩
  someOut 64 (by decide +kernel) (by decide +kernel) ⟨0, []⟩
example := C56_hmac brokenLib (some ()) 2 someKey (some someGather) (some someOut) (some 100) (by decide) (fun g hg => by cases hg; exact someGather_valid)
  (fun d sz hd hs => by cases hd; cases hs; decide +kernel)
example := C56_extract brokenLib (some ()) 2 someInfo someKey (some someOut) (some 100) (by decide) (by decide) (fun d sz hd hs => by cases hd; cases hs; decide +kernel)
example := C56_expand brokenLib (some ()) 2 someKey someInfo 100 (some someOut) (by decide) (by decide) (fun d hd => by cases hd; decide +kernel)
example := C56_hkdf brokenLib (some ()) 2 someKey someKey someInfo 100 (some someOut) (by decide) (by decide) (by decide) (fun d hd => by cases hd; decide +kernel)

/-- The result of the native context that `C46_hmac` asks for. -/
example : ∃ r, nat20Ctx.hmac (algId .sha512) someKey (some someGather) (some someOut) (some 100) = .ok r ∧ r.err = .ok := by
  exact ⟨_, C42_hmac_partial .sha512 someKey (by decide +kernel) (by decide +kernel) (by decide +kernel) someGather someGather_valid (by decide +kernel) (by decide +kernel)
    (by decide +kernel) someOut 100 (by decide +kernel) (by decide +kernel), rfl⟩

end Nat20.InstancesDigest
