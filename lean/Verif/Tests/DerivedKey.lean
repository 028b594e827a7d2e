import Verif.Lemmas.EvalNonce
/-!
# An EC key that is derived

The hypotheses about derived EC keys in C67 and C68 are met: the P-256 key of the CDI of the repository's tests.
-/

namespace Nat20.Rfc6979

open Fips

/-! ## The keys derived from `test_cdi` (`src/crypto/test/crypto_boringssl.cpp` 32-36) in the context "context" -/

def test_cdi : Bytes := [0xa4, 0x32, 0xb4, 0x34, 0x94, 0x4f, 0x59, 0xcf, 0xdb, 0xf7, 0x04, 0x46, 0x95, 0x9c, 0xee, 0x08, 0x7f, 0x6b, 0x87, 0x60, 0xd8, 0xef, 0xb4, 0xcf, 0xed, 0xf2, 0xf6, 0x29, 0x33, 0x88, 0xf0, 0x64, 0xbb, 0xe0, 0x21, 0xf5, 0x87, 0x1c, 0x6c, 0x0c, 0x30, 0x2b, 0x32, 0x4f, 0x4c, 0x44, 0xd1, 0x26, 0xca, 0x35, 0x6b, 0xc3, 0xc5, 0x0e, 0x17, 0xc6, 0x21, 0xad, 0x1d, 0x32, 0xbd, 0x6e, 0x35, 0x08]

def test_context : Bytes := [0x63, 0x6f, 0x6e, 0x74, 0x65, 0x78, 0x74]

theorem test_derived_hmac : hmac .sha512 test_cdi (test_context ++ [1]) = [0x8a, 0xb1, 0x84, 0xec, 0x6c, 0x9b, 0x4c, 0xc3, 0x92, 0x9a, 0x89, 0x58, 0x75, 0xf1, 0xf8, 0xcc, 0x63, 0xef, 0x30, 0x4a, 0x59, 0x5b, 0x31, 0x06, 0x52, 0x0c, 0xbd, 0xc1, 0x7f, 0x10, 0x80, 0x08, 0x1e, 0x4f, 0xe8, 0x79, 0x80, 0x9c, 0xc4, 0x12, 0x91, 0xd9, 0x38, 0x4e, 0x6c, 0x75, 0x91, 0x0a, 0x61, 0x88, 0x28, 0xd0, 0x79, 0xf5, 0x0a, 0x95, 0xdd, 0xff, 0xfa, 0xff, 0x4b, 0xc1, 0x0d, 0x5d] := by rw [hmac_eval]; decide +kernel


/-! ## The P-256 private key -/

theorem kdf_bits : binaryLength (Curve.order .p256) = 256 := bits_of _ _ (by decide) (by decide) (by decide)

/-- The private key. -/
def kdf_x : Bytes := [0x8a, 0xb1, 0x84, 0xec, 0x6c, 0x9b, 0x4c, 0xc3, 0x92, 0x9a, 0x89, 0x58, 0x75, 0xf1, 0xf8, 0xcc, 0x63, 0xef, 0x30, 0x4a, 0x59, 0x5b, 0x31, 0x06, 0x52, 0x0c, 0xbd, 0xc1, 0x7f, 0x10, 0x80, 0x08]

def kdf_seed : Bytes := [0x8a, 0xb1, 0x84, 0xec, 0x6c, 0x9b, 0x4c, 0xc3, 0x92, 0x9a, 0x89, 0x58, 0x75, 0xf1, 0xf8, 0xcc, 0x63, 0xef, 0x30, 0x4a, 0x59, 0x5b, 0x31, 0x06, 0x52, 0x0c, 0xbd, 0xc1, 0x7f, 0x10, 0x80, 0x08]

theorem kdf_seed_eq : rfcSeedOctets .sha512 (Curve.order .p256) kdf_x none = kdf_seed := by decide +kernel

def kdf_K1 : Bytes := [0x7c, 0x5a, 0x5c, 0x50, 0x38, 0x64, 0x8d, 0xd9, 0xb9, 0xfd, 0x52, 0xc7, 0x8e, 0x00, 0xe1, 0xab, 0x0d, 0x0d, 0xd3, 0xe9, 0x21, 0x2e, 0xbb, 0xcf, 0x3e, 0xdf, 0x57, 0xc8, 0x79, 0xad, 0x9d, 0x51, 0xc8, 0x1a, 0x10, 0x5f, 0x5b, 0x37, 0x90, 0x49, 0x16, 0xf5, 0x39, 0x4f, 0x9c, 0x7c, 0x5d, 0x0f, 0xe2, 0xd0, 0xec, 0x0d, 0x66, 0x79, 0x2a, 0xa2, 0xac, 0x9c, 0x3e, 0x19, 0x58, 0x7a, 0x9d, 0x1c]
theorem kdf_K1_eq : hmac .sha512 (List.replicate (Alg.size .sha512) 0) ((List.replicate (Alg.size .sha512) 1) ++ [0x00] ++ kdf_seed) = kdf_K1 := by rw [hmac_eval]; decide +kernel

def kdf_V1 : Bytes := [0xf2, 0x6d, 0xa9, 0xe7, 0xe3, 0xb4, 0x56, 0xd3, 0x7f, 0x09, 0x6e, 0x56, 0xf3, 0xa2, 0x3b, 0xab, 0x72, 0x15, 0x7b, 0xd4, 0x60, 0xf0, 0xad, 0x24, 0x42, 0x2d, 0xb6, 0x71, 0x0a, 0x76, 0x75, 0x34, 0x92, 0x8d, 0xe5, 0x3a, 0x76, 0x75, 0x78, 0x0f, 0xd1, 0xc3, 0x0b, 0x5b, 0xb1, 0xef, 0x0b, 0xaa, 0xc3, 0xe8, 0xe0, 0x28, 0xa1, 0x94, 0xd1, 0x82, 0x23, 0xbd, 0x8a, 0x66, 0xd8, 0xbd, 0x65, 0x79]
theorem kdf_V1_eq : hmac .sha512 kdf_K1 (List.replicate (Alg.size .sha512) 1) = kdf_V1 := by rw [hmac_eval]; decide +kernel

def kdf_S0K : Bytes := [0x08, 0xe2, 0x1b, 0xc6, 0x88, 0xc7, 0x31, 0x46, 0xde, 0x7d, 0x95, 0xe5, 0xc7, 0xe1, 0x3e, 0x37, 0xdf, 0xc6, 0x97, 0xfc, 0x07, 0x66, 0x39, 0xae, 0xff, 0x78, 0x35, 0xa9, 0x1f, 0x29, 0x26, 0x4c, 0x95, 0xf0, 0xf3, 0x2b, 0x62, 0xe9, 0xc1, 0xff, 0x6a, 0xf9, 0x00, 0x91, 0x3e, 0xa7, 0x5f, 0x60, 0x52, 0xcf, 0xe9, 0xf1, 0x89, 0xd3, 0x88, 0x20, 0x72, 0x8e, 0x33, 0xca, 0xf5, 0xad, 0x88, 0x9f]
theorem kdf_S0K_eq : hmac .sha512 kdf_K1 (kdf_V1 ++ [0x01] ++ kdf_seed) = kdf_S0K := by rw [hmac_eval]; decide +kernel

def kdf_S0V : Bytes := [0x2e, 0x5d, 0x2c, 0xbe, 0x66, 0x94, 0x27, 0x9b, 0x76, 0x1e, 0x95, 0xf3, 0xac, 0x4a, 0x9c, 0x66, 0xfa, 0xb0, 0xd3, 0xaf, 0x3c, 0x1a, 0xbd, 0x11, 0xc8, 0xaf, 0x85, 0x8a, 0xb5, 0x0c, 0x7e, 0xb4, 0xe6, 0x5d, 0xc1, 0xd1, 0x27, 0x93, 0x3b, 0x6a, 0x24, 0x33, 0x52, 0xb7, 0x9c, 0xef, 0x04, 0xcc, 0x88, 0xa7, 0xf3, 0x9b, 0x06, 0xde, 0xca, 0xe8, 0x8a, 0x0f, 0x0c, 0xb9, 0xe3, 0xcd, 0x2d, 0x91]
theorem kdf_S0V_eq : hmac .sha512 kdf_S0K kdf_V1 = kdf_S0V := by rw [hmac_eval]; decide +kernel

theorem kdf_state0 : rfcState .sha512 (Curve.order .p256) kdf_seed 0 = (kdf_S0K, kdf_S0V) := by
  rw [rfcState, rfcStart]
  simp only [kdf_K1_eq, kdf_V1_eq, kdf_S0K_eq, kdf_S0V_eq]

def kdf_T0 : Bytes := [0x3f, 0x1d, 0x6d, 0x8d, 0x92, 0x40, 0xc7, 0x2c, 0x60, 0xa5, 0xb4, 0x78, 0x38, 0x06, 0x3a, 0x85, 0xc2, 0xaa, 0x25, 0x3b, 0xe4, 0x7b, 0x55, 0xea, 0x11, 0x0e, 0xd2, 0x35, 0x23, 0xdc, 0xd4, 0xc7, 0x50, 0xbe, 0xb4, 0x6a, 0xd9, 0x18, 0x34, 0x0a, 0x5d, 0x29, 0x5d, 0x4b, 0x62, 0xe7, 0xb0, 0x9f, 0x31, 0x8f, 0x97, 0x70, 0x04, 0xcb, 0xea, 0x6b, 0x5b, 0x32, 0x35, 0x26, 0x51, 0x11, 0x27, 0x5b]
theorem kdf_T0_eq : hmac .sha512 kdf_S0K kdf_S0V = kdf_T0 := by rw [hmac_eval]; decide +kernel

theorem kdf_candidate0 : rfcCandidate .sha512 (Curve.order .p256) kdf_seed 0 = 0x3f1d6d8d9240c72c60a5b47838063a85c2aa253be47b55ea110ed23523dcd4c7 := by
  rw [rfcCandidate, kdf_state0, octets_one _ _ _ _ (by rw [kdf_bits]; decide) (by rw [kdf_bits]; decide), kdf_T0_eq, kdf_bits]
  decide +kernel

theorem kdf_nonce : IsNonce .sha512 (Curve.order .p256) (rfcSeedOctets .sha512 (Curve.order .p256) kdf_x none) 0 0x3f1d6d8d9240c72c60a5b47838063a85c2aa253be47b55ea110ed23523dcd4c7 := by
  rw [kdf_seed_eq]
  exact ⟨kdf_candidate0.symm, by unfold Acceptable; decide, fun m hm => absurd hm (Nat.not_lt_zero m)⟩

/-- The vector. -/
example : ∃ w, rfc6979 calmLib kdf_x none (algId .sha512) (Curve.order .p256) ⟨0, []⟩ = .ok (.ok 0x3f1d6d8d9240c72c60a5b47838063a85c2aa253be47b55ea110ed23523dcd4c7, w) :=
  model_gives _ _ _ _ (by decide) _ _ kdf_nonce (by decide)

/-- The octets the key is made of. -/
theorem test_derived : derivedOctets test_cdi test_context = kdf_x := by
  rw [derivedOctets_eq, test_derived_hmac]
  rfl

/-- The context as a gather list. -/
def test_gather : GatherList := ⟨1, some [⟨7, some ⟨[], test_context⟩⟩]⟩

theorem test_gather_valid : test_gather.Valid :=
  ⟨fun l hl => by simp only [test_gather, Option.some.injEq] at hl; subst hl; decide, fun s hs => by
    simp only [test_gather, GatherList.slices, Option.getD_some] at hs
    have hs : s ∈ [(⟨7, some ⟨[], test_context⟩⟩ : Slice)] := hs
    rw [List.mem_singleton] at hs
    subst hs
    intro p hp
    simp only [Option.some.injEq] at hp
    subst hp
    decide⟩

theorem test_world_ok : World.Ok ⟨0, [some ⟨4, .inl test_cdi⟩]⟩ := by
  intro p k h
  match p with
  | 0 => simp only [List.getElem?_cons_zero, Option.some.injEq] at h; subst h; rfl
  | p + 1 => simp at h

/-- The P-256 key of `test_cdi` can be derived. -/
theorem test_key : ∃ w, DerivedKey calmLib test_cdi test_context 1 1 w := by
  rcases C49_kdf calmLib (some ()) (some 0) 1 (some test_gather) (some none) ⟨0, [some ⟨4, .inl test_cdi⟩]⟩ test_world_ok
    (fun p hp => by simp only [Option.some.injEq] at hp; subst hp; exact ⟨_, rfl⟩)
    (fun g hg' => by
      simp only [Option.some.injEq] at hg'
      subst hg'
      exact test_gather_valid) with ⟨_, p, cdi, g, hp, hl, hg, c, hc, h⟩ | ⟨⟨e, o⟩, w', e1, h⟩
  · simp only [Option.some.injEq] at hp hg
    subst hp hg
    have hl : some (some (⟨4, .inl test_cdi⟩ : BsslKey)) = some (some ⟨4, .inl cdi⟩) := hl
    simp only [Option.some.injEq, BsslKey.mk.injEq, Sum.inl.injEq, true_and] at hl
    subst hl
    have hc : some Curve.p256 = some c := hc
    cases hc
    have h0 := h 0 (by decide)
    rw [show test_gather.bytes = test_context from by decide, test_derived] at h0
    have hn := kdf_nonce
    rw [kdf_seed_eq] at hn
    rw [show kdf_x = kdf_seed from rfl] at h0
    exact absurd (hn.1 ▸ hn.2.1) h0
  · refine ⟨w', ⟨0, [some ⟨4, .inl test_cdi⟩]⟩, w', 0, test_gather, none, [], test_world_ok, rfl, test_gather_valid, by decide, ?_, .nil _, by simp⟩
    rw [e1]
    rcases h with ⟨h1, h2⟩ | ⟨⟨_, i, _, _, h⟩, _⟩
    · have h1 : e = .ok := h1
      subst h1
      unfold KdfEffects at h2
      rw [if_pos rfl] at h2
      obtain ⟨p, cdi, g, k, _, _, _, _, h3, _⟩ := h2
      have h3 : o = some (some 1) := h3
      rw [h3]
    · simp [calmLib] at h

end Nat20.Rfc6979
