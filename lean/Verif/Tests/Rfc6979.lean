import Verif.Lemmas.EvalNonce
/-!
# The test vectors of RFC 6979 in the repository

`src/crypto/test/crypto_boringssl.cpp` 82-113, 115-208, 210-306.  These examples validate the specification (`IsNonce`) and the model with literal vectors; they are tests, not proofs of properties.  The steps were
computed by a script; the kernel checks each of them.
-/

namespace Nat20.Rfc6979

open Fips

/-! ## `Test_rfc6979_k_generation` (RFC 6979 A.1.2); the first two candidates are rejected -/

theorem rfcA12_bits : binaryLength 0x4000000000000000000020108A2E0CC0D99F8A5EF = 163 := bits_of _ _ (by decide) (by decide) (by decide)

/-- The private key. -/
def rfcA12_x : Bytes := [0x00, 0x9a, 0x4d, 0x67, 0x92, 0x29, 0x5a, 0x7f, 0x73, 0x0f, 0xc3, 0xf2, 0xb4, 0x9c, 0xbc, 0x0f, 0x62, 0xe8, 0x62, 0x27, 0x2f]

/-- The message. -/
def rfcA12_m : Bytes := [0x73, 0x61, 0x6d, 0x70, 0x6c, 0x65]

theorem rfcA12_digest : sha2 .sha256 rfcA12_m = [0xaf, 0x2b, 0xdb, 0xe1, 0xaa, 0x9b, 0x6e, 0xc1, 0xe2, 0xad, 0xe1, 0xd6, 0x94, 0xf4, 0x1f, 0xc7, 0x1a, 0x83, 0x1d, 0x02, 0x68, 0xe9, 0x89, 0x15, 0x62, 0x11, 0x3d, 0x8a, 0x62, 0xad, 0xd1, 0xbf] := by rw [sha2_eval]; decide +kernel

def rfcA12_seed : Bytes := [0x00, 0x9a, 0x4d, 0x67, 0x92, 0x29, 0x5a, 0x7f, 0x73, 0x0f, 0xc3, 0xf2, 0xb4, 0x9c, 0xbc, 0x0f, 0x62, 0xe8, 0x62, 0x27, 0x2f, 0x01, 0x79, 0x5e, 0xdf, 0x0d, 0x54, 0xdb, 0x76, 0x0f, 0x15, 0x6d, 0x0d, 0xac, 0x04, 0xc0, 0x32, 0x2b, 0x3a, 0x20, 0x42, 0x24]

theorem rfcA12_seed_eq : rfcSeedOctets .sha256 0x4000000000000000000020108A2E0CC0D99F8A5EF rfcA12_x (some rfcA12_m) = rfcA12_seed := by
  simp only [rfcSeedOctets, rfcA12_digest, bits2octets, rfcA12_bits]
  decide +kernel

def rfcA12_K1 : Bytes := [0x09, 0x99, 0x9a, 0x9b, 0xfe, 0xf9, 0x72, 0xd3, 0x34, 0x69, 0x11, 0x88, 0x3f, 0xad, 0x79, 0x51, 0xd2, 0x3f, 0x2c, 0x8b, 0x47, 0xf4, 0x20, 0x22, 0x2d, 0x11, 0x71, 0xee, 0xee, 0xac, 0x5a, 0xb8]
theorem rfcA12_K1_eq : hmac .sha256 (List.replicate (Alg.size .sha256) 0) ((List.replicate (Alg.size .sha256) 1) ++ [0x00] ++ rfcA12_seed) = rfcA12_K1 := by rw [hmac_eval]; decide +kernel

def rfcA12_V1 : Bytes := [0xd5, 0xf4, 0x03, 0x0f, 0x75, 0x5e, 0xe8, 0x6a, 0xa1, 0x0b, 0xba, 0x8c, 0x09, 0xdf, 0x11, 0x4f, 0xf6, 0xb6, 0x11, 0x1c, 0x23, 0x85, 0x00, 0xd1, 0x3c, 0x73, 0x43, 0xa8, 0xc0, 0x1b, 0xec, 0xf7]
theorem rfcA12_V1_eq : hmac .sha256 rfcA12_K1 (List.replicate (Alg.size .sha256) 1) = rfcA12_V1 := by rw [hmac_eval]; decide +kernel

def rfcA12_S0K : Bytes := [0x0c, 0xf2, 0xfe, 0x96, 0xd5, 0x61, 0x9c, 0x9e, 0xf5, 0x3c, 0xb7, 0x41, 0x7d, 0x49, 0xd3, 0x7e, 0xa6, 0x8a, 0x4f, 0xfe, 0xd0, 0xd7, 0xe6, 0x23, 0xe3, 0x86, 0x89, 0x28, 0x99, 0x11, 0xbd, 0x57]
theorem rfcA12_S0K_eq : hmac .sha256 rfcA12_K1 (rfcA12_V1 ++ [0x01] ++ rfcA12_seed) = rfcA12_S0K := by rw [hmac_eval]; decide +kernel

def rfcA12_S0V : Bytes := [0x78, 0x34, 0x57, 0xc1, 0xcf, 0x31, 0x48, 0xa8, 0xf2, 0xa9, 0xae, 0x73, 0xed, 0x47, 0x2f, 0xa9, 0x8e, 0xd9, 0xcd, 0x92, 0x5d, 0x8e, 0x96, 0x4c, 0xe0, 0x76, 0x4d, 0xef, 0x3f, 0x84, 0x2b, 0x9a]
theorem rfcA12_S0V_eq : hmac .sha256 rfcA12_S0K rfcA12_V1 = rfcA12_S0V := by rw [hmac_eval]; decide +kernel

theorem rfcA12_state0 : rfcState .sha256 0x4000000000000000000020108A2E0CC0D99F8A5EF rfcA12_seed 0 = (rfcA12_S0K, rfcA12_S0V) := by
  rw [rfcState, rfcStart]
  simp only [rfcA12_K1_eq, rfcA12_V1_eq, rfcA12_S0K_eq, rfcA12_S0V_eq]

def rfcA12_T0 : Bytes := [0x93, 0x05, 0xa4, 0x6d, 0xe7, 0xff, 0x8e, 0xb1, 0x07, 0x19, 0x4d, 0xeb, 0xd3, 0xfd, 0x48, 0xaa, 0x20, 0xd5, 0xe7, 0x65, 0x6c, 0xbe, 0x0e, 0xa6, 0x9d, 0x2a, 0x8d, 0x4e, 0x7c, 0x67, 0x31, 0x4a]
theorem rfcA12_T0_eq : hmac .sha256 rfcA12_S0K rfcA12_S0V = rfcA12_T0 := by rw [hmac_eval]; decide +kernel

theorem rfcA12_candidate0 : rfcCandidate .sha256 0x4000000000000000000020108A2E0CC0D99F8A5EF rfcA12_seed 0 = 0x4982d236f3ffc758838ca6f5e9fea455106af3b2b := by
  rw [rfcCandidate, rfcA12_state0, octets_one _ _ _ _ (by rw [rfcA12_bits]; decide) (by rw [rfcA12_bits]; decide), rfcA12_T0_eq, rfcA12_bits]
  decide +kernel

def rfcA12_S1K : Bytes := [0x75, 0xcb, 0x5c, 0x05, 0xb2, 0xa7, 0x8c, 0x3d, 0x81, 0xdf, 0x12, 0xd7, 0x4d, 0x7b, 0xe0, 0xa0, 0xe9, 0x4a, 0xb1, 0x98, 0x15, 0x78, 0x1d, 0x4d, 0x8e, 0x29, 0x02, 0xa7, 0x9d, 0x0a, 0x66, 0x99]
theorem rfcA12_S1K_eq : hmac .sha256 rfcA12_S0K (rfcA12_T0 ++ [0x00]) = rfcA12_S1K := by rw [hmac_eval]; decide +kernel

def rfcA12_S1V : Bytes := [0xdc, 0xb9, 0xca, 0x12, 0x61, 0x07, 0xa9, 0xc2, 0x7c, 0xe7, 0x7b, 0xa5, 0x8e, 0xa8, 0x71, 0xc8, 0xc9, 0x12, 0xd8, 0x35, 0xea, 0xdd, 0xc3, 0x05, 0xf2, 0x44, 0x5d, 0x88, 0xf6, 0x6c, 0x4c, 0x43]
theorem rfcA12_S1V_eq : hmac .sha256 rfcA12_S1K rfcA12_T0 = rfcA12_S1V := by rw [hmac_eval]; decide +kernel

theorem rfcA12_state1 : rfcState .sha256 0x4000000000000000000020108A2E0CC0D99F8A5EF rfcA12_seed 1 = (rfcA12_S1K, rfcA12_S1V) := by
  rw [rfcState, rfcA12_state0, octets_one _ _ _ _ (by rw [rfcA12_bits]; decide) (by rw [rfcA12_bits]; decide), rfcA12_T0_eq]
  simp only [rfcA12_S1K_eq, rfcA12_S1V_eq]

def rfcA12_T1 : Bytes := [0xc7, 0x0c, 0x78, 0x60, 0x8a, 0x3b, 0x5b, 0xe9, 0x28, 0x9b, 0xe9, 0x0e, 0xf6, 0xe8, 0x1a, 0x9e, 0x2c, 0x15, 0x16, 0xd5, 0x75, 0x1d, 0x2f, 0x75, 0xf5, 0x00, 0x33, 0xe4, 0x5f, 0x73, 0xbd, 0xeb]
theorem rfcA12_T1_eq : hmac .sha256 rfcA12_S1K rfcA12_S1V = rfcA12_T1 := by rw [hmac_eval]; decide +kernel

theorem rfcA12_candidate1 : rfcCandidate .sha256 0x4000000000000000000020108A2E0CC0D99F8A5EF rfcA12_seed 1 = 0x63863c30451dadf4944df4877b740d4f160a8b6ab := by
  rw [rfcCandidate, rfcA12_state1, octets_one _ _ _ _ (by rw [rfcA12_bits]; decide) (by rw [rfcA12_bits]; decide), rfcA12_T1_eq, rfcA12_bits]
  decide +kernel

def rfcA12_S2K : Bytes := [0x0a, 0x5a, 0x64, 0xb9, 0x9c, 0x05, 0x95, 0x20, 0x10, 0x36, 0x86, 0xcb, 0x6f, 0x36, 0xbc, 0xfc, 0xa7, 0x88, 0xeb, 0x3b, 0xcf, 0x69, 0xba, 0x66, 0xa5, 0xbb, 0x08, 0x0b, 0x05, 0x93, 0xba, 0x53]
theorem rfcA12_S2K_eq : hmac .sha256 rfcA12_S1K (rfcA12_T1 ++ [0x00]) = rfcA12_S2K := by rw [hmac_eval]; decide +kernel

def rfcA12_S2V : Bytes := [0x0b, 0x3b, 0x19, 0x68, 0x11, 0xb1, 0x9f, 0x6c, 0x6f, 0x72, 0x9c, 0x43, 0xf3, 0x5b, 0xcf, 0x0d, 0xfd, 0x72, 0x5f, 0x17, 0xca, 0x34, 0x30, 0xe8, 0x72, 0x14, 0x53, 0xe5, 0x55, 0x50, 0xa1, 0x8f]
theorem rfcA12_S2V_eq : hmac .sha256 rfcA12_S2K rfcA12_T1 = rfcA12_S2V := by rw [hmac_eval]; decide +kernel

theorem rfcA12_state2 : rfcState .sha256 0x4000000000000000000020108A2E0CC0D99F8A5EF rfcA12_seed 2 = (rfcA12_S2K, rfcA12_S2V) := by
  rw [rfcState, rfcA12_state1, octets_one _ _ _ _ (by rw [rfcA12_bits]; decide) (by rw [rfcA12_bits]; decide), rfcA12_T1_eq]
  simp only [rfcA12_S2K_eq, rfcA12_S2V_eq]

def rfcA12_T2 : Bytes := [0x47, 0x5e, 0x80, 0xe9, 0x92, 0x14, 0x05, 0x67, 0xfc, 0xc3, 0xa5, 0x0d, 0xab, 0x90, 0xfe, 0x84, 0xbc, 0xd7, 0xbb, 0x03, 0x63, 0x8e, 0x9c, 0x46, 0x56, 0xa0, 0x6f, 0x37, 0xf6, 0x50, 0x8a, 0x7c]
theorem rfcA12_T2_eq : hmac .sha256 rfcA12_S2K rfcA12_S2V = rfcA12_T2 := by rw [hmac_eval]; decide +kernel

theorem rfcA12_candidate2 : rfcCandidate .sha256 0x4000000000000000000020108A2E0CC0D99F8A5EF rfcA12_seed 2 = 0x23af4074c90a02b3fe61d286d5c87f425e6bdd81b := by
  rw [rfcCandidate, rfcA12_state2, octets_one _ _ _ _ (by rw [rfcA12_bits]; decide) (by rw [rfcA12_bits]; decide), rfcA12_T2_eq, rfcA12_bits]
  decide +kernel

theorem rfcA12_nonce : IsNonce .sha256 0x4000000000000000000020108A2E0CC0D99F8A5EF (rfcSeedOctets .sha256 0x4000000000000000000020108A2E0CC0D99F8A5EF rfcA12_x (some rfcA12_m)) 2 0x23af4074c90a02b3fe61d286d5c87f425e6bdd81b := by
  rw [rfcA12_seed_eq]
  exact ⟨rfcA12_candidate2.symm, by unfold Acceptable; decide, fun m hm => by
    match m, hm with
    | 0, _ => rw [rfcA12_candidate0]; unfold Acceptable; decide
    | 1, _ => rw [rfcA12_candidate1]; unfold Acceptable; decide⟩

/-- The vector. -/
example : ∃ w, rfc6979 calmLib rfcA12_x (some rfcA12_m) (algId .sha256) 0x4000000000000000000020108A2E0CC0D99F8A5EF ⟨0, []⟩ = .ok (.ok 0x23af4074c90a02b3fe61d286d5c87f425e6bdd81b, w) :=
  model_gives _ _ _ _ (by decide) _ _ rfcA12_nonce (by decide)

/-! ## `Test_rfc6979_k_P_256_generation`, SHA-256, `SAMPLE_MSG` -/

theorem p256s_bits : binaryLength (Curve.order .p256) = 256 := bits_of _ _ (by decide) (by decide) (by decide)

/-- The private key. -/
def p256s_x : Bytes := [0xc9, 0xaf, 0xa9, 0xd8, 0x45, 0xba, 0x75, 0x16, 0x6b, 0x5c, 0x21, 0x57, 0x67, 0xb1, 0xd6, 0x93, 0x4e, 0x50, 0xc3, 0xdb, 0x36, 0xe8, 0x9b, 0x12, 0x7b, 0x8a, 0x62, 0x2b, 0x12, 0x0f, 0x67, 0x21]

/-- The message. -/
def p256s_m : Bytes := [0x73, 0x61, 0x6d, 0x70, 0x6c, 0x65]

theorem p256s_digest : sha2 .sha256 p256s_m = [0xaf, 0x2b, 0xdb, 0xe1, 0xaa, 0x9b, 0x6e, 0xc1, 0xe2, 0xad, 0xe1, 0xd6, 0x94, 0xf4, 0x1f, 0xc7, 0x1a, 0x83, 0x1d, 0x02, 0x68, 0xe9, 0x89, 0x15, 0x62, 0x11, 0x3d, 0x8a, 0x62, 0xad, 0xd1, 0xbf] := by rw [sha2_eval]; decide +kernel

def p256s_seed : Bytes := [0xc9, 0xaf, 0xa9, 0xd8, 0x45, 0xba, 0x75, 0x16, 0x6b, 0x5c, 0x21, 0x57, 0x67, 0xb1, 0xd6, 0x93, 0x4e, 0x50, 0xc3, 0xdb, 0x36, 0xe8, 0x9b, 0x12, 0x7b, 0x8a, 0x62, 0x2b, 0x12, 0x0f, 0x67, 0x21, 0xaf, 0x2b, 0xdb, 0xe1, 0xaa, 0x9b, 0x6e, 0xc1, 0xe2, 0xad, 0xe1, 0xd6, 0x94, 0xf4, 0x1f, 0xc7, 0x1a, 0x83, 0x1d, 0x02, 0x68, 0xe9, 0x89, 0x15, 0x62, 0x11, 0x3d, 0x8a, 0x62, 0xad, 0xd1, 0xbf]

theorem p256s_seed_eq : rfcSeedOctets .sha256 (Curve.order .p256) p256s_x (some p256s_m) = p256s_seed := by
  simp only [rfcSeedOctets, p256s_digest, bits2octets, p256s_bits]
  decide +kernel

def p256s_K1 : Bytes := [0x12, 0x2d, 0xb1, 0xde, 0x98, 0xda, 0xe4, 0xdf, 0xa3, 0x3f, 0x2d, 0xa8, 0xe9, 0x84, 0x94, 0xc8, 0x0b, 0xff, 0x80, 0x7b, 0x47, 0x9f, 0xd7, 0x92, 0x61, 0xb3, 0x7e, 0x25, 0xf2, 0x67, 0xee, 0x58]
theorem p256s_K1_eq : hmac .sha256 (List.replicate (Alg.size .sha256) 0) ((List.replicate (Alg.size .sha256) 1) ++ [0x00] ++ p256s_seed) = p256s_K1 := by rw [hmac_eval]; decide +kernel

def p256s_V1 : Bytes := [0xc9, 0x94, 0x78, 0x03, 0xa7, 0x47, 0xfc, 0x60, 0xc2, 0x35, 0x35, 0xfd, 0xcc, 0x13, 0xb5, 0xca, 0x56, 0x6b, 0x48, 0x22, 0x1c, 0xa6, 0x7d, 0x49, 0x64, 0xd2, 0x2d, 0xaa, 0x48, 0x27, 0x58, 0x44]
theorem p256s_V1_eq : hmac .sha256 p256s_K1 (List.replicate (Alg.size .sha256) 1) = p256s_V1 := by rw [hmac_eval]; decide +kernel

def p256s_S0K : Bytes := [0xb6, 0xd4, 0xf9, 0x8e, 0xba, 0xe7, 0x0a, 0xa1, 0x5a, 0x22, 0x38, 0xad, 0xe4, 0xe2, 0x0a, 0xb3, 0x23, 0xfc, 0x1e, 0x77, 0x7d, 0x22, 0xf0, 0xc5, 0x82, 0xd8, 0xef, 0x2e, 0x6b, 0xa7, 0x35, 0x69]
theorem p256s_S0K_eq : hmac .sha256 p256s_K1 (p256s_V1 ++ [0x01] ++ p256s_seed) = p256s_S0K := by rw [hmac_eval]; decide +kernel

def p256s_S0V : Bytes := [0xba, 0xe5, 0x7f, 0xe2, 0x56, 0xde, 0x2d, 0xe8, 0x06, 0xb1, 0x06, 0x35, 0x49, 0x72, 0x37, 0xe7, 0xba, 0xe9, 0x67, 0x54, 0x58, 0x25, 0x66, 0x38, 0x4c, 0x47, 0xc6, 0xc3, 0x41, 0x64, 0x94, 0xd1]
theorem p256s_S0V_eq : hmac .sha256 p256s_S0K p256s_V1 = p256s_S0V := by rw [hmac_eval]; decide +kernel

theorem p256s_state0 : rfcState .sha256 (Curve.order .p256) p256s_seed 0 = (p256s_S0K, p256s_S0V) := by
  rw [rfcState, rfcStart]
  simp only [p256s_K1_eq, p256s_V1_eq, p256s_S0K_eq, p256s_S0V_eq]

def p256s_T0 : Bytes := [0xa6, 0xe3, 0xc5, 0x7d, 0xd0, 0x1a, 0xbe, 0x90, 0x08, 0x65, 0x38, 0x39, 0x83, 0x55, 0xdd, 0x4c, 0x3b, 0x17, 0xaa, 0x87, 0x33, 0x82, 0xb0, 0xf2, 0x4d, 0x61, 0x29, 0x49, 0x3d, 0x8a, 0xad, 0x60]
theorem p256s_T0_eq : hmac .sha256 p256s_S0K p256s_S0V = p256s_T0 := by rw [hmac_eval]; decide +kernel

theorem p256s_candidate0 : rfcCandidate .sha256 (Curve.order .p256) p256s_seed 0 = 0xa6e3c57dd01abe90086538398355dd4c3b17aa873382b0f24d6129493d8aad60 := by
  rw [rfcCandidate, p256s_state0, octets_one _ _ _ _ (by rw [p256s_bits]; decide) (by rw [p256s_bits]; decide), p256s_T0_eq, p256s_bits]
  decide +kernel

theorem p256s_nonce : IsNonce .sha256 (Curve.order .p256) (rfcSeedOctets .sha256 (Curve.order .p256) p256s_x (some p256s_m)) 0 0xa6e3c57dd01abe90086538398355dd4c3b17aa873382b0f24d6129493d8aad60 := by
  rw [p256s_seed_eq]
  exact ⟨p256s_candidate0.symm, by unfold Acceptable; decide, fun m hm => absurd hm (Nat.not_lt_zero m)⟩

/-- The vector. -/
example : ∃ w, rfc6979 calmLib p256s_x (some p256s_m) (algId .sha256) (Curve.order .p256) ⟨0, []⟩ = .ok (.ok 0xa6e3c57dd01abe90086538398355dd4c3b17aa873382b0f24d6129493d8aad60, w) :=
  model_gives _ _ _ _ (by decide) _ _ p256s_nonce (by decide)

/-! ## `Test_rfc6979_k_P_256_generation`, SHA-512, `NULL_MSG` -/

theorem p256n_bits : binaryLength (Curve.order .p256) = 256 := bits_of _ _ (by decide) (by decide) (by decide)

/-- The private key. -/
def p256n_x : Bytes := [0xc9, 0xaf, 0xa9, 0xd8, 0x45, 0xba, 0x75, 0x16, 0x6b, 0x5c, 0x21, 0x57, 0x67, 0xb1, 0xd6, 0x93, 0x4e, 0x50, 0xc3, 0xdb, 0x36, 0xe8, 0x9b, 0x12, 0x7b, 0x8a, 0x62, 0x2b, 0x12, 0x0f, 0x67, 0x21]

def p256n_seed : Bytes := [0xc9, 0xaf, 0xa9, 0xd8, 0x45, 0xba, 0x75, 0x16, 0x6b, 0x5c, 0x21, 0x57, 0x67, 0xb1, 0xd6, 0x93, 0x4e, 0x50, 0xc3, 0xdb, 0x36, 0xe8, 0x9b, 0x12, 0x7b, 0x8a, 0x62, 0x2b, 0x12, 0x0f, 0x67, 0x21]

theorem p256n_seed_eq : rfcSeedOctets .sha512 (Curve.order .p256) p256n_x none = p256n_seed := by decide +kernel

def p256n_K1 : Bytes := [0x10, 0x8f, 0x2d, 0xd5, 0xc9, 0x2c, 0xc1, 0x72, 0x88, 0x7e, 0xce, 0xfb, 0xc8, 0x1b, 0xdc, 0xd4, 0x15, 0x3f, 0x1c, 0xb2, 0xa5, 0x5c, 0xe6, 0x4f, 0xb0, 0x6d, 0x47, 0xda, 0xea, 0xa0, 0x24, 0x31, 0x32, 0xcb, 0xea, 0x0f, 0xff, 0xe2, 0x24, 0x8f, 0x13, 0x82, 0x77, 0x04, 0xb3, 0x55, 0xd0, 0x26, 0xd8, 0xbb, 0xef, 0x16, 0x83, 0x98, 0x2c, 0x9f, 0xa5, 0x0d, 0x86, 0x3d, 0xd7, 0x96, 0xb3, 0x6d]
theorem p256n_K1_eq : hmac .sha512 (List.replicate (Alg.size .sha512) 0) ((List.replicate (Alg.size .sha512) 1) ++ [0x00] ++ p256n_seed) = p256n_K1 := by rw [hmac_eval]; decide +kernel

def p256n_V1 : Bytes := [0xe8, 0x9b, 0xb8, 0xa3, 0xa1, 0xc3, 0x5d, 0xe4, 0x1f, 0x9c, 0x96, 0x9d, 0x69, 0x50, 0x0f, 0xe4, 0xc2, 0x5e, 0x66, 0x29, 0x0d, 0x70, 0x5a, 0x5c, 0xc3, 0x73, 0x86, 0x98, 0x93, 0x6c, 0x33, 0xa3, 0x71, 0x22, 0xff, 0x1b, 0x5a, 0xf8, 0x98, 0x29, 0xc1, 0x6b, 0x90, 0xb6, 0xa9, 0xfb, 0xce, 0x9f, 0x92, 0xa5, 0x83, 0xff, 0xa6, 0xf0, 0xa5, 0x26, 0x1a, 0x2a, 0xbb, 0x4e, 0xfc, 0x85, 0xac, 0x33]
theorem p256n_V1_eq : hmac .sha512 p256n_K1 (List.replicate (Alg.size .sha512) 1) = p256n_V1 := by rw [hmac_eval]; decide +kernel

def p256n_S0K : Bytes := [0x1e, 0xab, 0x7d, 0x54, 0x74, 0xa0, 0x78, 0x7d, 0x99, 0xd5, 0x1b, 0xdb, 0x48, 0x85, 0x56, 0x61, 0xea, 0x64, 0xa4, 0x10, 0xd7, 0x33, 0x1c, 0x7a, 0x77, 0x0e, 0xba, 0xa8, 0x31, 0x1a, 0x92, 0xa9, 0xe7, 0xe0, 0xfc, 0xd3, 0x19, 0x60, 0x63, 0x26, 0xa5, 0x19, 0x55, 0x14, 0x12, 0xfb, 0xda, 0xb5, 0xc3, 0x81, 0x10, 0x47, 0x5b, 0x3d, 0xa9, 0xe7, 0x73, 0x38, 0x78, 0x40, 0xfe, 0x61, 0x9e, 0x89]
theorem p256n_S0K_eq : hmac .sha512 p256n_K1 (p256n_V1 ++ [0x01] ++ p256n_seed) = p256n_S0K := by rw [hmac_eval]; decide +kernel

def p256n_S0V : Bytes := [0xde, 0x32, 0xa1, 0x34, 0xea, 0x30, 0xcf, 0x67, 0x1b, 0x9d, 0xcd, 0xa6, 0x30, 0xe1, 0x0a, 0x30, 0x57, 0x1a, 0xf2, 0x42, 0xb3, 0xd8, 0x33, 0xb8, 0x11, 0x2b, 0xf1, 0x4f, 0x80, 0xa3, 0x38, 0x19, 0x48, 0x33, 0x99, 0x49, 0x41, 0xce, 0x9f, 0x57, 0xf6, 0x43, 0x76, 0xa4, 0xd4, 0x28, 0xa6, 0xf2, 0xda, 0x85, 0x7c, 0x05, 0x71, 0xbe, 0x92, 0x44, 0x8e, 0x12, 0x7c, 0x7d, 0x73, 0xb3, 0x6a, 0x01]
theorem p256n_S0V_eq : hmac .sha512 p256n_S0K p256n_V1 = p256n_S0V := by rw [hmac_eval]; decide +kernel

theorem p256n_state0 : rfcState .sha512 (Curve.order .p256) p256n_seed 0 = (p256n_S0K, p256n_S0V) := by
  rw [rfcState, rfcStart]
  simp only [p256n_K1_eq, p256n_V1_eq, p256n_S0K_eq, p256n_S0V_eq]

def p256n_T0 : Bytes := [0xbb, 0xbb, 0x46, 0xf3, 0x5c, 0x82, 0x17, 0x0d, 0x76, 0x7e, 0xd8, 0x45, 0xf4, 0xa7, 0xd9, 0x42, 0xbc, 0xc3, 0xcc, 0xc8, 0x2b, 0xb3, 0x9e, 0xb0, 0xf3, 0xb6, 0x07, 0xee, 0x18, 0x86, 0x7e, 0xa2, 0xb4, 0x6d, 0xe3, 0x94, 0x0c, 0xdc, 0x77, 0xc8, 0xa6, 0x07, 0x38, 0x40, 0xcb, 0x68, 0x0b, 0x1b, 0x75, 0x4a, 0x7f, 0x2a, 0x63, 0xcb, 0x59, 0xe3, 0x5b, 0xe3, 0xf7, 0xea, 0xca, 0x4d, 0xa0, 0x1b]
theorem p256n_T0_eq : hmac .sha512 p256n_S0K p256n_S0V = p256n_T0 := by rw [hmac_eval]; decide +kernel

theorem p256n_candidate0 : rfcCandidate .sha512 (Curve.order .p256) p256n_seed 0 = 0xbbbb46f35c82170d767ed845f4a7d942bcc3ccc82bb39eb0f3b607ee18867ea2 := by
  rw [rfcCandidate, p256n_state0, octets_one _ _ _ _ (by rw [p256n_bits]; decide) (by rw [p256n_bits]; decide), p256n_T0_eq, p256n_bits]
  decide +kernel

theorem p256n_nonce : IsNonce .sha512 (Curve.order .p256) (rfcSeedOctets .sha512 (Curve.order .p256) p256n_x none) 0 0xbbbb46f35c82170d767ed845f4a7d942bcc3ccc82bb39eb0f3b607ee18867ea2 := by
  rw [p256n_seed_eq]
  exact ⟨p256n_candidate0.symm, by unfold Acceptable; decide, fun m hm => absurd hm (Nat.not_lt_zero m)⟩

/-- The vector. -/
example : ∃ w, rfc6979 calmLib p256n_x none (algId .sha512) (Curve.order .p256) ⟨0, []⟩ = .ok (.ok 0xbbbb46f35c82170d767ed845f4a7d942bcc3ccc82bb39eb0f3b607ee18867ea2, w) :=
  model_gives _ _ _ _ (by decide) _ _ p256n_nonce (by decide)

/-! ## `Test_rfc6979_k_P_384_generation`, SHA-512, `NULL_MSG` -/

theorem p384n_bits : binaryLength (Curve.order .p384) = 384 := bits_of _ _ (by decide) (by decide) (by decide)

/-- The private key. -/
def p384n_x : Bytes := [0x6b, 0x9d, 0x3d, 0xad, 0x2e, 0x1b, 0x8c, 0x1c, 0x05, 0xb1, 0x98, 0x75, 0xb6, 0x65, 0x9f, 0x4d, 0xe2, 0x3c, 0x3b, 0x66, 0x7b, 0xf2, 0x97, 0xba, 0x9a, 0xa4, 0x77, 0x40, 0x78, 0x71, 0x37, 0xd8, 0x96, 0xd5, 0x72, 0x4e, 0x4c, 0x70, 0xa8, 0x25, 0xf8, 0x72, 0xc9, 0xea, 0x60, 0xd2, 0xed, 0xf5]

def p384n_seed : Bytes := [0x6b, 0x9d, 0x3d, 0xad, 0x2e, 0x1b, 0x8c, 0x1c, 0x05, 0xb1, 0x98, 0x75, 0xb6, 0x65, 0x9f, 0x4d, 0xe2, 0x3c, 0x3b, 0x66, 0x7b, 0xf2, 0x97, 0xba, 0x9a, 0xa4, 0x77, 0x40, 0x78, 0x71, 0x37, 0xd8, 0x96, 0xd5, 0x72, 0x4e, 0x4c, 0x70, 0xa8, 0x25, 0xf8, 0x72, 0xc9, 0xea, 0x60, 0xd2, 0xed, 0xf5]

theorem p384n_seed_eq : rfcSeedOctets .sha512 (Curve.order .p384) p384n_x none = p384n_seed := by decide +kernel

def p384n_K1 : Bytes := [0x77, 0x60, 0x14, 0x58, 0x2a, 0x89, 0xb5, 0xad, 0x26, 0xdc, 0x91, 0x1d, 0x12, 0x44, 0x05, 0xe2, 0x52, 0xe5, 0x00, 0x6b, 0x19, 0xa4, 0x05, 0x1c, 0xd4, 0xa1, 0x55, 0x2e, 0x66, 0x2d, 0x07, 0x7f, 0x44, 0x0e, 0xa3, 0x6a, 0xd6, 0x5c, 0xa6, 0x0d, 0x86, 0x90, 0x81, 0x8f, 0xaa, 0x5e, 0x68, 0x90, 0xb9, 0x0a, 0x2e, 0x48, 0xe5, 0x9e, 0x4b, 0xb6, 0xdd, 0xfb, 0x6b, 0x37, 0x35, 0x3b, 0xd2, 0x69]
theorem p384n_K1_eq : hmac .sha512 (List.replicate (Alg.size .sha512) 0) ((List.replicate (Alg.size .sha512) 1) ++ [0x00] ++ p384n_seed) = p384n_K1 := by rw [hmac_eval]; decide +kernel

def p384n_V1 : Bytes := [0x56, 0xca, 0xaa, 0xfa, 0x14, 0x70, 0x83, 0x9d, 0x44, 0xc1, 0x77, 0x5f, 0x41, 0xfc, 0xf3, 0x95, 0x60, 0x79, 0x7e, 0xd8, 0x52, 0xb0, 0x78, 0x70, 0xbe, 0x10, 0x34, 0xf3, 0xb4, 0x44, 0x1e, 0x94, 0x49, 0xfe, 0x7c, 0x8e, 0xe4, 0x5f, 0xe6, 0xcd, 0x3f, 0x2e, 0xc8, 0x2f, 0xf5, 0x02, 0x12, 0x6e, 0x22, 0xfe, 0x60, 0xcc, 0x1a, 0x82, 0xbe, 0xda, 0x99, 0xdd, 0xcd, 0x0c, 0x87, 0x18, 0x1d, 0x50]
theorem p384n_V1_eq : hmac .sha512 p384n_K1 (List.replicate (Alg.size .sha512) 1) = p384n_V1 := by rw [hmac_eval]; decide +kernel

def p384n_S0K : Bytes := [0xfc, 0x57, 0xb4, 0xd3, 0x58, 0x31, 0x75, 0x83, 0x87, 0x03, 0x80, 0x27, 0x2b, 0xbc, 0xe7, 0xe3, 0x38, 0xee, 0x4c, 0xc6, 0x20, 0x4d, 0x77, 0x33, 0xbd, 0x01, 0x75, 0x74, 0x15, 0xc3, 0xdf, 0x20, 0x25, 0xd6, 0xfc, 0x5b, 0x11, 0x7c, 0x05, 0xff, 0x29, 0x84, 0x03, 0x84, 0x07, 0x38, 0x11, 0x3a, 0x7c, 0xd1, 0xd8, 0xcc, 0x29, 0x32, 0xc5, 0xbd, 0x48, 0xd1, 0x5d, 0x28, 0x94, 0x75, 0x01, 0x2d]
theorem p384n_S0K_eq : hmac .sha512 p384n_K1 (p384n_V1 ++ [0x01] ++ p384n_seed) = p384n_S0K := by rw [hmac_eval]; decide +kernel

def p384n_S0V : Bytes := [0x13, 0x11, 0xd8, 0x23, 0x34, 0xa2, 0x50, 0xfa, 0xac, 0x4b, 0xa2, 0x46, 0xad, 0x33, 0x3c, 0xdd, 0x7b, 0xa7, 0x4e, 0x52, 0x46, 0x49, 0xfe, 0xb8, 0xaf, 0xc8, 0xec, 0x29, 0x5b, 0x44, 0xaa, 0xab, 0x65, 0x2e, 0x2f, 0x72, 0x26, 0xc0, 0xc9, 0x3d, 0x0a, 0x7c, 0xec, 0x86, 0xfc, 0xe6, 0xa8, 0xb2, 0xc2, 0xc0, 0xbc, 0x65, 0x58, 0x96, 0x90, 0x40, 0xa6, 0xde, 0xda, 0x51, 0xa0, 0xfe, 0xc5, 0x50]
theorem p384n_S0V_eq : hmac .sha512 p384n_S0K p384n_V1 = p384n_S0V := by rw [hmac_eval]; decide +kernel

theorem p384n_state0 : rfcState .sha512 (Curve.order .p384) p384n_seed 0 = (p384n_S0K, p384n_S0V) := by
  rw [rfcState, rfcStart]
  simp only [p384n_K1_eq, p384n_V1_eq, p384n_S0K_eq, p384n_S0V_eq]

def p384n_T0 : Bytes := [0x58, 0x9d, 0xe4, 0x98, 0xde, 0x6c, 0x4c, 0x59, 0x64, 0x45, 0xd6, 0xeb, 0xec, 0x4c, 0x29, 0x33, 0x6b, 0x15, 0xf5, 0xfe, 0xcc, 0xb4, 0xaf, 0x3a, 0x91, 0x1a, 0x28, 0xab, 0x0b, 0xac, 0x78, 0xee, 0x81, 0xe0, 0x21, 0x8f, 0xef, 0xaf, 0x5f, 0x10, 0x5e, 0x7f, 0x89, 0x6d, 0x92, 0xe1, 0xed, 0xe1, 0xfb, 0x22, 0x23, 0xe7, 0x9d, 0xbc, 0xbb, 0x5a, 0xa4, 0xa3, 0xb8, 0xab, 0xd3, 0xe7, 0xf4, 0xf2]
theorem p384n_T0_eq : hmac .sha512 p384n_S0K p384n_S0V = p384n_T0 := by rw [hmac_eval]; decide +kernel

theorem p384n_candidate0 : rfcCandidate .sha512 (Curve.order .p384) p384n_seed 0 = 0x589de498de6c4c596445d6ebec4c29336b15f5feccb4af3a911a28ab0bac78ee81e0218fefaf5f105e7f896d92e1ede1 := by
  rw [rfcCandidate, p384n_state0, octets_one _ _ _ _ (by rw [p384n_bits]; decide) (by rw [p384n_bits]; decide), p384n_T0_eq, p384n_bits]
  decide +kernel

theorem p384n_nonce : IsNonce .sha512 (Curve.order .p384) (rfcSeedOctets .sha512 (Curve.order .p384) p384n_x none) 0 0x589de498de6c4c596445d6ebec4c29336b15f5feccb4af3a911a28ab0bac78ee81e0218fefaf5f105e7f896d92e1ede1 := by
  rw [p384n_seed_eq]
  exact ⟨p384n_candidate0.symm, by unfold Acceptable; decide, fun m hm => absurd hm (Nat.not_lt_zero m)⟩

/-- The vector. -/
example : ∃ w, rfc6979 calmLib p384n_x none (algId .sha512) (Curve.order .p384) ⟨0, []⟩ = .ok (.ok 0x589de498de6c4c596445d6ebec4c29336b15f5feccb4af3a911a28ab0bac78ee81e0218fefaf5f105e7f896d92e1ede1, w) :=
  model_gives _ _ _ _ (by decide) _ _ p384n_nonce (by decide)

end Nat20.Rfc6979
