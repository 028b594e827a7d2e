import Verif.Lemmas.X509Inj
/-!
# C50: the object identifiers exported by the library
-/

namespace Nat20

open Der Pki

/-- Every exported constant with the arcs of the named standard. -/
def standardOids : List (Oid × List Nat) := [
  -- RFC 8017, A.1 and A.2.4: pkcs-1 is {iso member-body us rsadsi(113549) pkcs(1) 1}
  (OID_RSA_ENCRYPTION, [1, 2, 840, 113549, 1, 1] ++ [1]),
  (OID_SHA256_WITH_RSA_ENC, [1, 2, 840, 113549, 1, 1] ++ [11]),
  -- RFC 8410, 3: {iso identified-organization thawte(101) 112}
  (OID_ED25519, [1, 3, 101, 112]),
  -- RFC 5480, 2.1.1: ansi-X9-62 is {iso member-body us 10045}; secp384r1 is {iso identified-organization certicom(132) curve(0) 34}
  (OID_EC_PUBLIC_KEY, [1, 2, 840, 10045] ++ [2, 1]),
  (OID_SECP256R1, [1, 2, 840, 10045] ++ [3, 1, 7]),
  (OID_SECP384R1, [1, 3, 132, 0, 34]),
  -- RFC 5754, 2: nistAlgorithm hashAlgs is {joint-iso-itu-t country us organization gov csor nistAlgorithm(4) 2}
  (OID_SHA224, [2, 16, 840, 1, 101, 3, 4, 2] ++ [4]),
  (OID_SHA256, [2, 16, 840, 1, 101, 3, 4, 2] ++ [1]),
  (OID_SHA384, [2, 16, 840, 1, 101, 3, 4, 2] ++ [2]),
  (OID_SHA512, [2, 16, 840, 1, 101, 3, 4, 2] ++ [3]),
  -- RFC 5758, 3.2: ecdsa-with-SHA2 is {ansi-X9-62 signatures(4) 3}
  (OID_ECDSA_WITH_SHA224, [1, 2, 840, 10045] ++ [4, 3, 1]),
  (OID_ECDSA_WITH_SHA256, [1, 2, 840, 10045] ++ [4, 3, 2]),
  (OID_ECDSA_WITH_SHA384, [1, 2, 840, 10045] ++ [4, 3, 3]),
  (OID_ECDSA_WITH_SHA512, [1, 2, 840, 10045] ++ [4, 3, 4]),
  -- RFC 5280, A.1: id-at is {joint-iso-ccitt ds(5) 4}
  (OID_LOCALITY_NAME, [2, 5, 4] ++ [7]),
  (OID_COUNTRY_NAME, [2, 5, 4] ++ [6]),
  (OID_STATE_OR_PROVINCE_NAME, [2, 5, 4] ++ [8]),
  (OID_ORGANIZATION_NAME, [2, 5, 4] ++ [10]),
  (OID_ORGANIZATION_UNIT_NAME, [2, 5, 4] ++ [11]),
  (OID_COMMON_NAME, [2, 5, 4] ++ [3]),
  (OID_SERIAL_NUMBER, [2, 5, 4] ++ [5]),
  -- RFC 5280, 4.2.1: id-ce is {joint-iso-ccitt ds(5) 29}
  (OID_BASIC_CONSTRAINTS, [2, 5, 29] ++ [19]),
  (OID_KEY_USAGE, [2, 5, 29] ++ [15]),
  -- Open Profile for DICE: {iso identified-organization dod internet private enterprise google(11129) 2 1 24}
  (OID_OPEN_DICE_INPUT, [1, 3, 6, 1, 4, 1, 11129, 2, 1, 24]),
  -- TCG DICE Attestation Architecture, 6.1: tcg-dice is {joint-iso-itu-t international-organizations(23) tcg(133) platformClass(5) 4}
  (OID_TCG_DICE_TCB_INFO, [2, 23, 133, 5, 4] ++ [1]),
  (OID_TCG_DICE_MULTI_TCB_INFO, [2, 23, 133, 5, 4] ++ [5]),
  (OID_TCG_DICE_UEID, [2, 23, 133, 5, 4] ++ [4]),
  (OID_TCG_DICE_TCB_FRESHNESS, [2, 23, 133, 5, 4] ++ [11])]

/-- **C50.** Every exported OID renders as an OBJECT IDENTIFIER that the strict parser reads as the arcs of the standard. -/
theorem C50_constants (o : Oid) (arcs : List Nat) (h : (o, arcs) ∈ standardOids) :
    ∃ bs c, Prepends (asn1ObjectIdentifier (some o) tagInfoNoOverride) bs ∧ Der.parse bs = some (.prim 0 6 c) ∧
      parseOid c = some arcs := by
  have hv : ∀ p ∈ standardOids, oidValue (some p.1) = some p.2 := by decide +kernel
  have hs : ∀ p ∈ standardOids, p.2.length ≥ 2 ∧ p.2[0]! ≤ 2 ∧ (p.2[0]! < 2 → p.2[1]! < 40) ∧ 40 * p.2[0]! + p.2[1]! < 128 := by
    decide +kernel
  have hl : ∀ p ∈ standardOids, (Der.prim 0 6 (oidCodeContent p.2)).encode.length < 2 ^ 64 := by decide +kernel
  have hp := prepends_oidDer (some o)
  rw [hv _ h] at hp
  refine ⟨_, _, hp, Der.parse_encode _ (classOk_oid _) (hl _ h), parseOid_code ?_⟩
  obtain ⟨h1, h2, h3, h4⟩ := hs _ h
  match arcs, h1, h2, h3, h4 with
  | a :: b :: rest, _, h2, h3, h4 => exact ⟨a, b, rest, rfl, h2, h3, h4⟩

/-- **C50.** No two exported OIDs are equal, neither their arcs nor for `n20_asn1_oid_equals`. -/
theorem C50_distinct : (standardOids.map Prod.snd).Nodup ∧
    ∀ i j : Fin standardOids.length, oidEquals (some (standardOids.get i).1) (some (standardOids.get j).1) = .ok (decide (i = j)) := by
  constructor
  · decide +kernel
  · intro i j
    have h : ∀ i j : Fin standardOids.length, (match oidEquals (some (standardOids.get i).1) (some (standardOids.get j).1) with
        | .ok b => b == decide (i = j)
        | .error _ => false) = true := by decide +kernel
    have := h i j
    cases he : oidEquals (some (standardOids.get i).1) (some (standardOids.get j).1) with
    | error e => rw [he] at this; exact absurd this (by simp)
    | ok b => rw [he] at this; rw [eq_of_beq this]

/-- Non-vacuity of C50: all 28 constants. -/
example : standardOids.length = 28 ∧ (OID_ED25519, [1, 3, 101, 112]) ∈ standardOids := by decide +kernel

end Nat20
