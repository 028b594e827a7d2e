import Verif.Model.Asn1
/-!
# Model of `src/core/oid.c`
-/

namespace Nat20

/-- `include/nat20/oid.h` 68-101: `N20_ASN1_OBJECT_ID(...)` / `N20_ASN1_DEFINE_OID`: the element count is the number of
arguments, the array is initialised with them and zero filled.  More than 10 arguments do not compile. -/
def mkOid (arcs : List UInt32) : Oid :=
  ⟨UInt32.ofNat arcs.length, Vector.ofFn fun i : Fin 10 => (arcs[i.val]?).getD 0⟩

/-! `src/core/oid.c` 20-57: the constants. -/
/-- `src/core/oid.c` 20 -/
def OID_RSA_ENCRYPTION : Oid := mkOid [1, 2, 840, 113549, 1, 1, 1]
/-- `src/core/oid.c` 21 -/
def OID_SHA256_WITH_RSA_ENC : Oid := mkOid [1, 2, 840, 113549, 1, 1, 11]
/-- `src/core/oid.c` 23 -/
def OID_ED25519 : Oid := mkOid [1, 3, 101, 112]
/-- `src/core/oid.c` 25 -/
def OID_EC_PUBLIC_KEY : Oid := mkOid [1, 2, 840, 10045, 2, 1]
/-- `src/core/oid.c` 28 -/
def OID_SECP256R1 : Oid := mkOid [1, 2, 840, 10045, 3, 1, 7]
/-- `src/core/oid.c` 30 -/
def OID_SECP384R1 : Oid := mkOid [1, 3, 132, 0, 34]
/-- `src/core/oid.c` 32 -/
def OID_SHA224 : Oid := mkOid [2, 16, 840, 1, 101, 3, 4, 2, 4]
/-- `src/core/oid.c` 33 -/
def OID_SHA256 : Oid := mkOid [2, 16, 840, 1, 101, 3, 4, 2, 1]
/-- `src/core/oid.c` 34 -/
def OID_SHA384 : Oid := mkOid [2, 16, 840, 1, 101, 3, 4, 2, 2]
/-- `src/core/oid.c` 35 -/
def OID_SHA512 : Oid := mkOid [2, 16, 840, 1, 101, 3, 4, 2, 3]
/-- `src/core/oid.c` 37 -/
def OID_ECDSA_WITH_SHA224 : Oid := mkOid [1, 2, 840, 10045, 4, 3, 1]
/-- `src/core/oid.c` 38 -/
def OID_ECDSA_WITH_SHA256 : Oid := mkOid [1, 2, 840, 10045, 4, 3, 2]
/-- `src/core/oid.c` 39 -/
def OID_ECDSA_WITH_SHA384 : Oid := mkOid [1, 2, 840, 10045, 4, 3, 3]
/-- `src/core/oid.c` 40 -/
def OID_ECDSA_WITH_SHA512 : Oid := mkOid [1, 2, 840, 10045, 4, 3, 4]
/-- `src/core/oid.c` 42 -/
def OID_LOCALITY_NAME : Oid := mkOid [2, 5, 4, 7]
/-- `src/core/oid.c` 43 -/
def OID_COUNTRY_NAME : Oid := mkOid [2, 5, 4, 6]
/-- `src/core/oid.c` 44 -/
def OID_STATE_OR_PROVINCE_NAME : Oid := mkOid [2, 5, 4, 8]
/-- `src/core/oid.c` 45 -/
def OID_ORGANIZATION_NAME : Oid := mkOid [2, 5, 4, 10]
/-- `src/core/oid.c` 46 -/
def OID_ORGANIZATION_UNIT_NAME : Oid := mkOid [2, 5, 4, 11]
/-- `src/core/oid.c` 47 -/
def OID_COMMON_NAME : Oid := mkOid [2, 5, 4, 3]
/-- `src/core/oid.c` 48 -/
def OID_SERIAL_NUMBER : Oid := mkOid [2, 5, 4, 5]
/-- `src/core/oid.c` 50 -/
def OID_BASIC_CONSTRAINTS : Oid := mkOid [2, 5, 29, 19]
/-- `src/core/oid.c` 51 -/
def OID_KEY_USAGE : Oid := mkOid [2, 5, 29, 15]
/-- `src/core/oid.c` 53 -/
def OID_OPEN_DICE_INPUT : Oid := mkOid [1, 3, 6, 1, 4, 1, 11129, 2, 1, 24]
/-- `src/core/oid.c` 54 -/
def OID_TCG_DICE_TCB_INFO : Oid := mkOid [2, 23, 133, 5, 4, 1]
/-- `src/core/oid.c` 55 -/
def OID_TCG_DICE_MULTI_TCB_INFO : Oid := mkOid [2, 23, 133, 5, 4, 5]
/-- `src/core/oid.c` 56 -/
def OID_TCG_DICE_UEID : Oid := mkOid [2, 23, 133, 5, 4, 4]
/-- `src/core/oid.c` 57 -/
def OID_TCG_DICE_TCB_FRESHNESS : Oid := mkOid [2, 23, 133, 5, 4, 11]

/-- `src/core/oid.c` 67-71: the comparison loop, with `rem` elements left. -/
def oidEqualsLoop (a b : Oid) (i : Nat) : Nat → Except UB Bool
  | 0 => Pure.pure true
  | rem + 1 => do
    let x ← a.element i
    let y ← b.element i
    if x ≠ y then Pure.pure false else oidEqualsLoop a b (i + 1) rem

/-- `src/core/oid.c` 59-73: `n20_asn1_oid_equals`. -/
def oidEquals (a b : Option Oid) : Except UB Bool :=
  match a, b with
  | some a, some b => if a.elemCount ≠ b.elemCount then Pure.pure false else oidEqualsLoop a b 0 a.elemCount.toNat
  | none, none => Pure.pure true
  | _, _ => Pure.pure false

end Nat20
