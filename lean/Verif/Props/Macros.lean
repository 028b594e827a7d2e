import Verif.Props.X509
import Verif.Props.Asn1
/-!
# C66: the macros that make OIDs, strings and names
-/

namespace Nat20

open Der Pki

theorem take_ofFn {α : Type} (n : Nat) (l : List α) (d : α) (h : l.length ≤ n) :
    (Vector.ofFn fun i : Fin n => (l[i.val]?).getD d).toList.take l.length = l := by
  apply List.ext_getElem
  · simp only [List.length_take, Vector.length_toList]
    omega
  · intro i h1 h2
    simp [List.getElem?_eq_getElem h2]

/-- The arcs given to the macro are the arcs of the OID. -/
theorem mkOid_arcs (arcs : List UInt32) (h : arcs.length ≤ 10) : (mkOid arcs).elemCount.toNat = arcs.length ∧ (mkOid arcs).arcs = arcs.map UInt32.toNat := by
  have e : (mkOid arcs).elemCount.toNat = arcs.length := by
    unfold mkOid
    simp only
    rw [UInt32.toNat_ofNat']
    omega
  refine ⟨e, ?_⟩
  unfold Oid.arcs
  rw [e]
  unfold mkOid
  simp only
  rw [take_ofFn 10 arcs 0 h]

/-- **C66.** An OID made with `N20_ASN1_OBJECT_ID` renders with exactly the arcs given (first two arcs as in C14). -/
theorem C66_oid (arcs : List UInt32) (h : arcs.length ≤ 10) (hs : StandardArcs (arcs.map UInt32.toNat)) :
    ∃ bs content, Prepends (asn1ObjectIdentifier (some (mkOid arcs)) tagInfoNoOverride) bs ∧ (bs.length < 2 ^ 64 → Der.parse bs = some (.prim 0 6 content)) ∧
      parseOid content = some (arcs.map UInt32.toNat) := by
  obtain ⟨h1, h2⟩ := mkOid_arcs arcs h
  have hv : oidValue (some (mkOid arcs)) = some (arcs.map UInt32.toNat) := by
    unfold oidValue
    simp only [if_neg (show ¬ 10 < (mkOid arcs).elemCount.toNat by omega), h2]
  have hp := prepends_oidDer (some (mkOid arcs))
  rw [hv] at hp
  exact ⟨_, oidCodeContent (arcs.map UInt32.toNat), hp, fun hl => strictly_parsed _ (classOk_oid _) hl, parseOid_code hs⟩

/-- **C66.** `N20_STR_C` denotes the characters of the literal, all of them, including zeros in it but not the one at its end. -/
theorem C66_string (literal : Bytes) (h : literal.length + 1 < 2 ^ 64) : (strC literal).Valid ∧ (strC literal).bytes = literal := by
  have e : (strC literal).size.toNat = literal.length := by
    unfold strC
    simp only [List.length_append, List.length_cons, List.length_nil]
    have h1 : (UInt64.ofNat (literal.length + (0 + 1))).toNat = literal.length + 1 := by
      rw [UInt64.toNat_ofNat']; omega
    rw [UInt64.toNat_sub_of_le _ _ (by rw [UInt64.le_iff_toNat_le, h1]; exact Nat.le_add_left 1 _), h1]
    rfl
  constructor
  · intro p hp
    rw [e]
    cases hp
    simp
  · unfold Slice.bytes
    show (literal ++ [0]).take (strC literal).size.toNat = literal
    rw [e]
    simp

/-- **C66.** A name made with `N20_X509_NAME` and `N20_X509_RDN` renders with exactly the attributes given, in the order given; no other assumption is needed.  The value of a serialNumber
attribute is rendered in hexadecimal. -/
theorem C66_name (rdns : List (List UInt32 × Bytes)) (h8 : rdns.length ≤ 8) (ho : ∀ r ∈ rdns, r.1.length ≤ 10) (hl : ∀ r ∈ rdns, r.2.length + 1 < 2 ^ 64) :
    ∃ bs, Prepends (x509Name (some (mkName (rdns.map fun r => mkRdn (some (mkOid r.1)) r.2)))) bs ∧
      (bs.length < 2 ^ 64 → Der.parse bs = some (sequence (rdns.map fun r =>
        set [sequence [oidDer (some (r.1.map UInt32.toNat)), printableString (if r.1 = [2, 5, 4, 5] then hexString r.2 else r.2)]]))) := by
  have hcount : (mkName (rdns.map fun r => mkRdn (some (mkOid r.1)) r.2)).elementCount.toNat = rdns.length := by
    unfold mkName
    simp only [List.length_map]
    rw [UInt64.toNat_ofNat']
    omega
  have helems : (mkName (rdns.map fun r => mkRdn (some (mkOid r.1)) r.2)).elements.toList.take (mkName (rdns.map fun r => mkRdn (some (mkOid r.1)) r.2)).elementCount.toNat =
      rdns.map fun r => mkRdn (some (mkOid r.1)) r.2 := by
    rw [hcount]
    have := take_ofFn 8 (rdns.map fun r => mkRdn (some (mkOid r.1)) r.2) ⟨none, Slice.null⟩ (by simpa using h8)
    rw [List.length_map] at this
    exact this
  obtain ⟨bs, h1, h2⟩ := C24_name (mkName (rdns.map fun r => mkRdn (some (mkOid r.1)) r.2)) (by omega) (by
    intro _ r hr
    rw [helems] at hr
    obtain ⟨x, hx, rfl⟩ := List.mem_map.1 hr
    exact (C66_string x.2 (hl x hx)).1)
  refine ⟨bs, h1, fun hb => ?_⟩
  rw [h2 hb, helems, List.map_map]
  congr 2
  apply List.map_congr_left
  intro r hr
  simp only [Function.comp]
  obtain ⟨e1, e2⟩ := mkOid_arcs r.1 (ho r hr)
  have hv : oidValue (some (mkOid r.1)) = some (r.1.map UInt32.toNat) := by
    unfold oidValue
    simp only [if_neg (show ¬ 10 < (mkOid r.1).elemCount.toNat by have := ho r hr; omega), e2]
  have hs : (r.1.map UInt32.toNat = [2, 5, 4, 5]) ↔ r.1 = [2, 5, 4, 5] := by
    constructor
    · intro e
      have inj : ∀ a b : UInt32, a.toNat = b.toNat → a = b := fun _ _ h => UInt32.toNat_inj.1 h
      exact (List.map_inj_right inj).1 (show r.1.map UInt32.toNat = ([2, 5, 4, 5] : List UInt32).map UInt32.toNat from e)
    · intro e; rw [e]; rfl
  have hvalue : (attributeValue (mkRdn (some (mkOid r.1)) r.2)).value = if r.1 = [2, 5, 4, 5] then hexString r.2 else r.2 := by
    unfold attributeValue mkRdn
    simp only [hv, (C66_string r.2 (hl r hr)).2]
    by_cases hc : r.1 = [2, 5, 4, 5]
    · rw [if_pos (by rw [hs.2 hc]; rfl), if_pos hc]
    · rw [if_neg (by intro e; exact hc (hs.1 (Option.some.inj e))), if_neg hc]
  rw [hvalue]
  unfold mkRdn
  simp only [hv]

/-- The example of the header. -/
example : ∃ bs, Prepends (x509Name (some (mkName [mkRdn (some OID_COUNTRY_NAME) [0x53, 0x63], mkRdn (some OID_COMMON_NAME) [0x53, 0x00, 0x6c]]))) bs ∧
    bs.length < 2 ^ 64 ∧ Der.parse bs = some (sequence [set [sequence [oidDer (some [2, 5, 4, 6]), printableString [0x53, 0x63]]],
      set [sequence [oidDer (some [2, 5, 4, 3]), printableString [0x53, 0x00, 0x6c]]]]) := by
  refine ⟨_, prepends_name _ (by
    intro x hx
    cases hx
    intro _ r hr
    have e : (mkName [mkRdn (some OID_COUNTRY_NAME) [0x53, 0x63], mkRdn (some OID_COMMON_NAME) [0x53, 0x00, 0x6c]]).elements.toList.take
      (mkName [mkRdn (some OID_COUNTRY_NAME) [0x53, 0x63], mkRdn (some OID_COMMON_NAME) [0x53, 0x00, 0x6c]]).elementCount.toNat =
      [mkRdn (some OID_COUNTRY_NAME) [0x53, 0x63], mkRdn (some OID_COMMON_NAME) [0x53, 0x00, 0x6c]] := rfl
    rw [e] at hr
    simp only [List.mem_cons, List.not_mem_nil, or_false] at hr
    rcases hr with rfl | rfl <;> exact (C66_string _ (by decide)).1), by decide +kernel, ?_⟩
  rw [strictly_parsed _ (classOk_name _) (by decide +kernel)]
  rfl

end Nat20
