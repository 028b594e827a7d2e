import Verif.Props.X509
import Verif.Props.Dice
/-!
# Every theorem about X.509 and DICE extensions applied to a concrete case

No hypothesis is left open in any of these, so the hypotheses of each theorem are met by the case shown.
-/

namespace Nat20.InstancesPki

open Der Pki

/-- No frame around the values: nothing lies beside them. -/
def bareFrame : Frame := ⟨[], [], false⟩

/-- A frame with something on both sides. -/
def wideFrame : Frame := ⟨[1], [2], true⟩

def someSerial : Rdn := ⟨some OID_SERIAL_NUMBER, ⟨2, some ⟨[], [0x0f, 0xa0]⟩⟩⟩

theorem someSerial_valid : someSerial.value.Valid := slice_valid_of_le _ _ _ (by decide)

example := C24_name exampleName (by decide) exampleName_arg
example := C24_attribute_value ⟨some OID_COMMON_NAME, ⟨2, some ⟨[], [0x41, 0x42]⟩⟩⟩ (by decide +kernel)
example := C24_null_name none (fun x hx => by cases hx)
example := C25_serial_hex someSerial (by decide +kernel) someSerial_valid
example := C25_distinct someSerial someSerial (by decide +kernel) (by decide +kernel) someSerial_valid someSerial_valid _ (by decide +kernel)
  (prepends_rdn someSerial someSerial_valid) (prepends_rdn someSerial someSerial_valid)
example := C26_extensions [⟨some OID_BASIC_CONSTRAINTS, true, some (asn1Boolean true tagInfoNoOverride)⟩] 1 (by decide) (by decide) (fun _ => _)
  (fun e he => by simp at he; subst he; exact C17_boolean_null.1)
example := C26_none (some ⟨0, some []⟩) (fun x hx => by cases hx; exact Or.inr rfl)
example := C27_basic_constraints_partial bareFrame ⟨true, true, 7⟩ (fun _ _ h => by cases h)
example := C27_basic_constraints_partial wideFrame ⟨true, true, 0⟩ (fun _ _ _ => by decide)
example := C27_reads_outside bareFrame rfl
theorem someUsage (f : List (Fin 9)) (h : keyUsageOf f = ⟨0x84, 0⟩) : Prepends (keyUsageContent (some (keyUsageOf f))) [3, 2, 2, 0x84] := by
  rw [h]
  have h := prepends_bits (some ⟨[], [0x84, 0]⟩) (keyUsageBitCount ⟨0x84, 0⟩).toUInt64 (by intro q hq; cases hq; decide)
  have e : (bitString (bitsValue (some ⟨[], [0x84, 0]⟩) (keyUsageBitCount ⟨0x84, 0⟩).toUInt64)).encode = [3, 2, 2, 0x84] := by decide +kernel
  rw [e] at h
  exact h

example := C28_distinct [5, 0] [0, 5] _ (by decide) (someUsage _ (by decide)) (someUsage _ (by decide)) 5
example := C29_public_key exampleKey exampleKey_arg
example := C30_validity ⟨⟨2, some ⟨[], [0x31, 0x32, 0x33]⟩⟩, Slice.null⟩ ⟨slice_valid_of_le _ _ _ (by decide), by intro p hp; cases hp⟩
example := C31_tbs_partial bareFrame exampleContent exampleTbs (exampleTbs_arg _)
example := C31_serial ⟨1, some ⟨[], [5]⟩⟩ (by simp)
example := C31_reads_outside bareFrame wideFrame exampleContent { exampleTbs with serialNumber := Slice.null } exampleTbs.serialNumber (exampleTbs_arg _)
  (by intro p hp; cases hp) (Or.inl ⟨rfl, rfl⟩)
example := C32_tbs_embedded bareFrame exampleCert _ (prepends_tbs bareFrame exampleContent exampleTbs (exampleTbs_arg _)) (exampleCert_arg bareFrame).signature
example := C32_tbs_recovered bareFrame wideFrame exampleContent exampleCert (exampleCert_arg _) (exampleCert_arg _)
example := C33_certificate_partial bareFrame exampleContent exampleCert (exampleCert_arg _)
example := C33_reads_outside bareFrame wideFrame exampleContent { exampleCert with tbs := some { exampleTbs with serialNumber := Slice.null } } _ rfl
  (exampleCert_arg bareFrame).signature exampleTbs.serialNumber (exampleTbs_arg _) (by intro p hp; cases hp) (Or.inl ⟨rfl, rfl⟩)
example := C34_open_dice_input_partial bareFrame exampleDice (exampleDice_arg _)
example := C35_tcb_info_partial bareFrame exampleTcb (exampleTcb_arg _)
example := C36_ueid ⟨1, some ⟨[], [5]⟩⟩ (slice_valid_of_le _ _ _ (by decide))
example := C36_freshness ⟨1, some ⟨[], [5]⟩⟩ (slice_valid_of_le _ _ _ (by decide))
example := C36_multi_tcb_info_partial bareFrame ⟨some [exampleTcb, exampleTcb], 2⟩
  (fun l hl => by cases hl; exact ⟨by decide, by intro t ht; simp at ht; subst ht; exact exampleTcb_arg _⟩)
example := C33_unambiguous_partial bareFrame wideFrame exampleContent exampleContent exampleCert exampleCert (exampleCert_arg _) (exampleCert_arg _) exampleCert_ok
  exampleCert_ok _ (by decide +kernel) (prepends_cert bareFrame exampleContent exampleCert (exampleCert_arg _))
  (prepends_cert wideFrame exampleContent exampleCert (exampleCert_arg _))
example := C34_reads_outside bareFrame wideFrame rfl { exampleDice with mode := 0 } { exampleDice_arg wideFrame with mode := Or.inl (by simp [wideFrame, Frame.adjacent]) } rfl
example := C35_reads_outside bareFrame wideFrame rfl { exampleTcb with svn := 0 } { exampleTcb_arg wideFrame with numbers := Or.inl (by simp [wideFrame, Frame.adjacent]) }
  ⟨0, by simp, Or.inl rfl⟩
theorem someTcbs_arg : ∀ t ∈ [exampleTcb, { exampleTcb with svn := 0 }].take (2 : UInt64).toNat, TcbInfoArg wideFrame t := by
  intro t ht
  simp at ht
  rcases ht with rfl | rfl
  · exact exampleTcb_arg _
  · exact { exampleTcb_arg wideFrame with numbers := Or.inl (by simp [wideFrame, Frame.adjacent]) }

example := C36_reads_outside bareFrame wideFrame rfl ⟨some [exampleTcb, { exampleTcb with svn := 0 }], 2⟩ _ rfl
  ⟨by decide, someTcbs_arg⟩
  ⟨{ exampleTcb with svn := 0 }, by simp, 0, by simp, Or.inl rfl⟩
example := C34_unambiguous_partial bareFrame wideFrame exampleDice exampleDice (exampleDice_arg _) (exampleDice_arg _) _ (by decide +kernel)
  (prepends_openDice bareFrame exampleDice (exampleDice_arg _)) (prepends_openDice wideFrame exampleDice (exampleDice_arg _))

theorem exampleTcb_ok : FwidsOk (tcbInfoValue exampleTcb) := by
  intro l hl f hf
  have e : (tcbInfoValue exampleTcb).fwids = some [⟨oidValue (some OID_SHA256), [7]⟩, ⟨oidValue (some OID_SHA256), [8, 9]⟩] := rfl
  rw [e] at hl
  cases hl
  have : f.hashAlg = oidValue (some OID_SHA256) := by simp at hf; rcases hf with rfl | rfl <;> rfl
  intro arcs h
  rw [this] at h
  cases h
  exact ⟨2, 16, [840, 1, 101, 3, 4, 2, 1], rfl, by decide⟩

example := C35_unambiguous_partial bareFrame wideFrame exampleTcb exampleTcb (exampleTcb_arg _) (exampleTcb_arg _) exampleTcb_ok exampleTcb_ok _ (by decide +kernel)
  (prepends_tcbInfo bareFrame exampleTcb (exampleTcb_arg _)) (prepends_tcbInfo wideFrame exampleTcb (exampleTcb_arg _))

end Nat20.InstancesPki
