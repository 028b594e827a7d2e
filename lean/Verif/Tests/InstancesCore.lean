import Verif.Props.Stream
import Verif.Props.NullStream
import Verif.Props.Asn1
import Verif.Props.Cbor
/-!
# Every theorem about the stream, ASN.1 and CBOR applied to a concrete case

No hypothesis is left open in any of these, so the hypotheses of each theorem are met by the case shown.
-/

namespace Nat20.InstancesCore

open Der Cbor

/-- Three calls, the second of them with nothing to write. -/
def someCalls : List StreamCall := [.prepend ⟨[7], [1, 2, 3]⟩ 2, .prepend ⟨[], [9]⟩ 0, .put 7]

theorem someCalls_valid : ∀ c ∈ someCalls, c.Valid := by simp [someCalls, StreamCall.Valid]

/-- A stream with one octet in it and room for two. -/
def someStream : Stream := ⟨some [8, 8, 1, 9], 3, 1, false, false⟩

theorem someStream_wf : someStream.WF := ⟨fun h => (by cases h), fun _ => ⟨_, rfl, (by decide), (by decide)⟩⟩

/-- A stream that has overflowed. -/
def fullStream : Stream := ⟨some [8, 8, 1, 9], 3, 5, true, false⟩

theorem fullStream_wf : fullStream.WF := ⟨fun h => (by cases h), fun h => (by cases h)⟩

example := C01_stream_contents [0, 0, 0, 0, 5] 4 (by decide) someCalls someCalls_valid
example := C02_sizing_exact none 0 (by simp) someCalls someCalls_valid
example := C02_sizing_exact (some [1, 1]) 2 (by simp) someCalls someCalls_valid
example := C02_two_pass C17_boolean_null.1 0
example := C03_flags_exact (some [1, 1]) 2 (by simp) someCalls someCalls_valid
example := C03_flags_sticky (some [1, 1]) 2 (by simp) someCalls someCalls (fun c hc => someCalls_valid c (by simpa using hc))
example := C04_stays_inside [0, 0, 0, 0, 5] 2 (by decide) someCalls someCalls_valid
example := C04_committed_bytes_stay someStream someStream_wf rfl someCalls someCalls_valid _ rfl
example := C04_all_or_nothing someStream (.prepend ⟨[], [1, 2, 3]⟩ 3) (Or.inr (by decide)) someStream_wf (by simp [StreamCall.Valid])
example := C04_all_or_nothing fullStream (.put 1) (Or.inl rfl) fullStream_wf trivial
example := C05_null_stream someCalls someCalls_valid

/-- A SEQUENCE with a callback that renders a BOOLEAN and an INTEGER. -/
def someRender : RenderCall := .sequence (some (renderAll [.boolean true tagInfoNoOverride, .uint64 ⟨[], [], false⟩ 5 tagInfoNoOverride])) (tagInfoExplicit 1)

theorem someRender_callbacks : ∀ w ∈ someRender.callbacks, Callback w := by
  intro w hw
  simp only [someRender, RenderCall.callbacks, Option.toList_some, List.mem_singleton] at hw
  subst hw
  exact .calls _ (by simp [RenderCall.callbacks])

example := C05_renderers someRender someRender_callbacks
example := C05_sequences [someRender, someRender] (by simpa using someRender_callbacks)

example := C06_base128 0x1234567
example := C07_header 2 (by decide) true 1000 300
example := C07_header_canonical 2 (by decide) true 1000 300 [0xbf, 0x87, 0x68, 0x82, 0x01, 0x2c, 9] [0x82, 0x01, 0x2c, 9] [9] (by decide +kernel) (by decide +kernel)
example := C08_header_with_content 2 (by decide) true 1000 C17_boolean_null.1
example := C08_null_callback 2 (by decide) true 1000
example := C08_sequence C17_boolean_null.1
example := C08_nesting (.cons 0 16 [.prim 0 4 (List.replicate 130 7), .cons 2 40 [.prim 0 5 []]]) (by simp [Fits, FitsAll])
example := C09_tag_overrides (.octetstring (some ⟨2, some ⟨[], [1, 2]⟩⟩)) (fun x hx p hp => by cases hx; cases hp; decide)
example := C09_tag_overrides (.sequence (some (asn1Boolean true tagInfoNoOverride))) (fun w hw => by cases hw; exact ⟨_, C17_boolean_null.1⟩)
example := C09_tag_info_helpers (.octetstring (some ⟨2, some ⟨[], [1, 2]⟩⟩)) (fun x hx p hp => by cases hx; cases hp; decide) 40 (by decide)

/-- A little-endian negative number with superfluous sign octets, and nothing around it. -/
def someNumber : Slice := ⟨3, some ⟨[], [0x7f, 0xff, 0xff]⟩⟩

theorem someNumber_valid : someNumber.Valid := fun p hp => by cases hp; decide

example := C10_integer_partial someNumber true true someNumber_valid (by simp [someNumber]) (by simp [someNumber]) (Or.inr (by decide +kernel))
example := C11_uint64_partial ⟨[], [], false⟩ 300 (Or.inr (by decide))
example := C11_uint64_partial ⟨[1], [2], false⟩ 0 (Or.inl (by decide))
example := C11_int64_partial ⟨[], [], true⟩ (-300) (Or.inr (by decide))
example := C11_reads_outside ⟨[], [5], false⟩ rfl (tagInfoImplicit 3)
example := C12_reads_outside ⟨2, some ⟨[], [0, 0]⟩⟩ false false tagInfoNoOverride (fun p hp => by cases hp; decide) (by simp) (by simp) (by unfold Slice.NeighbourReadable; decide +kernel)
  (Or.inl (by decide +kernel)) none
example := C12_slice_only_partial 2 [0x80, 0] (by decide) true true (by decide) tagInfoNoOverride
example := C13_bitstring_partial ⟨[], [0xff, 0xff]⟩ 11 (by decide) (by decide)
example := C13_wraps ⟨[], [0xff]⟩ 0xfffffffffffffffc (by decide)

theorem someArcs_valid : ValidArcs (mkOid [1, 2, 840, 113549]).arcs := ⟨1, 2, [840, 113549], by decide, by decide, by decide⟩
theorem otherArcs_valid : ValidArcs (mkOid [2, 5, 29, 19]).arcs := ⟨2, 5, [29, 19], by decide, by decide, by decide⟩

theorem someArcs_small : ∀ a b rest, (mkOid [1, 2, 840, 113549]).arcs = a :: b :: rest → 40 * a + b < 128 := by
  intro a b rest h
  have e : (mkOid [1, 2, 840, 113549]).arcs = [1, 2, 840, 113549] := by decide
  rw [e] at h
  cases h
  decide

example := C14_oid_partial (mkOid [1, 2, 840, 113549]) (by decide) someArcs_valid someArcs_small
example := C14_oid_injective_partial (mkOid [1, 2, 840, 113549]) (mkOid [1, 2, 840, 113549]) (by decide) (by decide) someArcs_valid someArcs_valid someArcs_small someArcs_small
example := C14_standard_content_partial [1, 2, 840, 113549] ⟨1, 2, [840, 113549], by decide, by decide, by decide, by decide⟩
example := C14_exact (mkOid [2, 999, 3]) (by decide) 2 999 [3] (by decide) (by decide) (by decide)
example := C16_strings (some ⟨3, some ⟨[], [0x61, 0x62, 0x63, 0x64]⟩⟩) (fun x hx p hp => by cases hx; cases hp; decide)
example := C18_oid_equals (some ⟨2, (mkOid [2, 5, 7]).elements⟩) (some (mkOid [2, 5])) (fun o ho => by cases ho; decide) (fun o ho => by cases ho; decide)
example := C18_equivalence (some ⟨2, (mkOid [2, 5, 7]).elements⟩) (some (mkOid [2, 5])) none (fun o ho => by cases ho; decide) (fun o ho => by cases ho; decide) (fun o ho => by cases ho)

example := C19_header_partial 5 0x10000 (by decide) (Or.inl (by decide))
example := C19_header_partial 7 32 (by decide) (Or.inr (Or.inr (by decide)))
example := C19_reserved_simple 27 (by decide) (by decide)
example := C20_invalid_type 8 300 (by decide)
example := C21_int_partial (-300) (by decide)
example := C22_strings_partial ⟨2, some ⟨[], [0x68, 0x69]⟩⟩ (fun p hp => by cases hp; decide) (by simp)
example := C22_null_string 3 (by decide)
example := C22_empty_null_string someStream someStream_wf
example := C22_empty_null_string fullStream fullStream_wf

/-- A tagged map with a nested array. -/
def someItem : Item := .tag 55799 (.map [(.int 1, .array [.text [0x61], .simple 21]), (.int (-300), .bytes [1, 2])])

theorem someItem_ok : someItem.Ok := by
  refine .tag (by decide) (.map (by decide) ?_ ?_)
  · intro e he; simp at he
    rcases he with rfl | rfl
    · exact .int (by decide) (by decide)
    · exact .int (by decide) (by decide)
  · intro e he; simp at he
    rcases he with rfl | rfl
    · refine .array (by decide) ?_
      intro i hi; simp at hi
      rcases hi with rfl | rfl
      · exact .text (by decide)
      · exact .simple (by decide)
    · exact .bytes (by decide)

example := C23_structures someItem someItem_ok
example := C23_injective someItem someItem someItem_ok someItem_ok _ _ [1] [1] (prepends_writeItem someItem someItem_ok) (prepends_writeItem someItem someItem_ok) (by decide +kernel) (by decide +kernel) rfl

end Nat20.InstancesCore
