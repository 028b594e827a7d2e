import Verif.Props.Dice
/-!
# C80: the byte order of the host

`n20_asn1_uint64` and `n20_asn1_int64` pass the object representation of their argument, which depends on the byte order of the host, to `n20_asn1_integer`.  A `Frame` says
what the byte order is, so all theorems about functions that take a `Frame` hold for both byte orders.  Here two hosts are compared.
-/

namespace Nat20

open Der Pki

/-- Both write the same octets, in every stream state. -/
def SameOctets (w w' : W Unit) : Prop := ∃ bs, Prepends w bs ∧ Prepends w' bs

/-- **C80** (numbers).  The object representations on the two kinds of hosts are different, what is written is the same. -/
theorem C80_numbers (fr fr' : Frame) (ti : TagInfo) :
    (∀ n : UInt64, (n = 0 → fr.adjacent ≠ [] ∧ fr'.adjacent ≠ []) → SameOctets (asn1UInt64 fr n ti) (asn1UInt64 fr' n ti)) ∧
    (∀ n : Int64, (n = 0 ∨ n = -1 → fr.adjacent ≠ [] ∧ fr'.adjacent ≠ []) → SameOctets (asn1Int64 fr n ti) (asn1Int64 fr' n ti)) := by
  refine ⟨fun n h => ⟨_, prepends_uint64 fr n ti ?_, prepends_uint64 fr' n ti ?_⟩, fun n h => ⟨_, prepends_int64 fr n ti ?_, prepends_int64 fr' n ti ?_⟩⟩
  · by_cases e : n = 0
    · exact .inl (h e).1
    · exact .inr e
  · by_cases e : n = 0
    · exact .inl (h e).2
    · exact .inr e
  · by_cases e : n = 0 ∨ n = -1
    · exact .inl (h e).1
    · exact .inr (not_or.1 e)
  · by_cases e : n = 0 ∨ n = -1
    · exact .inl (h e).2
    · exact .inr (not_or.1 e)

/-- **C80** (certificates and extensions).  Certificates, what is signed of them, and the contents of the extensions are octet by octet the same whichever kind of host made
them. -/
theorem C80_certificates (fr fr' : Frame) :
    (∀ content t, TbsArg fr content t → TbsArg fr' content t → SameOctets (x509CertTbs fr (some t)) (x509CertTbs fr' (some t))) ∧
    (∀ content x, CertArg fr content x → CertArg fr' content x → SameOctets (x509Cert fr (some x)) (x509Cert fr' (some x))) ∧
    (∀ bc, (bc.isCa = true → bc.hasPathLength = true → bc.pathLength = 0 → fr.adjacent ≠ [] ∧ fr'.adjacent ≠ []) →
      SameOctets (basicConstraintsContent fr (some bc)) (basicConstraintsContent fr' (some bc))) ∧
    (∀ i, OpenDiceArg fr i → OpenDiceArg fr' i → SameOctets (openDiceInputContent fr (some i)) (openDiceInputContent fr' (some i))) ∧
    (∀ t, TcbInfoArg fr t → TcbInfoArg fr' t → SameOctets (tcbInfoContent fr (some t)) (tcbInfoContent fr' (some t))) := by
  refine ⟨fun content t h h' => ⟨_, prepends_tbs fr content t h, prepends_tbs fr' content t h'⟩, fun content x h h' => ⟨_, prepends_cert fr content x h, prepends_cert fr' content x h'⟩,
    fun bc h => ?_,
    fun i h h' => ⟨_, prepends_openDice fr i h, prepends_openDice fr' i h'⟩, fun t h h' => ⟨_, prepends_tcbInfo fr t h, prepends_tcbInfo fr' t h'⟩⟩
  obtain ⟨ds, h1, _, e1⟩ := prepends_basicConstraintsBody fr bc fun a b c => (h a b c).1
  obtain ⟨ds', h2, _, e2⟩ := prepends_basicConstraintsBody fr' bc fun a b c => (h a b c).2
  rw [← e1] at e2
  subst e2
  exact ⟨_, prepends_markHeader classUniversal (by decide) true 0x10 h1, prepends_markHeader classUniversal (by decide) true 0x10 h2⟩

/-- Non-vacuity: the two representations of a number, and what is written. -/
example : Frame.objectBytes ⟨[], [], true⟩ 0x0102 = [0, 0, 0, 0, 0, 0, 1, 2] ∧ Frame.objectBytes ⟨[], [], false⟩ 0x0102 = [2, 1, 0, 0, 0, 0, 0, 0] ∧
    asn1UInt64 ⟨[], [], true⟩ 0x0102 tagInfoNoOverride (some (streamInit (some [9, 9, 9, 9]) 4)) = .ok ((), some ⟨some [2, 2, 1, 2], 4, 4, false, false⟩) ∧
    asn1UInt64 ⟨[], [], false⟩ 0x0102 tagInfoNoOverride (some (streamInit (some [9, 9, 9, 9]) 4)) = .ok ((), some ⟨some [2, 2, 1, 2], 4, 4, false, false⟩) ∧
    asn1Int64 ⟨[7], [], true⟩ 0 tagInfoNoOverride (some (streamInit (some [9, 9, 9]) 3)) = .error .oobRead ∧
    asn1Int64 ⟨[], [7], true⟩ (-1) tagInfoNoOverride (some (streamInit (some [9, 9, 9]) 3)) = .ok ((), some ⟨some [2, 1, 255], 3, 3, false, false⟩) := by
  refine ⟨by decide, by decide, by decide +kernel, by decide +kernel, by decide +kernel, by decide +kernel⟩

/-- Certificates on a big-endian host. -/
example : (∀ fr, TbsArg fr exampleContent exampleTbs) ∧
    (x509CertTbs ⟨[], [], true⟩ (some exampleTbs) (some (streamInit none 0))) = (x509CertTbs ⟨[], [], false⟩ (some exampleTbs) (some (streamInit none 0))) :=
  ⟨exampleTbs_arg, by decide +kernel⟩

end Nat20
