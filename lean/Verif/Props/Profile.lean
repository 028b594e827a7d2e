import Verif.Lemmas.Profile
import Verif.Props.X509
/-!
# C93: which arguments give a certificate of the RFC 5280 profile

`Profile.CertificateOk` (`Verif/Spec/Profile.lean`) is the profile, as a predicate on DER trees; `Profile.Documented` lists what the caller has to pass.
-/

namespace Nat20

open Der Pki Profile

/-- **C93** (partial). The certificate is one of the RFC 5280 profile exactly if the arguments are as listed in `Documented` and both times (the given ones, or the defaults) are
in the year 2050 or later: times before are rendered as GeneralizedTime, too, where the RFC demands UTCTime.  Missing: serial number 0 and OIDs as in C33. -/
theorem C93_profile_partial (fr : Frame) (content : Extension → Bytes) (x : X509) (t : Tbs) (ht : x.tbs = some t) (h : CertArg fr content x)
    (ho : (certValue content x).Ok) :
    ∃ bs, Prepends (x509Cert fr (some x)) bs ∧ (bs.length < 2 ^ 64 → ∃ d, Der.parse bs = some d ∧
      (CertificateOk TimeOk d ↔ Documented x t ∧
        (∃ m, Given t.validity.notBefore (ascii "19700101000000Z") m ∧ 2050 ≤ m.year) ∧
        (∃ m, Given t.validity.notAfter (ascii "99991231235959Z") m ∧ 2050 ≤ m.year))) := by
  obtain ⟨bs, h1, h2⟩ := C33_certificate_partial fr content x h
  refine ⟨bs, h1, fun hl => ⟨_, h2 hl, ?_⟩⟩
  rw [certificateOk_iff _ _ _ t ht ho, timeOk_generalized, timeOk_generalized]
  refine and_congr_right fun _ => and_congr (exists_congr fun m => ?_) (exists_congr fun m => ?_)
  · exact ⟨fun ⟨a, b, c⟩ => ⟨⟨a, c⟩, b⟩, fun ⟨⟨a, c⟩, b⟩ => ⟨a, b, c⟩⟩
  · exact ⟨fun ⟨a, b, c⟩ => ⟨⟨a, c⟩, b⟩, fun ⟨⟨a, c⟩, b⟩ => ⟨a, b, c⟩⟩

/-- **C93** (partial). By the weaker rule that GeneralizedTime may be used in every year, exactly those arguments are right which are listed in `Documented` with times of the
documented form.  Missing: as above. -/
theorem C93_any_time_partial (fr : Frame) (content : Extension → Bytes) (x : X509) (t : Tbs) (ht : x.tbs = some t) (h : CertArg fr content x)
    (ho : (certValue content x).Ok) :
    ∃ bs, Prepends (x509Cert fr (some x)) bs ∧ (bs.length < 2 ^ 64 → ∃ d, Der.parse bs = some d ∧
      (CertificateOk AnyTimeOk d ↔ Documented x t ∧
        (∃ m, Given t.validity.notBefore (ascii "19700101000000Z") m) ∧ (∃ m, Given t.validity.notAfter (ascii "99991231235959Z") m))) := by
  obtain ⟨bs, h1, h2⟩ := C33_certificate_partial fr content x h
  refine ⟨bs, h1, fun hl => ⟨_, h2 hl, ?_⟩⟩
  rw [certificateOk_iff _ _ _ t ht ho, anyTimeOk_generalized, anyTimeOk_generalized]
  rfl

/-- **C93, negated** for the default: a certificate without a start time (a NULL pointer, `include/nat20/x509.h` 691-699) is not one of the profile, whatever else is passed. -/
theorem C93_default_start (fr : Frame) (content : Extension → Bytes) (x : X509) (t : Tbs) (ht : x.tbs = some t) (h : CertArg fr content x)
    (ho : (certValue content x).Ok) (hn : t.validity.notBefore.buffer = none) :
    ∃ bs, Prepends (x509Cert fr (some x)) bs ∧ (bs.length < 2 ^ 64 → ∃ d, Der.parse bs = some d ∧ ¬ CertificateOk TimeOk d) := by
  obtain ⟨bs, h1, h2⟩ := C93_profile_partial fr content x t ht h ho
  refine ⟨bs, h1, fun hl => ?_⟩
  obtain ⟨d, h3, h4⟩ := h2 hl
  refine ⟨d, h3, fun hc => ?_⟩
  obtain ⟨_, ⟨m, ⟨hm, he⟩, hy⟩, _⟩ := h4.1 hc
  rw [if_pos hn] at he
  have : m = ⟨1970, 1, 1, 0, 0, 0⟩ := long_inj hm (by decide) (he.symm.trans (by decide))
  rw [this] at hy
  exact absurd hy (by decide)

/-- **C93, negated** for the years up to 2049: a certificate whose start or end is given as documented and lies before 2050 is not one of the profile. -/
theorem C93_before_2050 (fr : Frame) (content : Extension → Bytes) (x : X509) (t : Tbs) (ht : x.tbs = some t) (h : CertArg fr content x)
    (ho : (certValue content x).Ok) (m : Moment)
    (hg : Given t.validity.notBefore (ascii "19700101000000Z") m ∨ Given t.validity.notAfter (ascii "99991231235959Z") m) (hm : m.year ≤ 2049) :
    ∃ bs, Prepends (x509Cert fr (some x)) bs ∧ (bs.length < 2 ^ 64 → ∃ d, Der.parse bs = some d ∧ ¬ CertificateOk TimeOk d) := by
  obtain ⟨bs, h1, h2⟩ := C93_profile_partial fr content x t ht h ho
  refine ⟨bs, h1, fun hl => ?_⟩
  obtain ⟨d, h3, h4⟩ := h2 hl
  refine ⟨d, h3, fun hc => ?_⟩
  obtain ⟨_, ⟨a, ha, hay⟩, b, hb, hby⟩ := h4.1 hc
  rcases hg with hg | hg
  · have := long_inj ha.1 hg.1 (ha.2.symm.trans hg.2)
    rw [this] at hay
    omega
  · have := long_inj hb.1 hg.1 (hb.2.symm.trans hg.2)
    rw [this] at hby
    omega

/-- **C93, negated** without TBS input: what is rendered is not a certificate of the profile. -/
theorem C93_no_tbs (fr : Frame) (content : Extension → Bytes) (x : X509) (ht : x.tbs = none) (h : CertArg fr content x) :
    ∃ bs, Prepends (x509Cert fr (some x)) bs ∧ (bs.length < 2 ^ 64 → ∃ d, Der.parse bs = some d ∧ ∀ time, ¬ CertificateOk time d) := by
  obtain ⟨bs, h1, h2⟩ := C33_certificate_partial fr content x h
  refine ⟨bs, h1, fun hl => ⟨_, h2 hl, ?_⟩⟩
  rintro time ⟨_, _, _, _, _, _, _, _, _, _, _, hd, _⟩
  simp [CertValue.der, certValue, ht, tbsDer, sequence] at hd

/-! ## Examples -/

/-- The start of the year 2050. -/
def start2050 : Slice := ⟨15, some ⟨[], ascii "20500101000000Z"⟩⟩

def profiledTbs : Tbs := { exampleTbs with validity := ⟨start2050, Slice.null⟩ }

def profiledCert : X509 := { exampleCert with tbs := some profiledTbs }

theorem profiledTbs_arg (fr : Frame) : TbsArg fr exampleContent profiledTbs :=
  { exampleTbs_arg fr with validity := ⟨slice_valid_of_le _ _ _ (by decide), by intro p hp; cases hp⟩ }

theorem profiledCert_arg (fr : Frame) : CertArg fr exampleContent profiledCert where
  tbs := by intro t ht; cases ht; exact profiledTbs_arg fr
  signature := (exampleCert_arg fr).signature

theorem profiledCert_ok : (certValue exampleContent profiledCert).Ok where
  tbs := by
    intro t ht
    cases ht
    have h := exampleCert_ok.tbs _ rfl
    exact ⟨h.signature, h.issuer, h.subject, h.spki, h.extensions⟩
  algorithm := exampleCert_ok.algorithm

theorem exampleName_documented : NameDocumented exampleName := by
  refine ⟨by decide, fun r hr => ?_⟩
  have e : exampleName.elements.toList.take exampleName.elementCount.toNat =
      [⟨some OID_COMMON_NAME, ⟨2, some ⟨[], [0x41, 0x42]⟩⟩⟩, ⟨some OID_SERIAL_NUMBER, ⟨2, some ⟨[], [0x0f, 0xa0]⟩⟩⟩] := rfl
  rw [e] at hr
  simp only [List.mem_cons, List.not_mem_nil, or_false] at hr
  rcases hr with rfl | rfl
  · refine ⟨[2, 5, 4, 3], by decide, ?_⟩
    rw [if_neg (by decide)]
    refine ⟨by decide, fun lo hi hb => ?_⟩
    have : (1, 64) = (lo, hi) := Option.some.inj ((by decide : some (1, 64) = sizeBounds [2, 5, 4, 3]).trans hb)
    cases this
    decide
  · refine ⟨[2, 5, 4, 5], by decide, ?_⟩
    rw [if_pos rfl]
    decide

/-- Non-vacuity of `Documented`: a certificate with names, a key on a named curve and a key usage extension. -/
theorem exampleCert_documented : Documented exampleCert exampleTbs where
  serial := by decide
  algorithm := ⟨[1, 3, 101, 112], by decide, by decide, by decide, by decide⟩
  same := rfl
  issuer := ⟨exampleName_documented, by decide⟩
  subject := ⟨exampleName_documented, fun h => absurd h (by decide)⟩
  key := ⟨ecPublicKey, by decide, fun _ => ⟨rfl, by decide⟩, by decide, by decide⟩
  extensions := ⟨by
    intro e he
    simp only [announced, exampleTbs, Option.getD_some, show (1 : UInt64).toNat = 1 from rfl, List.take_succ_cons, List.take_zero, List.mem_singleton] at he
    subst he
    decide, by simp [announced, exampleTbs]⟩

/-- The validity does not matter here. -/
theorem profiledCert_documented : Documented profiledCert profiledTbs :=
  have h := exampleCert_documented
  ⟨h.serial, h.algorithm, h.same, h.issuer, h.subject, h.key, h.extensions⟩

/-- Non-vacuity of C93: this certificate, valid from the year 2050 on, is one of the profile. -/
example : ∃ bs, Prepends (x509Cert ⟨[], [], false⟩ (some profiledCert)) bs ∧ (bs.length < 2 ^ 64 → ∃ d, Der.parse bs = some d ∧ CertificateOk TimeOk d) := by
  obtain ⟨bs, h1, h2⟩ := C93_profile_partial ⟨[], [], false⟩ exampleContent profiledCert profiledTbs rfl (profiledCert_arg _) profiledCert_ok
  refine ⟨bs, h1, fun hl => ?_⟩
  obtain ⟨d, h3, h4⟩ := h2 hl
  exact ⟨d, h3, h4.2 ⟨profiledCert_documented, ⟨⟨2050, 1, 1, 0, 0, 0⟩, ⟨by decide, by decide⟩, by decide⟩,
    ⟨9999, 12, 31, 23, 59, 59⟩, ⟨by decide, by decide⟩, by decide⟩⟩

/-- Non-vacuity of C93, negated: the example certificate has neither a start time nor one from 2050 on, and is right by the weaker rule. -/
example : (∃ bs, Prepends (x509Cert ⟨[], [], false⟩ (some exampleCert)) bs ∧ (bs.length < 2 ^ 64 → ∃ d, Der.parse bs = some d ∧ ¬ CertificateOk TimeOk d)) ∧
    (∃ bs, Prepends (x509Cert ⟨[], [], false⟩ (some exampleCert)) bs ∧ (bs.length < 2 ^ 64 → ∃ d, Der.parse bs = some d ∧ ¬ CertificateOk TimeOk d)) ∧
    (∃ bs, Prepends (x509Cert ⟨[], [], false⟩ (some exampleCert)) bs ∧ (bs.length < 2 ^ 64 → ∃ d, Der.parse bs = some d ∧ CertificateOk AnyTimeOk d)) := by
  refine ⟨C93_default_start _ exampleContent exampleCert exampleTbs rfl (exampleCert_arg _) exampleCert_ok rfl,
    C93_before_2050 _ exampleContent exampleCert exampleTbs rfl (exampleCert_arg _) exampleCert_ok ⟨2030, 1, 1, 0, 0, 0⟩ (Or.inr ⟨by decide, by decide⟩) (by decide), ?_⟩
  obtain ⟨bs, h1, h2⟩ := C93_any_time_partial ⟨[], [], false⟩ exampleContent exampleCert exampleTbs rfl (exampleCert_arg _) exampleCert_ok
  refine ⟨bs, h1, fun hl => ?_⟩
  obtain ⟨d, h3, h4⟩ := h2 hl
  exact ⟨d, h3, h4.2 ⟨exampleCert_documented, ⟨⟨1970, 1, 1, 0, 0, 0⟩, by decide, by decide⟩, ⟨2030, 1, 1, 0, 0, 0⟩, by decide, by decide⟩⟩

/-- Non-vacuity of C93 without TBS input. -/
example := C93_no_tbs ⟨[], [], false⟩ exampleContent { exampleCert with tbs := none } rfl ⟨fun _ h => (by cases h), (exampleCert_arg ⟨[], [], false⟩).signature⟩

end Nat20
