import Verif.Spec.Claims
import Verif.Lemmas.Size
/-!
# C91: what is signed says one thing only
-/

namespace Nat20

open Der Pki

theorem parse_same {w w' : W Unit} {bs : Bytes} {d d' : Der} (hl : bs.length < 2 ^ 64) (h : Prepends w bs) (h' : Prepends w' bs)
    (hd : ∃ b, Prepends w b ∧ (b.length < 2 ^ 64 → Der.parse b = some d)) (hd' : ∃ b, Prepends w' b ∧ (b.length < 2 ^ 64 → Der.parse b = some d')) : d = d' := by
  obtain ⟨b, p, q⟩ := hd
  obtain ⟨b', p', q'⟩ := hd'
  have e := Prepends.unique h p hl
  have e' := Prepends.unique h' p' hl
  subst e
  subst e'
  have := (q hl).symm.trans (q' hl)
  simpa using this

/-- **C91** (partial, extensions).  Two extensions of the same type whose contents are rendered as the same octets say the same.  Missing: OIDs of hash algorithms that C14 excludes
and numbers for which the library reads outside of them (C13), as in C27, C34 and C35. -/
theorem C91_extension_partial (fr fr' : Frame) (e e' : Extension) (c c' : Claim) (h : e.States fr c) (h' : e'.States fr' c') (hk : c.kind = c'.kind) (bs : Bytes) (hl : bs.length < 2 ^ 64)
    (hr : Renders e bs) (hr' : Renders e' bs) : c = c' := by
  unfold Renders at hr hr'
  cases h <;> cases h' <;> simp only [Claim.kind, Nat.reduceEqDiff, reduceCtorEq, Nat.zero_ne_one, Nat.one_ne_zero] at hk
  case basicConstraints bc hcb h bc' hcb' h' =>
    rw [hcb] at hr
    rw [hcb'] at hr'
    have := parse_same hl hr hr' (C27_basic_constraints_partial fr bc h) (C27_basic_constraints_partial fr' bc' h')
    obtain ⟨ca, hp, pl⟩ := bc
    obtain ⟨ca', hp', pl'⟩ := bc'
    cases ca <;> cases hp <;> cases ca' <;> cases hp' <;>
      simp_all [sequence, boolean]
    · exact_mod_cast integer_inj this
  case keyUsage f hcb g hcb' =>
    rw [hcb] at hr
    rw [hcb'] at hr'
    have := C28_distinct f g bs hl hr hr'
    congr 1
    funext i
    simp [this i]
  case openDiceInput i hcb h j hcb' h' =>
    rw [hcb] at hr
    rw [hcb'] at hr'
    rw [C34_unambiguous_partial fr fr' i j h h' bs hl hr hr']
  case tcbInfo t hcb h ho u hcb' h' ho' =>
    rw [hcb] at hr
    rw [hcb'] at hr'
    rw [C35_unambiguous_partial fr fr' t u h h' ho ho' bs hl hr hr']
  case multiTcbInfo m hcb h ho n hcb' h' ho' =>
    rw [hcb] at hr
    rw [hcb'] at hr'
    have := parse_same hl hr hr' (C36_multi_tcb_info_partial fr m h) (C36_multi_tcb_info_partial fr' n h')
    simp only [sequence, Der.cons.injEq, true_and] at this
    congr 1
    refine map_inj_on (P := FwidsOk) (f := TcbInfoValue.der) (fun a b ha hb => tcbInfoValue_inj ha hb) _ _ ?_ ?_ ?_
    · intro v hv
      obtain ⟨t, ht, rfl⟩ := List.mem_map.1 hv
      exact ho t ht
    · intro v hv
      obtain ⟨t, ht, rfl⟩ := List.mem_map.1 hv
      exact ho' t ht
    · rw [List.map_map, List.map_map]
      exact this
  case ueid s hcb h s' hcb' h' =>
    rw [hcb] at hr
    rw [hcb'] at hr'
    have := parse_same hl hr hr' (C36_ueid s h) (C36_ueid s' h')
    simp only [sequence, octetString, Der.cons.injEq, List.cons.injEq, Der.prim.injEq, true_and, and_true] at this
    rw [this]
  case freshness s hcb h s' hcb' h' =>
    rw [hcb] at hr
    rw [hcb'] at hr'
    have := parse_same hl hr hr' (C36_freshness s h) (C36_freshness s' h')
    simp only [sequence, octetString, Der.cons.injEq, List.cons.injEq, Der.prim.injEq, true_and, and_true] at this
    rw [this]

theorem encodeAll_mem {ds : List Der} {d : Der} (h : d ∈ ds) : d.encode.length ≤ (encodeAll ds).length := by
  induction ds with
  | nil => simp at h
  | cons a ds ih =>
    rw [Size.len_all_cons]
    rcases List.mem_cons.1 h with rfl | h
    · omega
    · have := ih h
      omega

theorem inner_length (c t : Nat) (ht : t < 31) {ds : List Der} {d : Der} (h : d ∈ ds) : d.encode.length ≤ (Der.cons c t ds).encode.length := by
  have := encodeAll_mem h
  rw [Size.len_cons c t ht]
  unfold Size.element
  omega

/-- What an extension contains is not longer than the to-be-signed part. -/
theorem content_length (t : TbsValue) (e : Ext) (he : e ∈ t.extensions) : e.value.length ≤ t.der.encode.length := by
  have h1 : e.value.length ≤ (octetString e.value).encode.length := by
    unfold octetString
    rw [Size.len_prim 0 4 (by decide)]
    unfold Size.element
    omega
  have h2 : (octetString e.value).encode.length ≤ e.der.encode.length := inner_length 0 16 (by decide) (by simp)
  have h3 : e.der.encode.length ≤ (sequence (t.extensions.map Ext.der)).encode.length := inner_length 0 16 (by decide) (List.mem_map_of_mem he)
  have h4 : (sequence (t.extensions.map Ext.der)).encode.length ≤ (Der.cons 2 3 [sequence (t.extensions.map Ext.der)]).encode.length := inner_length 2 3 (by decide) (by simp)
  have h5 : (Der.cons 2 3 [sequence (t.extensions.map Ext.der)]).encode.length ≤ t.der.encode.length := by
    refine inner_length 0 16 (by decide) ?_
    cases hx : t.extensions with
    | nil => rw [hx] at he; simp at he
    | cons a l => simp [extensionsDers]
  omega

theorem ext_der_inj {e e' : Ext} (h : e.der = e'.der) : e.critical = e'.critical ∧ e.value = e'.value := by
  obtain ⟨o, c, v⟩ := e
  obtain ⟨o', c', v'⟩ := e'
  cases c <;> cases c' <;> simp [Ext.der, sequence, boolean, octetString] at h <;> simp [h]

theorem extensionsDers_inj {l m : List Ext} (h : extensionsDers l = extensionsDers m) : l.map Ext.der = m.map Ext.der := by
  cases l <;> cases m <;> simp [extensionsDers, sequence] at h ⊢
  exact h

theorem listed_values (content : Extension → Bytes) (t : Tbs) : (tbsValue content t).extensions = t.listed.map (extValue content) := by
  show extensionsValue content t.extensions = _
  unfold extensionsValue Tbs.listed
  split
  · next e => rw [e]; simp
  · next l e => rw [e]; rfl

theorem listed_renders {fr : Frame} {content : Extension → Bytes} {t : Tbs} (h : TbsArg fr content t) : ∀ e ∈ t.listed, Renders e (content e) := by
  intro e he
  unfold Tbs.listed at he
  cases hl : t.extensions.extensions with
  | none => rw [hl] at he; simp at he
  | some l => rw [hl] at he; exact (h.extensions l hl).2 e he

theorem tbs_claims {fr fr' : Frame} {content content' : Extension → Bytes} {t t' : Tbs} (h : TbsArg fr content t) (h' : TbsArg fr' content' t')
    (hv : (tbsValue content t).der = (tbsValue content' t').der) (hl : (tbsValue content t).der.encode.length < 2 ^ 64) : t.SaysSame fr fr' t' := by
  have hd : t.listed.map (fun e => (extValue content e).der) = t'.listed.map (fun e => (extValue content' e).der) := by
    simp only [TbsValue.der, sequence, Der.cons.injEq, true_and, List.cons_append, List.nil_append, List.cons.injEq] at hv
    have := extensionsDers_inj hv.2.2.2.2.2.2
    rw [listed_values, listed_values, List.map_map, List.map_map] at this
    exact this
  refine ⟨by simpa using congrArg List.length hd, fun k e e' he he' => ?_⟩
  have hk : (t.listed.map (fun e => (extValue content e).der))[k]? = (t'.listed.map (fun e => (extValue content' e).der))[k]? := by rw [hd]
  rw [List.getElem?_map, List.getElem?_map, he, he'] at hk
  simp only [Option.map_some, Option.some.injEq] at hk
  obtain ⟨h1, h2⟩ := ext_der_inj hk
  refine ⟨h1, fun c c' hc hc' hkind => ?_⟩
  have hmem := List.mem_of_getElem? he
  have hmem' := List.mem_of_getElem? he'
  have h3 : content e = content' e' := h2
  refine C91_extension_partial fr fr' e e' c c' hc hc' hkind (content e) ?_ (listed_renders h e hmem) ?_
  · have : (content e).length ≤ _ := content_length (tbsValue content t) (extValue content e) (by rw [listed_values]; exact List.mem_map_of_mem hmem)
    omega
  · rw [h3]
    exact listed_renders h' e' hmem'

/-- **C91** (partial).  If the to-be-signed parts of two certificates are the same octets – so that a signature of one is one of the other –, they have the same number of extensions,
with the same critical flags and, where extensions of the same type are at the same place, the same things said about the device; and if OIDs are unambiguous (C14) also all fields are
the same.  Missing: what `C91_extension_partial` and C31 exclude. -/
theorem C91_signed_partial (fr fr' : Frame) (content content' : Extension → Bytes) (t t' : Tbs) (h : TbsArg fr content t) (h' : TbsArg fr' content' t') (bs : Bytes)
    (hl : bs.length < 2 ^ 64) (hx : Prepends (x509CertTbs fr (some t)) bs) (hx' : Prepends (x509CertTbs fr' (some t')) bs) :
    t.SaysSame fr fr' t' ∧ ((tbsValue content t).Ok → (tbsValue content' t').Ok → tbsValue content t = tbsValue content' t') := by
  have h1 := Prepends.unique hx (prepends_tbs fr content t h) hl
  have h2 := Prepends.unique hx' (prepends_tbs fr' content' t' h') hl
  have hv : (tbsValue content t).der = (tbsValue content' t').der := encode_injective (classOk_tbs _) (classOk_tbs _) (by rw [h1]; exact hl) (by rw [h1, h2])
  exact ⟨tbs_claims h h' hv (by rw [h1]; exact hl), fun ho ho' => tbsValue_inj ho ho' hv⟩

/-- **C91** (partial), for whole certificates. -/
theorem C91_certificate_partial (fr fr' : Frame) (content content' : Extension → Bytes) (x x' : X509) (t t' : Tbs) (ht : x.tbs = some t) (ht' : x'.tbs = some t') (h : CertArg fr content x)
    (h' : CertArg fr' content' x') (bs : Bytes) (hl : bs.length < 2 ^ 64) (hx : Prepends (x509Cert fr (some x)) bs) (hx' : Prepends (x509Cert fr' (some x')) bs) :
    t.SaysSame fr fr' t' := by
  have h1 := Prepends.unique hx (prepends_cert fr content x h) hl
  have h2 := Prepends.unique hx' (prepends_cert fr' content' x' h') hl
  have hv : (certValue content x).der = (certValue content' x').der := encode_injective (classOk_cert _) (classOk_cert _) (by rw [h1]; exact hl) (by rw [h1, h2])
  simp only [CertValue.der, sequence, certValue, ht, ht', Option.map_some, tbsDer, Der.cons.injEq, true_and, List.cons.injEq] at hv
  refine tbs_claims (h.tbs t ht) (h'.tbs t' ht') hv.1 ?_
  have : (tbsValue content t).der.encode.length ≤ (certValue content x).der.encode.length :=
    inner_length 0 16 (by decide) (by simp [certValue, ht, tbsDer])
  rw [h1] at this
  omega

/-- **C91, negated** for OIDs that C14 excludes: TcbInfo naming one hash algorithm is rendered as the same octets as TcbInfo naming another. -/
theorem C91_hash_algorithm (fr : Frame) : ∃ t u : TcbInfo, ∃ bs, TcbInfoArg fr t ∧ TcbInfoArg fr u ∧ tcbInfoValue t ≠ tcbInfoValue u ∧
    Prepends (tcbInfoContent fr (some t)) bs ∧ Prepends (tcbInfoContent fr (some u)) bs := by
  have harg : ∀ o : Oid, TcbInfoArg fr { exampleTcb with fwids := some [⟨o, ⟨1, some ⟨[], [7]⟩⟩⟩], fwidsCount := 1 } := fun o =>
    { exampleTcb_arg fr with
      fwids := by
        intro l hl
        cases hl
        refine ⟨Nat.le_refl 1, fun f hf => ?_⟩
        replace hf : f ∈ [⟨o, ⟨1, some ⟨[], [7]⟩⟩⟩] := hf
        rw [List.mem_singleton.1 hf]
        exact slice_valid_of_le _ _ _ (by decide) }
  refine ⟨_, _, _, harg (mkOid [2, 999]), harg (mkOid [2, 231]), fun h => ?_, prepends_tcbInfo fr _ (harg _), ?_⟩
  · have h := congrArg TcbInfoValue.fwids h
    replace h : some [(⟨oidValue (some (mkOid [2, 999])), [7]⟩ : FwidValue)] = some [⟨oidValue (some (mkOid [2, 231])), [7]⟩] := h
    simp only [Option.some.injEq, List.cons.injEq, FwidValue.mk.injEq, and_true] at h
    exact absurd h (by decide +kernel)
  · have e : (tcbInfoValue { exampleTcb with fwids := some [⟨mkOid [2, 999], ⟨1, some ⟨[], [7]⟩⟩⟩], fwidsCount := 1 }).der.encode =
        (tcbInfoValue { exampleTcb with fwids := some [⟨mkOid [2, 231], ⟨1, some ⟨[], [7]⟩⟩⟩], fwidsCount := 1 }).der.encode := by decide +kernel
    rw [e]
    exact prepends_tcbInfo fr _ (harg _)

/-! ## Non-vacuity -/

/-- A certificate with all types of extensions. -/
def claimsTbs (fr : Frame) : Tbs := { exampleTbs with
  extensions := ⟨7, some [⟨some OID_KEY_USAGE, true, some (keyUsageContent (some (keyUsageOf [5])))⟩,
    ⟨some OID_BASIC_CONSTRAINTS, true, some (basicConstraintsContent fr (some ⟨true, true, 3⟩))⟩,
    ⟨some OID_OPEN_DICE_INPUT, true, some (openDiceInputContent fr (some exampleDice))⟩,
    ⟨some OID_TCG_DICE_TCB_INFO, true, some (tcbInfoContent fr (some exampleTcb))⟩,
    ⟨some OID_TCG_DICE_MULTI_TCB_INFO, true, some (multiTcbInfoContent fr (some ⟨some [exampleTcb, exampleTcb], 2⟩))⟩,
    ⟨some OID_TCG_DICE_UEID, false, some (ueidContent (some ⟨2, some ⟨[], [7, 8]⟩⟩))⟩,
    ⟨some OID_TCG_DICE_TCB_FRESHNESS, false, some (freshnessContent (some ⟨2, some ⟨[], [7, 8]⟩⟩))⟩]⟩ }

theorem exampleFwids_ok : FwidsOk (tcbInfoValue exampleTcb) := by
  intro l hl f hf
  have e : (tcbInfoValue exampleTcb).fwids = some [⟨oidValue (some OID_SHA256), [7]⟩, ⟨oidValue (some OID_SHA256), [8, 9]⟩] := rfl
  rw [e] at hl
  cases hl
  simp only [List.mem_cons, List.not_mem_nil, or_false] at hf
  rcases hf with rfl | rfl <;> exact exampleArcs_ok _ 2 16 _ rfl (by decide)

/-- Its extensions say these things. -/
theorem claims_states (fr : Frame) : ∀ (k : Nat) (e : Extension), (claimsTbs fr).listed[k]? = some e → ∃ c : Claim, e.States fr c ∧
    c.kind = [1, 0, 2, 3, 4, 5, 6][k]! := by
  intro k e he
  match k, he with
  | 0, he => cases he; exact ⟨_, .keyUsage [5] rfl, rfl⟩
  | 1, he => cases he; exact ⟨_, .basicConstraints ⟨true, true, 3⟩ rfl (fun _ _ h => by simp at h), rfl⟩
  | 2, he => cases he; exact ⟨_, .openDiceInput exampleDice rfl (exampleDice_arg fr), rfl⟩
  | 3, he => cases he; exact ⟨_, .tcbInfo exampleTcb rfl (exampleTcb_arg fr) exampleFwids_ok, rfl⟩
  | 4, he =>
    cases he
    have hall : ∀ t ∈ [exampleTcb, exampleTcb].take (2 : UInt64).toNat, t = exampleTcb := fun t ht => by simpa using List.mem_of_mem_take ht
    refine ⟨_, .multiTcbInfo ⟨some [exampleTcb, exampleTcb], 2⟩ rfl (fun l hl => ?_) (fun t ht => ?_), rfl⟩
    · cases hl
      exact ⟨by decide, fun t ht => by rw [hall t ht]; exact exampleTcb_arg fr⟩
    · rw [hall t ht]
      exact exampleFwids_ok
  | 5, he => cases he; exact ⟨_, .ueid _ rfl (slice_valid_of_le _ _ _ (by decide)), rfl⟩
  | 6, he => cases he; exact ⟨_, .freshness _ rfl (slice_valid_of_le _ _ _ (by decide)), rfl⟩
  | k + 7, he => cases he

/-- Whatever has a meaning is rendered. -/
theorem states_renders {fr : Frame} {e : Extension} {c : Claim} (h : e.States fr c) : ∃ bs, Renders e bs := by
  unfold Renders
  cases h with
  | basicConstraints bc hcb h => rw [hcb]; obtain ⟨bs, p, -⟩ := C27_basic_constraints_partial fr bc h; exact ⟨bs, p⟩
  | keyUsage f hcb => rw [hcb]; obtain ⟨bits, p, -⟩ := C28_key_usage f; exact ⟨_, p⟩
  | openDiceInput i hcb h => rw [hcb]; obtain ⟨bs, p, -⟩ := C34_open_dice_input_partial fr i h; exact ⟨bs, p⟩
  | tcbInfo t hcb h ho => rw [hcb]; obtain ⟨bs, p, -⟩ := C35_tcb_info_partial fr t h; exact ⟨bs, p⟩
  | multiTcbInfo m hcb h ho => rw [hcb]; obtain ⟨bs, p, -⟩ := C36_multi_tcb_info_partial fr m h; exact ⟨bs, p⟩
  | ueid s hcb h => rw [hcb]; obtain ⟨bs, p, -⟩ := C36_ueid s h; exact ⟨bs, p⟩
  | freshness s hcb h => rw [hcb]; obtain ⟨bs, p, -⟩ := C36_freshness s h; exact ⟨bs, p⟩

/-- Non-vacuity of C91: the example meets the hypotheses for every frame. -/
theorem claimsTbs_arg (fr : Frame) : ∃ content, TbsArg fr content (claimsTbs fr) := by
  classical
  refine ⟨fun e => if h : ∃ bs, Renders e bs then h.choose else [], { exampleTbs_arg fr with extensions := ?_ }⟩
  intro l hl
  cases hl
  refine ⟨by show 7 ≤ List.length _; simp, fun e he => ?_⟩
  have he' : e ∈ (claimsTbs fr).listed := he
  obtain ⟨k, hk⟩ := List.mem_iff_getElem?.1 he'
  obtain ⟨c, hc, -⟩ := claims_states fr k e hk
  have hr := states_renders hc
  show Renders e (if h : ∃ bs, Renders e bs then h.choose else [])
  rw [dif_pos hr]
  exact hr.choose_spec

example (fr : Frame) (content : Extension → Bytes) (h : TbsArg fr content (claimsTbs fr)) :
    ∃ bs, Prepends (x509CertTbs fr (some (claimsTbs fr))) bs := ⟨_, prepends_tbs fr content _ h⟩

end Nat20
