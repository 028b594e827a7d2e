import Verif.Lemmas.Uniform
import Verif.Props.NullStream
/-!
# C54, C55: what all rendering functions have in common
-/

namespace Nat20

theorem extensions_detCallbacks {e : Extensions} (h : ∀ w ∈ e.callbacks, Det w) : e.DetCallbacks := by
  intro l hl x hx w hw
  apply h
  rw [Extensions.callbacks, hl]
  exact List.mem_filterMap.2 ⟨x, hx, hw⟩

theorem det_render (c : RenderCall) (h : ∀ w ∈ c.callbacks, Det w) : Det c.exec := by
  cases c with
  | streamPrepend src len => exact det_streamPrepend _ _
  | streamPut c => exact det_byte c
  | base128Int n => exact (prepends_base128 n).isDet
  | header class_ constructed tag len => obtain ⟨_, hp⟩ := prepends_anyHeader class_ constructed tag len; exact hp.isDet
  | null ti => exact det_null ti
  | objectIdentifier oid ti => exact det_oid oid ti
  | integer n le tc ti => exact det_integer n le tc ti
  | uint64 fr n ti => simp only [RenderCall.exec, asn1UInt64]; exact det_integer _ _ _ _
  | int64 fr n ti => simp only [RenderCall.exec, asn1Int64]; exact det_integer _ _ _ _
  | bitstring b bits ti => exact det_bitstring b bits ti
  | octetstring s ti => exact det_stringish _ _ _
  | utf8String s ti => exact det_stringish _ _ _
  | printablestring s ti => exact det_stringish _ _ _
  | generalizedTime s ti => exact det_generalizedTime s ti
  | headerWithContent cls k tag cb ti =>
    exact det_hwc _ _ _ (fun w hw => h w (by subst hw; simp [RenderCall.callbacks])) ti
  | sequence cb ti => exact det_hwc _ _ _ (fun w hw => h w (by subst hw; simp [RenderCall.callbacks])) ti
  | boolean v ti => exact det_boolean v ti
  | cborHeader type n => exact det_cborHeader _ _
  | cborNull => exact det_cborHeader _ _
  | cborBool b => exact det_cborHeader _ _
  | cborTag tag => exact det_cborHeader _ _
  | cborUint n => exact det_cborHeader _ _
  | cborInt n => exact det_cborInt n
  | cborByteString s => exact det_cborBytes s
  | cborTextString s => exact det_cborText s
  | cborArrayHeader n => exact det_cborHeader _ _
  | cborMapHeader n => exact det_cborHeader _ _
  | name n => exact det_name n
  | extension e => exact det_extension e fun x hx => extensions_detCallbacks (by subst hx; exact h)
  | basicConstraints fr c => exact det_basicConstraints fr c
  | keyUsage c => exact det_keyUsage c
  | certTbs fr t => exact det_tbs fr t fun x hx => extensions_detCallbacks (by subst hx; exact h)
  | cert fr c =>
    refine det_cert fr c fun x t hx ht => extensions_detCallbacks ?_
    subst hx
    simp only [RenderCall.callbacks, ht] at h
    exact h
  | openDiceInput fr c => exact det_openDiceInput fr c
  | tcbFreshness c => exact det_freshness c
  | tcbInfo fr c => exact det_tcbInfo fr c
  | multiTcbInfo fr c => exact det_multiTcbInfo fr c
  | ueid c => exact det_ueid c

theorem det_renderAll (cs : List RenderCall) (h : ∀ c ∈ cs, ∀ w ∈ c.callbacks, Det w) :
    Det (renderAll cs) := by
  induction cs with
  | nil => exact Det.pure
  | cons c cs ih => exact (det_render c (h c (by simp))).bind (ih fun c hc => h c (by simp [hc]))

theorem Callback.isDet {w : W Unit} (h : Callback w) : Det w := by
  induction h with
  | calls cs _ ih => exact det_renderAll cs ih

/-- **C54.** Rendering does not depend on the stream.  Take any sequence of calls of rendering functions with any arguments
(callbacks being made of such calls themselves).  If it completes on one buffer without overflow and the caller reads `bs`
there, then it completes on every buffer: the sizing pass without a buffer announces exactly `bs.length`, a buffer of at
least this size receives exactly `bs`, and a smaller one is reported as overflowed, with the same byte count. -/
theorem C54_render_once_render_everywhere (cs : List RenderCall) (h : ∀ c ∈ cs, ∀ w ∈ c.callbacks, Callback w)
    (mem : Bytes) (size : UInt64) (hsize : size.toNat ≤ mem.length) (s : Stream)
    (run : renderAll cs (some (streamInit (some mem) size)) = .ok ((), some s))
    (good : streamHasBufferOverflow (some s) = false) :
    ∃ bs, callerReads s = some bs ∧
      (∀ anySize, ∃ s1, renderAll cs (some (streamInit none anySize)) = .ok ((), some s1) ∧
        streamHasWritePositionOverflow (some s1) = false ∧ (streamByteCount (some s1)).toNat = bs.length) ∧
      (∀ (mem2 : Bytes) (size2 : UInt64), size2.toNat ≤ mem2.length →
        ∃ s2, renderAll cs (some (streamInit (some mem2) size2)) = .ok ((), some s2) ∧
          (streamHasBufferOverflow (some s2) = true ↔ size2.toNat < bs.length) ∧
          (streamByteCount (some s2)).toNat = bs.length ∧
          (streamHasBufferOverflow (some s2) = false → callerReads s2 = some bs)) := by
  have hd := det_renderAll cs fun c hc w hw => (h c hc w hw).isDet
  obtain ⟨bs, hp⟩ := hd.det _ s (streamInit_wf mem size hsize) run good
  obtain ⟨s', _, e, _, _, _, _, hbo, _, _, hfit⟩ := fresh_stream hp mem size hsize
  rw [run] at e
  cases e
  have hlen : bs.length ≤ size.toNat := by
    by_cases hh : size.toNat < bs.length
    · have good : s.bufferOverflow = false := good
      rw [hbo.2 hh] at good; cases good
    · omega
  have hlt : bs.length < 2 ^ 64 := Nat.lt_of_le_of_lt hlen size.toNat_lt
  refine ⟨bs, (hfit good).2, fun anySize => ?_, fun mem2 size2 hsize2 => ?_⟩
  · obtain ⟨s1, e1, _, p1⟩ := hp.run _ (streamInit_null_wf anySize)
    have h0 : (streamInit none anySize).writePosition.toNat = 0 := rfl
    have hw : s1.writePositionOverflow = false := by
      cases hx : s1.writePositionOverflow with
      | false => rfl
      | true =>
        have := p1.wpo_iff.1 hx
        rw [h0] at this
        rcases this with this | this
        · cases this
        · omega
    have hc := p1.count hw
    rw [h0, Nat.zero_add] at hc
    exact ⟨s1, e1, hw, hc⟩
  · obtain ⟨s2, _, e2, wf2, _, _, _, hbo2, hw2, hc2, hf2⟩ := fresh_stream hp mem2 size2 hsize2
    have hw : s2.writePositionOverflow = false := by
      cases hx : s2.writePositionOverflow with
      | false => rfl
      | true => have := hw2.1 hx; omega
    exact ⟨s2, e2, hbo2, hc2 hw, fun hg => (hf2 hg).2⟩

/-- **C54.** In the middle of an artefact: a sequence of calls which completed once prepends the same bytes to whatever is in
the stream already. -/
theorem C54_context_free (cs : List RenderCall) (h : ∀ c ∈ cs, ∀ w ∈ c.callbacks, Callback w)
    (s t : Stream) (hs : s.WF) (run : renderAll cs (some s) = .ok ((), some t))
    (good : streamHasBufferOverflow (some t) = false) : ∃ bs, Prepends (renderAll cs) bs :=
  (det_renderAll cs fun c hc w hw => (h c hc w hw).isDet).det s t hs run good

/-- Non-vacuity of C54: a nested structure completes on a buffer which is larger than needed. -/
example :
    let inner := renderAll [.boolean true tagInfoNoOverride, .uint64 ⟨[], [], false⟩ 5 tagInfoNoOverride]
    let cs : List RenderCall := [.cborNull, .sequence (some inner) (tagInfoExplicit 1)]
    (∀ c ∈ cs, ∀ w ∈ c.callbacks, Callback w) ∧
      renderAll cs (some (streamInit (some (List.replicate 12 0)) 12)) =
        .ok ((), some ⟨some [0, 0xa1, 8, 0x30, 6, 2, 1, 5, 1, 1, 0xff, 0xf6], 12, 11, false, false⟩) := by
  refine ⟨?_, by decide +kernel⟩
  intro c hc w hw
  simp only [List.mem_cons, List.not_mem_nil, or_false] at hc
  rcases hc with rfl | rfl
  · simp [RenderCall.callbacks] at hw
  · simp only [RenderCall.callbacks, Option.toList_some, List.mem_singleton] at hw
    subst hw
    exact .calls _ (by simp [RenderCall.callbacks])

/-- **C55.** Whatever is rendered, with whatever arguments and whether or not it fits: memory behind the announced size and
bytes committed earlier keep their values, an overflowed stream is not written to, flags stay raised, and while the counter
did not overflow the byte count never decreases. -/
theorem C55_rendering_stays_inside (cs : List RenderCall) (h : ∀ c ∈ cs, ∀ w ∈ c.callbacks, Callback w)
    (s : Stream) (hs : s.WF) (r : Option Stream) (run : renderAll cs (some s) = .ok ((), r)) :
    ∃ t, r = some t ∧ t.WF ∧ t.size = s.size ∧
      (streamHasBufferOverflow (some s) = true → streamHasBufferOverflow (some t) = true ∧ t.begin_ = s.begin_) ∧
      (streamHasWritePositionOverflow (some s) = true → streamHasWritePositionOverflow (some t) = true) ∧
      (streamHasWritePositionOverflow (some t) = false → streamByteCount (some s) ≤ streamByteCount (some t)) ∧
      (streamHasBufferOverflow (some s) = false → ∀ mem, s.begin_ = some mem → ∃ mem', t.begin_ = some mem' ∧
        mem'.length = mem.length ∧ ∀ i, s.size.toNat - s.writePosition.toNat ≤ i → mem'[i]? = mem[i]?) := by
  obtain ⟨t, rfl, k⟩ := (det_renderAll cs fun c hc w hw => (h c hc w hw).isDet).mono s r hs run
  refine ⟨t, rfl, k.wf, k.size_eq, fun hb => ⟨k.bo hb, k.dead hb⟩, k.wpo, fun hw => ?_, fun hb mem hm => ?_⟩
  · rw [UInt64.le_iff_toNat_le]; exact k.grows hw
  · obtain ⟨mem', hm', hd⟩ := k.keeps hb mem hm
    refine ⟨mem', hm', ?_, fun i hi => ?_⟩
    · have := k.same_buffer
      rw [hm', hm] at this
      simpa using this
    · have := congrArg (fun l => l[i - (s.size.toNat - s.writePosition.toNat)]?) hd
      simp only [List.getElem?_drop] at this
      rwa [Nat.add_sub_cancel' hi] at this

/-- Non-vacuity of C55: the second call does not fit. -/
example :
    renderAll [.null tagInfoNoOverride, .octetstring (some ⟨2, some ⟨[], [7, 8]⟩⟩) tagInfoNoOverride]
      (some ⟨some [1, 2, 3, 4, 5, 6, 7], 6, 1, false, false⟩) =
      .ok ((), some ⟨some [2, 7, 8, 5, 0, 6, 7], 6, 7, true, false⟩) := by decide +kernel

end Nat20
