import Verif.Spec.Render
import Verif.Lemmas.NullStream
/-!
# C05: rendering to a NULL stream
-/

namespace Nat20

/-- The call `w` is harmless on a NULL stream: if its arguments are acceptable at all, that is if there is a stream on which
the call has no undefined behaviour, the call does nothing (and has no undefined behaviour) with a NULL stream. -/
def HarmlessOnNull (w : W Unit) : Prop :=
  (∃ (s : Stream) (r : Option Stream), w (some s) = .ok ((), r)) → w none = .ok ((), none)

theorem NullLike.harmless {w : W Unit} (h : NullLike w w) : HarmlessOnNull w := fun ⟨s, r, e⟩ => (h s r e).2

theorem extensions_nullCallbacks {e : Extensions} (h : ∀ w ∈ e.callbacks, NullLike w w) : e.NullCallbacks := by
  intro l hl x hx w hw
  apply h
  rw [Extensions.callbacks, hl]
  exact List.mem_filterMap.2 ⟨x, hx, hw⟩

theorem nullLike_render (c : RenderCall) (h : ∀ w ∈ c.callbacks, NullLike w w) : NullLike c.exec c.exec := by
  cases c with
  | streamPrepend src len => exact nullLike_streamPrepend _ _ _ _
  | streamPut c => exact nullLike_local _ _
  | base128Int n => exact nullLike_base128 n
  | header class_ constructed tag len => exact nullLike_header _ _ _ _ _
  | null ti => exact nullLike_null ti
  | objectIdentifier oid ti => exact nullLike_oid oid ti
  | integer n le tc ti => exact nullLike_integer n le tc ti
  | uint64 fr n ti => simp only [RenderCall.exec, asn1UInt64]; exact nullLike_integer _ _ _ _
  | int64 fr n ti => simp only [RenderCall.exec, asn1Int64]; exact nullLike_integer _ _ _ _
  | bitstring b bits ti => exact nullLike_bitstring b bits ti
  | octetstring s ti => exact nullLike_stringish _ _ _
  | utf8String s ti => exact nullLike_stringish _ _ _
  | printablestring s ti => exact nullLike_stringish _ _ _
  | generalizedTime s ti => exact nullLike_generalizedTime s ti
  | headerWithContent cls k tag cb ti =>
    exact nullLike_hwc _ _ _ (fun w hw => h w (by subst hw; simp [RenderCall.callbacks])) ti
  | sequence cb ti => exact nullLike_hwc _ _ _ (fun w hw => h w (by subst hw; simp [RenderCall.callbacks])) ti
  | boolean v ti => exact nullLike_boolean v ti
  | cborHeader type n => exact nullLike_cborHeader _ _
  | cborNull => exact nullLike_cborHeader _ _
  | cborBool b => exact nullLike_cborHeader _ _
  | cborTag tag => exact nullLike_cborHeader _ _
  | cborUint n => exact nullLike_cborHeader _ _
  | cborInt n => exact nullLike_cborInt n
  | cborByteString s => exact nullLike_cborBytes s
  | cborTextString s => exact nullLike_cborText s
  | cborArrayHeader n => exact nullLike_cborHeader _ _
  | cborMapHeader n => exact nullLike_cborHeader _ _
  | name n => exact nullLike_name n
  | extension e => exact nullLike_extension e fun x hx => extensions_nullCallbacks (by subst hx; exact h)
  | basicConstraints fr c => exact nullLike_basicConstraints fr c
  | keyUsage c => exact nullLike_keyUsage c
  | certTbs fr t => exact nullLike_tbs fr t fun x hx => extensions_nullCallbacks (by subst hx; exact h)
  | cert fr c =>
    refine nullLike_cert fr c fun x t hx ht => extensions_nullCallbacks ?_
    subst hx
    simp only [RenderCall.callbacks, ht] at h
    exact h
  | openDiceInput fr c => exact nullLike_openDiceInput fr c
  | tcbFreshness c => exact nullLike_freshness c
  | tcbInfo fr c => exact nullLike_tcbInfo fr c
  | multiTcbInfo fr c => exact nullLike_multiTcbInfo fr c
  | ueid c => exact nullLike_ueid c

theorem nullLike_renderAll (cs : List RenderCall) (h : ∀ c ∈ cs, ∀ w ∈ c.callbacks, NullLike w w) :
    NullLike (renderAll cs) (renderAll cs) := by
  induction cs with
  | nil => exact NullLike.pure
  | cons c cs ih => exact (nullLike_render c (h c (by simp))).bind (ih fun c hc => h c (by simp [hc]))

/-- A content callback as a caller would write it: calls of rendering functions, whose callbacks are of the same kind. -/
inductive Callback : W Unit → Prop where
  | calls (cs : List RenderCall) (h : ∀ c ∈ cs, ∀ w ∈ c.callbacks, Callback w) : Callback (renderAll cs)

theorem Callback.nullLike {w : W Unit} (h : Callback w) : NullLike w w := by
  induction h with
  | calls cs _ ih => exact nullLike_renderAll cs ih

/-- **C05.** Every rendering function of the API, with whatever arguments, is harmless on a NULL stream; if callbacks are
among the arguments, they are made of calls of rendering functions. -/
theorem C05_renderers (c : RenderCall) (h : ∀ w ∈ c.callbacks, Callback w) : HarmlessOnNull c.exec :=
  (nullLike_render c fun w hw => (h w hw).nullLike).harmless

/-- **C05.** So is every sequence of calls. -/
theorem C05_sequences (cs : List RenderCall) (h : ∀ c ∈ cs, ∀ w ∈ c.callbacks, Callback w) : HarmlessOnNull (renderAll cs) :=
  (nullLike_renderAll cs fun c hc w hw => (h c hc w hw).nullLike).harmless

/-- Non-vacuity of C05: a sequence with a nested callback is accepted by a stream, and does nothing with a NULL stream. -/
example :
    let inner := renderAll [.boolean true tagInfoNoOverride, .uint64 ⟨[], [], false⟩ 5 tagInfoNoOverride]
    let c : RenderCall := .sequence (some inner) (tagInfoExplicit 1)
    (∀ w ∈ c.callbacks, Callback w) ∧
      c.exec (some (streamInit (some (List.replicate 12 0)) 12)) =
        .ok ((), some ⟨some [0, 0, 0xa1, 8, 0x30, 6, 2, 1, 5, 1, 1, 0xff], 12, 10, false, false⟩) ∧
      c.exec none = .ok ((), none) := by
  refine ⟨?_, by decide +kernel, by decide +kernel⟩
  intro w hw
  simp only [RenderCall.callbacks, Option.toList_some, List.mem_singleton] at hw
  subst hw
  exact .calls _ (by simp [RenderCall.callbacks])

end Nat20
