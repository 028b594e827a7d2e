import Verif.Lemmas.BsslDigest
import Verif.Props.Digest
/-!
# C46, C56: the digest functions of the reference context

Every statement is for all `lib`, that is, for every choice of library calls that fail.
-/

namespace Nat20

open Fips

/-! ## The contract -/

/-- The effects of a call that failed because the library did: the size is left alone, and so is the output but for the first `n` octets. -/
def FailureEffects (n : Nat) (out : Option Bytes) (size : Option UInt64) (r : Reply) : Prop :=
  r.size = size ∧ (out = none → r.out = none) ∧ ∀ d, out = some d → ∃ d', r.out = some d' ∧ d'.length = d.length ∧ d'.drop n = d.drop n

theorem bsslMd_none (alg : UInt32) (h : documentedSize alg = none) : bsslMd alg = none := by
  unfold documentedSize at h
  unfold bsslMd
  repeat' split at h <;> try simp at h
  simp_all

theorem FailureEffects.untouched (n : Nat) (out : Option Bytes) (size : Option UInt64) (e : N20Error) : FailureEffects n out size ⟨e, out, size⟩ :=
  ⟨rfl, fun h => h, fun d hd => ⟨d, hd, rfl, rfl⟩⟩

theorem FailureEffects.junk (n : Nat) (d : Bytes) (size : Option UInt64) (e : N20Error) (j : Bytes) (hj : j.length = n) (h : n ≤ d.length) :
    FailureEffects n (some d) size ⟨e, some (j ++ d.drop n), size⟩ := by
  refine ⟨rfl, fun h => by simp at h, fun d' hd => ?_⟩
  simp only [Option.some.injEq] at hd
  subst hd
  refine ⟨_, rfl, ?_, ?_⟩
  · rw [List.length_append, List.length_drop]; omega
  · rw [← hj, List.drop_left]

theorem ofNat_size (a : Alg) : (UInt64.ofNat a.size).toNat = a.size := by rw [UInt64.toNat_ofNat']; exact Nat.mod_eq_of_lt (size_lt a)

theorem size_le_of_not_lt (a : Alg) (sz : UInt64) (h : ¬ sz < UInt64.ofNat a.size) : a.size ≤ sz.toNat :=
  Nat.le_of_not_lt fun h' => h (UInt64.lt_iff_toNat_lt.2 (by rw [ofNat_size]; exact h'))

theorem effects_ok (a : Alg) (d v : Bytes) (size : Option UInt64) (hv : v.length = a.size) :
    CallEffects (algId a) (some d) size ⟨.ok, some (v ++ d.drop a.size), some (UInt64.ofNat a.size)⟩ :=
  ⟨_, d, v, documentedSize_algId a, rfl, by rw [ofNat_size], by rw [ofNat_size, hv], rfl⟩

/-- What the caller of `digest` gets: the documented error, its effects, and in case of success the hash of the message. -/
def DigestContract (ctx : Option Unit) (alg : UInt32) (msg : Option (List GatherList)) (count : UInt64) (out : Option Bytes) (size : Option UInt64)
    (r : Reply) : Prop :=
  r.err = documentedDigestError ctx alg msg count out size ∧ CallEffects alg out size r ∧
    (r.err = .ok → ∀ a l d, alg = algId a → msg = some l → out = some d → r.out = some (sha2 a (messageOf l count) ++ d.drop a.size))

theorem algId_inj {a b : Alg} (h : algId a = algId b) : a = b := by
  cases a <;> cases b <;> first | rfl | (exact absurd h (by decide))

/-- **C56** (digest).  For all arguments and whatever library calls fail: the caller gets what is documented or is told of the
failure.  Missing: failure of the very first library call, see `C56_digest_unchecked_allocation`; a list at NULL other than the first
one, see `C56_digest_later_null_list`. -/
theorem C56_digest_partial (lib : Lib) (ctx : Option Unit) (alg : UInt32) (msg : Option (List GatherList)) (count : UInt64) (out : Option Bytes)
    (size : Option UInt64) (hv : ∀ l, msg = some l → MessageValid l count) (ho : ∀ d sz, out = some d → size = some sz → sz.toNat ≤ d.length)
    (hfirst : ∀ l, msg = some l → ∀ g ∈ (l.take count.toNat).drop 1, g.NoNullList) (w : World) (hw : lib.fails w.calls = false) :
    RepliesAt lib Reply.err (bsslDigest lib ctx alg msg count out size) (DigestContract ctx alg msg count out size) (FailureEffects 0 out size) w := by
  cases ctx with
  | none => exact Replies.pure ⟨rfl, ⟨rfl, rfl⟩, fun h => by simp at h⟩ w
  | some u =>
    rcases alg_cases alg with ⟨a, rfl⟩ | ⟨h1, h2, h3⟩
    · unfold bsslDigest
      simp only [bsslMd_algId, bsslDigestSize_algId]
      cases size with
      | none => exact Replies.pure ⟨by simp only [documentedDigestError, documentedSize_algId], ⟨rfl, rfl⟩, fun h => by simp at h⟩ w
      | some sz =>
        cases out with
        | none =>
          exact Replies.pure ⟨by simp only [documentedDigestError, documentedSize_algId], ⟨rfl, (documentedSize_algId a).symm⟩, fun h => by simp at h⟩ w
        | some d =>
          simp only
          by_cases hsz : sz < UInt64.ofNat a.size
          · rw [if_pos hsz]
            exact Replies.pure ⟨by simp only [documentedDigestError, documentedSize_algId, if_pos hsz], ⟨rfl, (documentedSize_algId a).symm⟩, fun h => by simp at h⟩ w
          · rw [if_neg hsz]
            have hszle := size_le_of_not_lt a sz hsz
            have hd := ho d sz rfl rfl
            cases msg with
            | none =>
              exact Replies.pure ⟨by simp only [documentedDigestError, documentedSize_algId, if_neg hsz], ⟨rfl, rfl⟩, fun h => by simp at h⟩ w
            | some l =>
              have hmv := hv l rfl
              cases l with
              | nil => exact absurd rfl hmv.nonempty
              | cons g gs =>
                unfold bsslDigestMessage
                simp only
                by_cases hg : g.NoNullList
                · obtain ⟨hall, _⟩ := later_lists g gs count.toNat hg (hfirst _ rfl)
                  have hnl : ¬ (g.count ≠ 0 ∧ g.list = none) := fun h => h.1 (hg h.2)
                  rw [if_neg hnl]
                  obtain ⟨l1, l2⟩ := bsslLists_ok count.toNat (g :: gs) [] hmv.enough hmv.lists
                  have hstep : ∀ f : Bool → B Reply, (libCall lib >>= f) w = f true { w with calls := w.calls + 1 } := by
                    intro f
                    rw [bindB (a := !lib.fails w.calls) (w' := { w with calls := w.calls + 1 }) rfl, hw]
                    rfl
                  have key : Replies lib Reply.err (libCall lib >>= fun init =>
                      if init = false then pure ⟨.noResources, some d, some sz⟩ else liftB (bsslDigestRun a (g :: gs) count d sz))
                      (DigestContract (some u) (algId a) (some (g :: gs)) count (some d) (some sz)) (FailureEffects 0 (some d) (some sz)) := by
                    refine Replies.call ?_ fun w => ⟨_, rfl, FailureEffects.untouched _ _ _ _, .inl rfl⟩
                    rw [if_neg (by simp)]
                    unfold bsslDigestRun
                    by_cases hs : ∃ x ∈ (g :: gs).take count.toNat, ¬ x.NoNullSlice
                    · obtain ⟨acc', e⟩ := l1 hs
                      simp only [e, bind, Except.bind]
                      exact Replies.pure ⟨by simp only [documentedDigestError, documentedSize_algId, if_neg hsz, if_neg hall, if_pos hs], ⟨rfl, rfl⟩, fun h => by simp at h⟩
                    · have e := l2 fun x hx => Classical.byContradiction fun h => hs ⟨x, hx, h⟩
                      have e' : writeOut (some d) (sha2 a (messageOf (g :: gs) count)) = .ok (some (sha2 a (messageOf (g :: gs) count) ++ d.drop a.size)) := by
                        have := writeOut_ok d (sha2 a (messageOf (g :: gs) count)) (by rw [sha2_length]; omega)
                        rwa [sha2_length] at this
                      rw [List.nil_append] at e
                      change _ = Except.ok (N20Error.ok, messageOf (g :: gs) count) at e
                      simp only [e, bind, Except.bind, if_true, e']
                      refine Replies.pure ⟨by simp only [documentedDigestError, documentedSize_algId, if_neg hsz, if_neg hall, if_neg hs],
                        effects_ok a d _ _ (sha2_length _ _), fun _ b l' d' hb hl' hd' => ?_⟩
                      simp only [Option.some.injEq] at hl' hd'
                      subst hl' hd' 
                      rw [algId_inj hb]
                  obtain ⟨r, w', e, k1, k2, k3⟩ := key { w with calls := w.calls + 1 }
                  refine ⟨r, w', ?_, k1, by simp only at k2; omega, ?_⟩
                  · rw [hstep, if_neg (by simp)]
                    exact e
                  · rcases k3 with k3 | ⟨k3, k4⟩
                    · exact .inl k3
                    · exact .inr ⟨k3, k4.mono (Nat.le_succ _) (Nat.le_refl _)⟩
                · have hall : ∃ x ∈ (g :: gs).take (max 1 count.toNat), ¬ x.NoNullList := by
                    refine ⟨g, ?_, hg⟩
                    have : max 1 count.toNat = (max 1 count.toNat - 1) + 1 := by omega
                    rw [this, List.take_succ_cons]
                    simp
                  have hnl : g.count ≠ 0 ∧ g.list = none := by
                    unfold GatherList.NoNullList at hg
                    exact ⟨fun h => hg fun _ => h, Classical.byContradiction fun h => hg fun h' => absurd h' h⟩
                  rw [if_pos hnl]
                  exact Replies.pure ⟨by simp only [documentedDigestError, documentedSize_algId, if_neg hsz, if_pos hall], ⟨rfl, rfl⟩, fun h => by simp at h⟩ w
    · unfold bsslDigest
      simp only [bsslMd_none alg h1]
      exact Replies.pure ⟨by simp only [documentedDigestError, h1], ⟨rfl, rfl⟩, fun h => by simp at h⟩ w

/-- **C56** (violated).  The result of the allocation of the hash context is not checked: if it fails, NULL is dereferenced. -/
theorem C56_digest_unchecked_allocation (lib : Lib) (a : Alg) (g : GatherList) (gs : List GatherList) (hg : g.NoNullList) (count : UInt64) (d : Bytes)
    (sz : UInt64) (hsz : ¬ sz < UInt64.ofNat a.size) (w : World) (hw : lib.fails w.calls = true) :
    bsslDigest lib (some ()) (algId a) (some (g :: gs)) count (some d) (some sz) w = .error .nullDeref := by
  have hnl : ¬ (g.count ≠ 0 ∧ g.list = none) := fun h => h.1 (hg h.2)
  unfold bsslDigest
  simp only [bsslMd_algId, bsslDigestSize_algId]
  rw [if_neg hsz]
  unfold bsslDigestMessage
  simp only
  rw [if_neg hnl, bindB (a := !lib.fails w.calls) (w' := { w with calls := w.calls + 1 }) rfl, hw]
  rfl

/-- **C56** (violated).  Gather lists other than the first one that have elements at NULL are skipped; documented is an error.  This is so for every message. -/
theorem C56_digest_later_null_list (lib : Lib) (hlib : ∀ i, lib.fails i = false) (a : Alg) (g : GatherList) (gs : List GatherList) (count : UInt64)
    (hv : MessageValid (g :: gs) count) (hg : g.NoNullList) (hs : ∀ x ∈ (g :: gs).take count.toNat, x.NoNullSlice) (hnull : ∃ x ∈ (g :: gs).take count.toNat, ¬ x.NoNullList)
    (d : Bytes) (sz : UInt64) (hsz : ¬ sz < UInt64.ofNat a.size) (hd : sz.toNat ≤ d.length) (w : World) :
    ∃ w', bsslDigest lib (some ()) (algId a) (some (g :: gs)) count (some d) (some sz) w =
      .ok (⟨.ok, some (sha2 a (messageOf (g :: gs) count) ++ d.drop a.size), some (UInt64.ofNat a.size)⟩, w') ∧
    documentedDigestError (some ()) (algId a) (some (g :: gs)) count (some d) (some sz) = .nullList := by
  have hszle := size_le_of_not_lt a sz hsz
  have hnl : ¬ (g.count ≠ 0 ∧ g.list = none) := fun h => h.1 (hg h.2)
  obtain ⟨_, l2⟩ := bsslLists_ok count.toNat (g :: gs) [] hv.enough hv.lists
  have e := l2 hs
  have e' : writeOut (some d) (sha2 a (messageOf (g :: gs) count)) = .ok (some (sha2 a (messageOf (g :: gs) count) ++ d.drop a.size)) := by
    have := writeOut_ok d (sha2 a (messageOf (g :: gs) count)) (by rw [sha2_length]; omega)
    rwa [sha2_length] at this
  refine ⟨⟨w.calls + 1 + 1, w.heap⟩, ?_, ?_⟩
  · unfold bsslDigest
    simp only [bsslMd_algId, bsslDigestSize_algId]
    rw [if_neg hsz]
    unfold bsslDigestMessage
    simp only
    rw [if_neg hnl, bindB (a := !lib.fails w.calls) (w' := { w with calls := w.calls + 1 }) rfl, hlib, if_neg (by simp),
      bindB (a := !lib.fails (w.calls + 1)) (w' := ⟨w.calls + 1 + 1, w.heap⟩) rfl, hlib, if_neg (by simp)]
    apply liftB_ok
    unfold bsslDigestRun
    rw [e]
    simp only [bind, Except.bind, if_true, List.nil_append]
    have hm : (((g :: gs).take count.toNat).map GatherList.bytes).flatten = messageOf (g :: gs) count := by simp [messageOf]
    rw [hm, e']
  · have h : ∃ x ∈ (g :: gs).take (max 1 count.toNat), ¬ x.NoNullList := by
      obtain ⟨x, hx, hx'⟩ := hnull
      refine ⟨x, ?_, hx'⟩
      have h1 : count.toNat ≤ max 1 count.toNat := by omega
      exact (List.take_subset_take_left _ h1) hx
    simp only [documentedDigestError, documentedSize_algId, if_neg hsz, if_pos h]

/-- Non-vacuity: a list at NULL between two others. -/
example : MessageValid [⟨0, none⟩, ⟨1, none⟩, ⟨0, none⟩] 3 ∧ (GatherList.mk 0 none).NoNullList ∧ (∀ x ∈ [⟨0, none⟩, ⟨1, none⟩, ⟨0, none⟩].take (3 : UInt64).toNat, GatherList.NoNullSlice x) ∧
    ¬ (GatherList.mk 1 none).NoNullList := by
  refine ⟨⟨by simp, by decide, ?_⟩, fun _ => rfl, ?_, fun h => absurd (h rfl) (by decide)⟩
  · intro x hx
    have : x.list = none := by
      simp at hx
      rcases hx with h | h | h <;> rw [h]
    exact ⟨fun l hl => by simp [this] at hl, fun s hs => by simp [GatherList.slices, this] at hs⟩
  · intro x hx
    have : x.list = none := by
      simp at hx
      rcases hx with h | h | h <;> rw [h]
    exact fun s hs => by simp [GatherList.slices, this] at hs

/-! ## HMAC -/

/-- What the caller of `hmac` gets.  If the algorithm is unknown and the size pointer is NULL, too, the latter is reported. -/
def HmacContract (ctx : Option Unit) (alg : UInt32) (key : Slice) (msg : Option GatherList) (out : Option Bytes) (size : Option UInt64) (r : Reply) : Prop :=
  (r.err = documentedHmacError ctx alg key msg out size ∨
    (ctx ≠ none ∧ documentedSize alg = none ∧ size = none ∧ r.err = .nullSize)) ∧ CallEffects alg out size r ∧
    (r.err = .ok → ∀ a g d, alg = algId a → msg = some g → out = some d → r.out = some (hmac a key.bytes g.bytes ++ d.drop a.size))

/-- `HMAC_Final` and `HKDF_extract`: the value or, in case of a failure, anything in its place. -/
theorem replies_final (lib : Lib) (a : Alg) (v d : Bytes) (sz : UInt64) (hv : v.length = a.size) (hd : a.size ≤ d.length) :
    Replies lib Reply.err (libCall lib >>= fun final =>
      if final = false then libJunk lib a.size >>= fun junk => liftB (writeOut (some d) junk) >>= fun o => pure ⟨.implementationSpecific, o, some sz⟩
      else liftB (writeOut (some d) v) >>= fun o => pure ⟨.ok, o, some (UInt64.ofNat a.size)⟩)
      (fun r => r = ⟨.ok, some (v ++ d.drop a.size), some (UInt64.ofNat a.size)⟩) (FailureEffects a.size (some d) (some sz)) := by
  refine Replies.call ?_ fun w => ?_
  · rw [if_neg (by simp)]
    have := writeOut_ok d v (by omega)
    rw [hv] at this
    rw [bindLift this]
    exact Replies.pure rfl
  · have hj : ((List.range a.size).map (lib.junk (w.calls - 1))).length = a.size := by simp
    have := writeOut_ok d ((List.range a.size).map (lib.junk (w.calls - 1))) (by omega)
    rw [hj] at this
    refine ⟨_, ?_, FailureEffects.junk a.size d (some sz) .implementationSpecific _ hj hd, .inr rfl⟩
    rw [if_pos rfl, bindB (a := (List.range a.size).map (lib.junk (w.calls - 1))) (w' := w) rfl, bindLift this]
    rfl

theorem Replies.weaken {α : Type} {lib : Lib} {err : α → N20Error} {c : B α} {Q Q' F F' : α → Prop} (h : Replies lib err c Q F) (hq : ∀ r, Q r → Q' r)
    (hf : ∀ r, F r → F' r) : Replies lib err c Q' F' := by
  intro w
  obtain ⟨r, w', e, h1, h2, h3⟩ := h w
  refine ⟨r, w', e, h1, h2, ?_⟩
  rcases h3 with h3 | ⟨h3, h4⟩
  · exact .inl (hq r h3)
  · exact .inr ⟨hf r h3, h4⟩

/-- **C56** (hmac).  For all arguments and whatever library calls fail: the caller gets what is documented or is told of the failure. -/
theorem C56_hmac (lib : Lib) (ctx : Option Unit) (alg : UInt32) (key : Slice) (msg : Option GatherList) (out : Option Bytes) (size : Option UInt64)
    (hk : key.Valid) (hv : ∀ g, msg = some g → g.Valid) (ho : ∀ d sz, out = some d → size = some sz → sz.toNat ≤ d.length) :
    Replies lib Reply.err (bsslHmac lib ctx alg key msg out size) (HmacContract ctx alg key msg out size)
      (FailureEffects ((documentedSize alg).getD 0).toNat out size) := by
  cases ctx with
  | none => exact Replies.pure ⟨.inl rfl, ⟨rfl, rfl⟩, fun h => by simp at h⟩
  | some u =>
    cases size with
    | none =>
      refine Replies.pure ⟨?_, ⟨rfl, rfl⟩, fun h => by simp at h⟩
      cases h : documentedSize alg with
      | none => exact .inr ⟨by simp, rfl, rfl, rfl⟩
      | some n => left; simp only [documentedHmacError, h]
    | some sz =>
      refine Replies.call ?_ fun w => ⟨_, rfl, FailureEffects.untouched _ _ _ _, .inl rfl⟩
      rw [if_neg (by simp)]
      rcases alg_cases alg with ⟨a, rfl⟩ | ⟨h1, h2, h3⟩
      · simp only [bsslMd_algId, bsslDigestSize_algId]
        by_cases hkn : key.buffer = none ∧ key.size ≠ 0
        · rw [if_pos hkn]
          exact Replies.pure ⟨.inl (by simp only [documentedHmacError, documentedSize_algId, if_pos hkn]), ⟨rfl, rfl⟩, fun h => by simp at h⟩
        · rw [if_neg hkn]
          have hk0 : key.buffer = none → key.size = 0 := fun h => Classical.byContradiction fun h' => hkn ⟨h, h'⟩
          cases out with
          | none =>
            exact Replies.pure ⟨.inl (by simp only [documentedHmacError, documentedSize_algId, if_neg hkn]; rw [if_pos (.inl trivial)]),
              ⟨rfl, (documentedSize_algId a).symm⟩, fun h => by simp at h⟩
          | some d =>
            simp only
            by_cases hsz : sz < UInt64.ofNat a.size
            · rw [if_pos hsz]
              exact Replies.pure ⟨.inl (by simp only [documentedHmacError, documentedSize_algId, if_neg hkn]; rw [if_pos (.inr hsz)]),
                ⟨rfl, (documentedSize_algId a).symm⟩, fun h => by simp at h⟩
            · rw [if_neg hsz]
              have hszle := size_le_of_not_lt a sz hsz
              have hd := ho d sz rfl rfl
              have hor : ¬ ((some d : Option Bytes) = none ∨ sz < UInt64.ofNat a.size) := by
                rintro (h | h)
                · simp at h
                · exact hsz h
              cases msg with
              | none =>
                exact Replies.pure ⟨.inl (by simp only [documentedHmacError, documentedSize_algId, if_neg hkn, if_neg hor]), ⟨rfl, rfl⟩, fun h => by simp at h⟩
              | some g =>
                have hgv := hv g rfl
                unfold bsslHmacMessage
                simp only
                by_cases hl : g.NoNullList
                · have hnl : ¬ (g.count ≠ 0 ∧ g.list = none) := fun h => h.1 (hl h.2)
                  rw [if_neg hnl, bindLift (readArg_ok key hk hk0)]
                  refine Replies.call ?_ fun w => ⟨_, rfl, FailureEffects.untouched _ _ _ _, .inl rfl⟩
                  rw [if_neg (by simp)]
                  obtain ⟨s1, s2⟩ := bsslSlices_gather g hgv hl []
                  by_cases hs : g.NoNullSlice
                  · rw [bindLift (s2 hs), if_pos rfl]
                    unfold bsslHmacFinal
                    refine (replies_final lib a (hmac a key.bytes ([] ++ g.bytes)) d sz (hmac_length _ _ _) (by omega)).weaken ?_ ?_
                    · rintro r rfl
                      refine ⟨.inl (by simp only [documentedHmacError, documentedSize_algId, if_neg hkn, if_neg hor, if_neg (not_not_intro hl), if_neg (not_not_intro hs)]),
                        effects_ok a d _ _ (hmac_length _ _ _), fun _ b g' d' hb hg' hd' => ?_⟩
                      simp only [Option.some.injEq] at hg' hd'
                      subst hg' hd'
                      rw [algId_inj hb]
                      rfl
                    · intro r hr
                      rw [documentedSize_algId, Option.getD_some, ofNat_size]
                      exact hr
                  · obtain ⟨acc', e⟩ := s1 hs
                    rw [bindLift e, if_neg (by simp)]
                    exact Replies.pure ⟨.inl (by simp only [documentedHmacError, documentedSize_algId, if_neg hkn, if_neg hor, if_neg (not_not_intro hl), if_pos hs]),
                      ⟨rfl, rfl⟩, fun h => by simp at h⟩
                · have hnl : g.count ≠ 0 ∧ g.list = none := by
                    unfold GatherList.NoNullList at hl
                    exact ⟨fun h => hl fun _ => h, Classical.byContradiction fun h => hl fun h' => absurd h' h⟩
                  rw [if_pos hnl]
                  exact Replies.pure ⟨.inl (by simp only [documentedHmacError, documentedSize_algId, if_neg hkn, if_neg hor, if_pos hl]), ⟨rfl, rfl⟩, fun h => by simp at h⟩
      · simp only [bsslMd_none alg h1]
        exact Replies.pure ⟨.inl (by simp only [documentedHmacError, h1]), ⟨rfl, rfl⟩, fun h => by simp at h⟩

/-! ## HKDF -/

/-- What the caller of `hkdf_extract` gets. -/
def ExtractContract (ctx : Option Unit) (alg : UInt32) (ikm salt : Slice) (out : Option Bytes) (size : Option UInt64) (r : Reply) : Prop :=
  r.err = documentedExtractError ctx alg ikm salt out size ∧ CallEffects alg out size r ∧
    (r.err = .ok → ∀ a d, alg = algId a → out = some d → r.out = some (hkdfExtract a salt.bytes ikm.bytes ++ d.drop a.size))

theorem hkdfExtract_length (a : Alg) (salt ikm : Bytes) : (hkdfExtract a salt ikm).length = a.size := by unfold hkdfExtract; exact hmac_length _ _ _

/-- **C56** (extract). -/
theorem C56_extract (lib : Lib) (ctx : Option Unit) (alg : UInt32) (ikm salt : Slice) (out : Option Bytes) (size : Option UInt64)
    (hi : ikm.Valid) (hs : salt.Valid) (ho : ∀ d sz, out = some d → size = some sz → sz.toNat ≤ d.length) :
    Replies lib Reply.err (bsslExtract lib ctx alg ikm salt out size) (ExtractContract ctx alg ikm salt out size)
      (FailureEffects ((documentedSize alg).getD 0).toNat out size) := by
  cases ctx with
  | none => exact Replies.pure ⟨rfl, ⟨rfl, rfl⟩, fun h => by simp at h⟩
  | some u =>
    unfold bsslExtract
    rcases alg_cases alg with ⟨a, rfl⟩ | ⟨h1, h2, h3⟩
    · simp only [bsslMd_algId, bsslDigestSize_algId]
      by_cases hin : ikm.buffer = none ∧ ikm.size ≠ 0
      · rw [if_pos hin]
        exact Replies.pure ⟨by simp only [documentedExtractError, documentedSize_algId, if_pos hin], ⟨rfl, rfl⟩, fun h => by simp at h⟩
      rw [if_neg hin]
      by_cases hsn : salt.buffer = none ∧ salt.size ≠ 0
      · rw [if_pos hsn]
        exact Replies.pure ⟨by simp only [documentedExtractError, documentedSize_algId, if_neg hin, if_pos hsn], ⟨rfl, rfl⟩, fun h => by simp at h⟩
      rw [if_neg hsn]
      have hi0 : ikm.buffer = none → ikm.size = 0 := fun h => Classical.byContradiction fun h' => hin ⟨h, h'⟩
      have hs0 : salt.buffer = none → salt.size = 0 := fun h => Classical.byContradiction fun h' => hsn ⟨h, h'⟩
      cases size with
      | none =>
        exact Replies.pure ⟨by simp only [documentedExtractError, documentedSize_algId, if_neg hin, if_neg hsn], ⟨rfl, rfl⟩, fun h => by simp at h⟩
      | some sz =>
        cases out with
        | none =>
          exact Replies.pure ⟨by simp only [documentedExtractError, documentedSize_algId, if_neg hin, if_neg hsn]; rw [if_pos (.inl trivial)],
            ⟨rfl, (documentedSize_algId a).symm⟩, fun h => by simp at h⟩
        | some d =>
          simp only
          by_cases hsz : sz < UInt64.ofNat a.size
          · rw [if_pos hsz]
            exact Replies.pure ⟨by simp only [documentedExtractError, documentedSize_algId, if_neg hin, if_neg hsn]; rw [if_pos (.inr hsz)],
              ⟨rfl, (documentedSize_algId a).symm⟩, fun h => by simp at h⟩
          · have hszle := size_le_of_not_lt a sz hsz
            have hd := ho d sz rfl rfl
            rw [if_neg hsz, bindLift (readArg_ok ikm hi hi0), bindLift (readArg_ok salt hs hs0)]
            unfold bsslExtractOut
            refine (replies_final lib a (hkdfExtract a salt.bytes ikm.bytes) d sz (hkdfExtract_length _ _ _) (by omega)).weaken ?_ ?_
            · rintro r rfl
              refine ⟨?_, effects_ok a d _ _ (hkdfExtract_length _ _ _), fun _ b d' hb hd' => ?_⟩
              · simp only [documentedExtractError, documentedSize_algId, if_neg hin, if_neg hsn]
                rw [if_neg]
                rintro (h | h)
                · simp at h
                · exact hsz h
              · simp only [Option.some.injEq] at hd'
                subst hd'
                rw [algId_inj hb]
            · intro r hr
              rw [documentedSize_algId, Option.getD_some, ofNat_size]
              exact hr
    · simp only [bsslMd_none alg h1]
      exact Replies.pure ⟨by simp only [documentedExtractError, h1], ⟨rfl, rfl⟩, fun h => by simp at h⟩

/-- What the caller of `hkdf_expand` and `hkdf` gets; `prk` is the pseudorandom key for an algorithm.  More octets than RFC 5869 has
are an error, which leaves the output alone. -/
def ExpandContract (documented : N20Error) (alg : UInt32) (prk : Alg → Bytes) (info : Bytes) (L : UInt64) (out : Option Bytes)
    (r : N20Error × Option Bytes) : Prop :=
  (r.1 = documented ∧ ExpandEffects L out r ∧
    (r.1 = .ok → ∀ a, alg = algId a → ∃ okm, hkdfExpand a (prk a) info L.toNat = some okm ∧ ∀ d, out = some d → r.2 = some (okm ++ d.drop L.toNat))) ∨
  (documented = .ok ∧ r = (.implementationSpecific, out) ∧ ∃ a, alg = algId a ∧ 255 * a.size < L.toNat)

theorem hkdfExpand_length {a : Alg} {prk info okm : Bytes} {L : Nat} (h : hkdfExpand a prk info L = some okm) : okm.length = L := by
  unfold hkdfExpand at h
  split at h
  · simp only [Option.some.injEq] at h
    subst h
    exact okm_length a prk info L
  · simp at h

theorem replies_expandOut (lib : Lib) (a : Alg) (prk info : Bytes) (L : UInt64) (out : Option Bytes) (hn : out = none → L = 0)
    (ho : ∀ d, out = some d → L.toNat ≤ d.length) :
    Replies lib Prod.fst (bsslExpandOut lib a prk info L out)
      (fun r => (∃ okm, hkdfExpand a prk info L.toNat = some okm ∧ r = (.ok, out.map fun d => okm ++ d.drop L.toNat)) ∨
        (hkdfExpand a prk info L.toNat = none ∧ r = (.implementationSpecific, out)))
      (fun r => FailureEffects L.toNat out none ⟨r.1, r.2, none⟩) := by
  have hw : ∀ bs : Bytes, bs.length = L.toNat → writeOut out bs = .ok (out.map fun d => bs ++ d.drop L.toNat) := by
    intro bs hbs
    cases out with
    | none =>
      have : bs = [] := List.eq_nil_of_length_eq_zero (by rw [hbs, hn rfl]; rfl)
      subst this
      rfl
    | some d =>
      have := writeOut_ok d bs (by rw [hbs]; exact ho d rfl)
      rw [hbs] at this
      exact this
  have h0 : writeOut out [] = .ok out := by cases out <;> simp [writeOut]
  intro w
  unfold RepliesAt bsslExpandOut libExpand
  cases hf : lib.fails w.calls with
  | true =>
    have hj : ((List.range L.toNat).map (lib.junk (w.calls + 1 - 1))).length = L.toNat := by simp
    refine ⟨(.implementationSpecific, out.map fun d => (List.range L.toNat).map (lib.junk (w.calls + 1 - 1)) ++ d.drop L.toNat), { w with calls := w.calls + 1 },
      ?_, rfl, Nat.le_succ _, .inr ⟨?_, .inr rfl, w.calls, Nat.le_refl _, Nat.lt_succ_self _, hf⟩⟩
    · rw [bindB (a := .error ((List.range L.toNat).map (lib.junk (w.calls + 1 - 1)))) (w' := { w with calls := w.calls + 1 })]
      · simp only
        rw [bindLift (hw _ hj)]
        rfl
      · rw [bindB (a := false) (w' := { w with calls := w.calls + 1 })]
        · rfl
        · unfold libCall; rw [hf]; rfl
    · cases out with
      | none => exact ⟨rfl, fun _ => rfl, fun d hd => by simp at hd⟩
      | some d => exact FailureEffects.junk _ d none _ _ hj (ho d rfl)
  | false =>
    have hc : libCall lib w = .ok (true, { w with calls := w.calls + 1 }) := by unfold libCall; rw [hf]; rfl
    cases he : hkdfExpand a prk info L.toNat with
    | none =>
      refine ⟨_, { w with calls := w.calls + 1 }, ?_, rfl, Nat.le_succ _, .inl (.inr ⟨rfl, rfl⟩)⟩
      rw [bindB (a := .error []) (w' := { w with calls := w.calls + 1 })]
      · simp only
        rw [bindLift h0]
        rfl
      · rw [bindB hc]
        rfl
    | some okm =>
      refine ⟨_, { w with calls := w.calls + 1 }, ?_, rfl, Nat.le_succ _, .inl (.inl ⟨okm, rfl, rfl⟩)⟩
      rw [bindB (a := .ok okm) (w' := { w with calls := w.calls + 1 })]
      · simp only
        rw [bindLift (hw _ (hkdfExpand_length he))]
        rfl
      · rw [bindB hc]
        rfl

theorem expandContract_of (a : Alg) (prk : Alg → Bytes) (info : Bytes) (L : UInt64) (out : Option Bytes) (r : N20Error × Option Bytes)
    (h : (∃ okm, hkdfExpand a (prk a) info L.toNat = some okm ∧ r = (.ok, out.map fun d => okm ++ d.drop L.toNat)) ∨
        (hkdfExpand a (prk a) info L.toNat = none ∧ r = (.implementationSpecific, out))) : ExpandContract .ok (algId a) prk info L out r := by
  rcases h with ⟨okm, h1, rfl⟩ | ⟨h1, rfl⟩
  · refine .inl ⟨rfl, ⟨fun h => by subst h; rfl, fun d hd => ⟨okm, by subst hd; rfl, hkdfExpand_length h1⟩⟩, fun _ b hb => ?_⟩
    rw [← algId_inj hb]
    exact ⟨okm, h1, fun d hd => by subst hd; rfl⟩
  · refine .inr ⟨rfl, rfl, a, rfl, ?_⟩
    unfold hkdfExpand at h1
    split at h1
    · simp at h1
    · omega

/-- **C56** (expand). -/
theorem C56_expand (lib : Lib) (ctx : Option Unit) (alg : UInt32) (prk info : Slice) (L : UInt64) (out : Option Bytes) (hp : prk.Valid) (hi : info.Valid)
    (ho : ∀ d, out = some d → L.toNat ≤ d.length) :
    Replies lib Prod.fst (bsslExpand lib ctx alg prk info L out)
      (ExpandContract (documentedExpandError ctx alg prk info L out) alg (fun _ => prk.bytes) info.bytes L out)
      (fun r => FailureEffects L.toNat out none ⟨r.1, r.2, none⟩) := by
  cases ctx with
  | none => exact Replies.pure (.inl ⟨rfl, rfl, fun h => by simp at h⟩)
  | some u =>
    have hu : (some u : Option Unit) ≠ none := by simp
    unfold bsslExpand
    rcases alg_cases alg with ⟨a, rfl⟩ | ⟨h1, h2, h3⟩
    · have h1' : documentedSize (algId a) ≠ none := by rw [documentedSize_algId]; simp
      simp only [bsslMd_algId]
      by_cases hpn : prk.buffer = none ∧ prk.size ≠ 0
      · rw [if_pos hpn]
        exact Replies.pure (.inl ⟨by simp only [documentedExpandError, if_neg hu, if_neg h1', if_pos hpn], rfl, fun h => by simp at h⟩)
      rw [if_neg hpn]
      by_cases hin : info.buffer = none ∧ info.size ≠ 0
      · rw [if_pos hin]
        exact Replies.pure (.inl ⟨by simp only [documentedExpandError, if_neg hu, if_neg h1', if_neg hpn, if_pos hin], rfl, fun h => by simp at h⟩)
      rw [if_neg hin]
      have hp0 : prk.buffer = none → prk.size = 0 := fun h => Classical.byContradiction fun h' => hpn ⟨h, h'⟩
      have hi0 : info.buffer = none → info.size = 0 := fun h => Classical.byContradiction fun h' => hin ⟨h, h'⟩
      by_cases hL : L = 0
      · rw [if_pos hL]
        have hdoc : documentedExpandError (some u) (algId a) prk info L out = .ok := by
          simp only [documentedExpandError, if_neg hu, if_neg h1', if_neg hpn, if_neg hin]
          rw [if_neg (fun h => h.2 hL)]
        have hL0 : L.toNat = 0 := by rw [hL]; rfl
        have he : hkdfExpand a prk.bytes info.bytes L.toNat = some [] := by
          unfold hkdfExpand
          rw [hL0, if_pos (Nat.zero_le _)]
          rfl
        rw [hdoc]
        refine Replies.pure (expandContract_of a (fun _ => prk.bytes) info.bytes L out _ (.inl ⟨[], he, ?_⟩))
        rw [hL0]
        cases out <;> rfl
      · rw [if_neg hL]
        by_cases hon : out = none
        · rw [if_pos hon]
          refine Replies.pure (.inl ⟨?_, rfl, fun h => by simp at h⟩)
          simp only [documentedExpandError, if_neg hu, if_neg h1', if_neg hpn, if_neg hin]
          rw [if_pos ⟨hon, hL⟩]
        · have hdoc : documentedExpandError (some u) (algId a) prk info L out = .ok := by
            simp only [documentedExpandError, if_neg hu, if_neg h1', if_neg hpn, if_neg hin]
            rw [if_neg (fun h => hon h.1)]
          rw [if_neg hon, bindLift (readArg_ok prk hp hp0), bindLift (readArg_ok info hi hi0), hdoc]
          exact (replies_expandOut lib a prk.bytes info.bytes L out (fun h => absurd h hon) ho).weaken
            (expandContract_of a (fun _ => prk.bytes) info.bytes L out) (fun _ h => h)
    · simp only [bsslMd_none alg h1]
      refine Replies.pure (.inl ⟨?_, rfl, fun h => by simp at h⟩)
      simp only [documentedExpandError, if_neg hu, if_pos h1]

/-- **C56** (HKDF). -/
theorem C56_hkdf (lib : Lib) (ctx : Option Unit) (alg : UInt32) (ikm salt info : Slice) (L : UInt64) (out : Option Bytes) (hk : ikm.Valid) (hs : salt.Valid)
    (hi : info.Valid) (ho : ∀ d, out = some d → L.toNat ≤ d.length) :
    Replies lib Prod.fst (bsslHkdf lib ctx alg ikm salt info L out)
      (ExpandContract (documentedHkdfError ctx alg ikm salt info L out) alg (fun a => hkdfExtract a salt.bytes ikm.bytes) info.bytes L out)
      (fun r => FailureEffects L.toNat out none ⟨r.1, r.2, none⟩) := by
  cases ctx with
  | none => exact Replies.pure (.inl ⟨rfl, rfl, fun h => by simp at h⟩)
  | some u =>
    have hu : (some u : Option Unit) ≠ none := by simp
    unfold bsslHkdf
    rcases alg_cases alg with ⟨a, rfl⟩ | ⟨h1, h2, h3⟩
    · have h1' : documentedSize (algId a) ≠ none := by rw [documentedSize_algId]; simp
      simp only [bsslMd_algId]
      by_cases hkn : ikm.buffer = none ∧ ikm.size ≠ 0
      · rw [if_pos hkn]
        exact Replies.pure (.inl ⟨by simp only [documentedHkdfError, if_neg hu, if_neg h1', if_pos hkn], rfl, fun h => by simp at h⟩)
      rw [if_neg hkn]
      by_cases hsn : salt.buffer = none ∧ salt.size ≠ 0
      · rw [if_pos hsn]
        exact Replies.pure (.inl ⟨by simp only [documentedHkdfError, if_neg hu, if_neg h1', if_neg hkn, if_pos hsn], rfl, fun h => by simp at h⟩)
      rw [if_neg hsn]
      by_cases hin : info.buffer = none ∧ info.size ≠ 0
      · rw [if_pos hin]
        exact Replies.pure (.inl ⟨by simp only [documentedHkdfError, if_neg hu, if_neg h1', if_neg hkn, if_neg hsn, if_pos hin], rfl, fun h => by simp at h⟩)
      rw [if_neg hin]
      have hk0 : ikm.buffer = none → ikm.size = 0 := fun h => Classical.byContradiction fun h' => hkn ⟨h, h'⟩
      have hs0 : salt.buffer = none → salt.size = 0 := fun h => Classical.byContradiction fun h' => hsn ⟨h, h'⟩
      have hi0 : info.buffer = none → info.size = 0 := fun h => Classical.byContradiction fun h' => hin ⟨h, h'⟩
      by_cases hon : L ≠ 0 ∧ out = none
      · rw [if_pos hon]
        refine Replies.pure (.inl ⟨?_, rfl, fun h => by simp at h⟩)
        simp only [documentedHkdfError, if_neg hu, if_neg h1', if_neg hkn, if_neg hsn, if_neg hin]
        rw [if_pos hon.symm]
      · have hdoc : documentedHkdfError (some u) (algId a) ikm salt info L out = .ok := by
          simp only [documentedHkdfError, if_neg hu, if_neg h1', if_neg hkn, if_neg hsn, if_neg hin]
          rw [if_neg (fun h => hon h.symm)]
        rw [if_neg hon, bindLift (readArg_ok ikm hk hk0), bindLift (readArg_ok salt hs hs0), bindLift (readArg_ok info hi hi0), hdoc]
        exact (replies_expandOut lib a (hkdfExtract a salt.bytes ikm.bytes) info.bytes L out (fun h => Classical.byContradiction fun h' => hon ⟨h', h⟩) ho).weaken
          (expandContract_of a (fun a => hkdfExtract a salt.bytes ikm.bytes) info.bytes L out) (fun _ h => h)
    · simp only [bsslMd_none alg h1]
      refine Replies.pure (.inl ⟨?_, rfl, fun h => by simp at h⟩)
      simp only [documentedHkdfError, if_neg hu, if_pos h1]

/-! ## Agreement with the native context -/

theorem digestLists_noNull (alg : UInt32) (n : Nat) : ∀ (l : List GatherList) (st st' : DigestState), digestLists alg n l st = .ok (.ok, st') →
    ∀ g ∈ l.take n, g.NoNullList := by
  induction n with
  | zero => intro l st st' _ g hg; simp at hg
  | succ n ih =>
    intro l st st' h g hg
    cases l with
    | nil => simp at hg
    | cons x rest =>
      rw [digestLists] at h
      cases hx : digestGather alg x st with
      | error e => rw [hx] at h; simp [bind, Except.bind] at h
      | ok r =>
        rw [hx] at h
        simp only [bind, Except.bind] at h
        split at h
        · rw [List.take_succ_cons] at hg
          rcases List.mem_cons.1 hg with rfl | hg
          · intro hl
            unfold digestGather at hx
            rw [hl] at hx
            simp only at hx
            exact Classical.byContradiction fun h0 => by rw [if_neg h0] at hx; simp at hx
          · exact ih rest _ _ h g hg
        · simp only [Except.ok.injEq] at h
          rename_i h1
          rw [h] at h1
          exact absurd rfl h1

/-- What the native `digest` accepts: a known algorithm, a size, output memory that is large enough, and a message without lists at NULL. -/
theorem nat20_digest_accepts (alg : UInt32) (msg : Option (List GatherList)) (count : UInt64) (out : Option Bytes) (size : Option UInt64) (r : Reply)
    (hr : nat20Ctx.digest alg msg count out size = .ok r) (hok : r.err = .ok) :
    ∀ l, msg = some l → ∀ g ∈ l.take count.toNat, g.NoNullList := by
  rintro l rfl
  change digestInternal DigestState.zero alg (some l) count out size = .ok r at hr
  unfold digestInternal at hr
  cases hi : digestInit DigestState.zero alg with
  | none =>
    rw [hi] at hr
    simp only [Except.ok.injEq] at hr
    subst hr
    simp at hok
  | some st =>
    rw [hi] at hr
    cases size with
    | none =>
      simp only [Except.ok.injEq] at hr
      subst hr
      simp at hok
    | some sz =>
      simp only at hr
      split at hr
      · simp only [Except.ok.injEq] at hr
        subst hr
        simp at hok
      · unfold digestMessage at hr
        cases l with
        | nil => simp at hr
        | cons g gs =>
          simp only at hr
          split at hr
          · simp only [Except.ok.injEq] at hr
            subst hr
            simp at hok
          · cases hd : digestLists alg count.toNat (g :: gs) st with
            | error e => rw [hd] at hr; simp [bind, Except.bind] at hr
            | ok x =>
              rw [hd] at hr
              simp only [bind, Except.bind] at hr
              obtain ⟨x1, x2⟩ := x
              by_cases hx : x1 = .ok
              · subst hx
                exact digestLists_noNull alg count.toNat (g :: gs) st x2 hd
              · simp only [if_neg hx, Except.ok.injEq] at hr
                subst hr
                exact absurd hok hx

/-- Two replies to the same call with the same value. -/
theorem reply_unique {alg : UInt32} {out : Option Bytes} {size : Option UInt64} {r r' : Reply} (h : r.err = .ok) (h' : r'.err = .ok)
    (c : CallEffects alg out size r) (c' : CallEffects alg out size r') (ho : r.out = r'.out) : r = r' := by
  unfold CallEffects at c c'
  rw [h] at c
  rw [h'] at c'
  obtain ⟨n, _, _, e1, _, _, _, e2⟩ := c
  obtain ⟨n', _, _, e1', _, _, _, e2'⟩ := c'
  rw [e1] at e1'
  simp only [Option.some.injEq] at e1'
  subst e1'
  obtain ⟨a, b, c⟩ := r
  obtain ⟨a', b', c'⟩ := r'
  simp only at h h' ho e2 e2'
  rw [h, h', ho, e2, e2']

theorem digest_ok_args {alg : UInt32} {out : Option Bytes} {size : Option UInt64} {r : Reply} (h : r.err = .ok) (c : CallEffects alg out size r) :
    ∃ a d, alg = algId a ∧ out = some d := by
  unfold CallEffects at c
  rw [h] at c
  obtain ⟨n, d, _, e1, e2, _⟩ := c
  rcases alg_cases alg with ⟨a, rfl⟩ | ⟨h1, _⟩
  · exact ⟨a, d, rfl, e2⟩
  · rw [h1] at e1; simp at e1

/-- **C46** (digest).  Whatever the native `digest` accepts, the reference `digest` answers in exactly the same way, unless a call of
the library fails.  (If the first one does, see `C56_digest_unchecked_allocation`.) -/
theorem C46_digest (lib : Lib) (alg : UInt32) (msg : Option (List GatherList)) (count : UInt64) (out : Option Bytes) (size : Option UInt64)
    (hv : ∀ l, msg = some l → MessageValid l count ∧ (messageOf l count).length < 2 ^ 61)
    (ho : ∀ d sz, out = some d → size = some sz → sz.toNat ≤ d.length) (r : Reply)
    (hr : nat20Ctx.digest alg msg count out size = .ok r) (hok : r.err = .ok) (w : World) (hw : lib.fails w.calls = false) :
    ∃ r' w', bsslDigest lib (some ()) alg msg count out size w = .ok (r', w') ∧ (r' = r ∨ LibFailure lib w w' r'.err) := by
  have hn := nat20_digest_accepts alg msg count out size r hr hok
  have hfirst : ∀ l, msg = some l → ∀ g ∈ (l.take count.toNat).drop 1, g.NoNullList := fun l hl g hg => hn l hl g (List.mem_of_mem_drop hg)
  obtain ⟨r0, e0, d0, c0⟩ := C41_digest_contract_partial (some ()) alg msg count out size hv ho hfirst
  have : r0 = r := by
    have : Except.ok r0 = (Except.ok r : Except UB Reply) := e0.symm.trans hr
    simpa using this
  subst this
  obtain ⟨r', w', e, _, _, h⟩ := C56_digest_partial lib (some ()) alg msg count out size (fun l hl => (hv l hl).1) ho hfirst w hw
  refine ⟨r', w', e, ?_⟩
  rcases h with ⟨d1, c1, v1⟩ | ⟨_, h⟩
  · left
    have hok' : r'.err = .ok := by rw [d1, ← d0, hok]
    obtain ⟨a, d, rfl, rfl⟩ := digest_ok_args hok c0
    cases msg with
    | none =>
      rw [hok] at d0
      simp only [documentedDigestError, documentedSize_algId] at d0
      cases size with
      | none => simp at d0
      | some sz => simp only at d0; split at d0 <;> simp at d0
    | some l =>
      refine reply_unique hok' hok c1 c0 ?_
      rw [v1 hok' a l d rfl rfl rfl]
      cases size with
      | none => rw [hok] at d0; simp [documentedDigestError, documentedSize_algId] at d0
      | some sz =>
        rw [hok] at d0
        simp only [documentedDigestError, documentedSize_algId] at d0
        split at d0
        · simp at d0
        rename_i hsz
        split at d0
        · simp at d0
        rename_i hall
        split at d0
        · simp at d0
        rename_i hs
        have := C40_digest a l count (hv l rfl).1 ⟨fun g hg => ?_, fun g hg => ⟨hn l rfl g hg, Classical.byContradiction fun h => hs ⟨g, hg, h⟩⟩⟩ (hv l rfl).2 d sz
          (size_le_of_not_lt a sz hsz) (ho d sz rfl rfl)
        · rw [this] at hr
          simp only [Except.ok.injEq] at hr
          rw [← hr]
        · cases l with
          | nil => simp at hg
          | cons x xs =>
            simp at hg
            subst hg
            refine Classical.byContradiction fun h => hall ⟨x, ?_, h⟩
            rw [show max 1 count.toNat = (max 1 count.toNat - 1) + 1 by omega, List.take_succ_cons]
            simp
  · exact .inr h

theorem Slice.eq_null {s : Slice} (h : s.buffer = none) (h0 : s.size = 0) : s = Slice.null := by
  obtain ⟨n, b⟩ := s
  simp only at h h0
  subst h h0
  rfl

/-- The native `hmac` does not accept a key at NULL. -/
theorem nat20_hmac_key (alg : UInt32) (key : Slice) (msg : Option GatherList) (out : Option Bytes) (size : Option UInt64) (r : Reply)
    (hr : nat20Ctx.hmac alg key msg out size = .ok r) (hok : r.err = .ok) : key.buffer ≠ none := by
  intro hb
  have hr' := hr
  change hmacInternal nat20Ctx.digest (List.replicate 128 0) (List.replicate 64 0) alg key msg out size = .ok r at hr'
  rcases alg_cases alg with ⟨a, rfl⟩ | ⟨h1, h2, h3⟩
  · have h1 : digestEnumToSize (algId a) ≠ 0 := by cases a <;> decide
    simp only [hmacInternal, if_neg h1] at hr'
    cases size with
    | none =>
      simp only [Except.ok.injEq] at hr'
      subst hr'
      simp at hok
    | some sz =>
      simp only at hr'
      split at hr'
      · simp only [Except.ok.injEq] at hr'
        subst hr'
        simp at hok
      · rename_i hk
        split at hr'
        · simp only [Except.ok.injEq] at hr'
          subst hr'
          simp at hok
        · rename_i hsz
          have hkey := Slice.eq_null hb (Classical.byContradiction fun h => hk ⟨hb, h⟩)
          subst hkey
          cases out with
          | none => exact hsz (.inl rfl)
          | some d =>
            rw [C42_empty_null_key a msg d sz (fun h => hsz (.inr (by rw [digestEnumToSize_algId]; exact h)))] at hr
            simp at hr
  · simp only [hmacInternal, if_pos h2, Except.ok.injEq] at hr'
    subst hr'
    simp at hok

/-- The native `hkdf_extract` does not accept a salt at NULL. -/
theorem nat20_extract_salt (alg : UInt32) (ikm salt : Slice) (out : Option Bytes) (size : Option UInt64) (r : Reply)
    (hr : nat20Ctx.hkdfExtract alg ikm salt out size = .ok r) (hok : r.err = .ok) : salt.buffer ≠ none := by
  change n20HkdfExtract (some nat20Ctx.hmac) alg ikm salt out size = .ok r at hr
  simp only [n20HkdfExtract] at hr
  repeat' split at hr
  all_goals first
    | (simp only [Except.ok.injEq] at hr; subst hr; simp at hok; done)
    | exact nat20_hmac_key _ _ _ _ _ _ hr hok

/-- The native `hkdf_expand` does not accept a pseudorandom key at NULL, unless no octets are asked for. -/
theorem nat20_expand_prk (alg : UInt32) (prk info : Slice) (L : UInt64) (out : Option Bytes) (r : N20Error × Option Bytes)
    (hr : nat20Ctx.hkdfExpand alg prk info L out = .ok r) (hok : r.1 = .ok) (hL : L ≠ 0) : prk.buffer ≠ none := by
  intro hb
  change n20HkdfExpand (some nat20Ctx.hmac) alg prk info L out = .ok r at hr
  rcases alg_cases alg with ⟨a, rfl⟩ | ⟨h1, h2, h3⟩
  · have h1 : digestEnumToSize (algId a) ≠ 0 := by cases a <;> decide
    simp only [n20HkdfExpand, if_neg h1, if_neg hL] at hr
    split at hr
    · simp only [Except.ok.injEq] at hr
      subst hr
      simp at hok
    rename_i hp
    have hkey := Slice.eq_null hb (Classical.byContradiction fun h => hp ⟨hb, h⟩)
    subst hkey
    split at hr
    · simp only [Except.ok.injEq] at hr
      subst hr
      simp at hok
    cases out with
    | none =>
      simp only [Except.ok.injEq] at hr
      subst hr
      simp at hok
    | some mem =>
      simp only at hr
      have hub : ∀ msg d, nat20Ctx.hmac (algId a) Slice.null msg (some d) (some (digestEnumToSize (algId a))) = .error .nullMemcpy :=
        fun msg d => C42_empty_null_key a msg d _ (by rw [digestEnumToSize_algId]; exact UInt64.lt_irrefl _)
      rw [expandLoop] at hr
      split at hr
      · simp only [expandStep, hub, bind, Except.bind] at hr
        simp at hr
      · have hpos : L > 0 := by
          have h : L.toNat ≠ 0 := fun h => hL (UInt64.toNat_inj.1 (by simpa using h))
          exact UInt64.lt_iff_toNat_lt.2 (by simpa using Nat.pos_of_ne_zero h)
        simp only [bind, Except.bind, expandRest, if_pos hpos, hub] at hr
        simp at hr
  · simp only [n20HkdfExpand, if_pos h2, Except.ok.injEq] at hr
    subst hr
    simp at hok

theorem hkdf_extract_reply (alg : UInt32) (ikm salt info : Slice) (L : UInt64) (out : Option Bytes) (r : N20Error × Option Bytes)
    (hr : nat20Ctx.hkdf alg ikm salt info L out = .ok r) (hok : r.1 = .ok) : salt.buffer ≠ none := by
  change n20Hkdf (some (nat20Ctx.hkdfExtract, nat20Ctx.hkdfExpand)) alg ikm salt info L out = .ok r at hr
  simp only [n20Hkdf] at hr
  split at hr
  · simp only [Except.ok.injEq] at hr; subst hr; simp at hok
  split at hr
  · simp only [Except.ok.injEq] at hr; subst hr; simp at hok
  split at hr
  · simp only [Except.ok.injEq] at hr; subst hr; simp at hok
  split at hr
  · simp only [Except.ok.injEq] at hr; subst hr; simp at hok
  cases he : nat20Ctx.hkdfExtract alg ikm salt (some (List.replicate 64 0)) (some (digestEnumToSize alg)) with
  | error e => rw [he] at hr; simp [bind, Except.bind] at hr
  | ok x =>
    by_cases hx : x.err = .ok
    · exact nat20_extract_salt _ _ _ _ _ _ he hx
    · rw [he] at hr
      simp only [bind, Except.bind, if_neg hx, Except.ok.injEq] at hr
      subst hr
      exact absurd hok hx

/-- **C46** (hmac).  Whatever the native `hmac` accepts, the reference `hmac` answers in exactly the same way, unless a call of the library fails. -/
theorem C46_hmac (lib : Lib) (alg : UInt32) (key : Slice) (msg : Option GatherList) (out : Option Bytes) (size : Option UInt64)
    (hk : key.Valid) (hkl : key.bytes.length < 2 ^ 61) (hv : ∀ g, msg = some g → g.Valid ∧ 128 + g.bytes.length < 2 ^ 61)
    (ho : ∀ d sz, out = some d → size = some sz → sz.toNat ≤ d.length) (r : Reply)
    (hr : nat20Ctx.hmac alg key msg out size = .ok r) (hok : r.err = .ok) (w : World) :
    ∃ r' w', bsslHmac lib (some ()) alg key msg out size w = .ok (r', w') ∧ (r' = r ∨ LibFailure lib w w' r'.err) := by
  have hkb := nat20_hmac_key alg key msg out size r hr hok
  obtain ⟨r0, e0, d0, c0⟩ := C43_hmac_contract_partial (some ()) alg key msg out size hk hkl (fun h => absurd h hkb) hv ho
  have : r0 = r := by
    have : Except.ok r0 = (Except.ok r : Except UB Reply) := e0.symm.trans hr
    simpa using this
  subst this
  obtain ⟨r', w', e, _, _, h⟩ := C56_hmac lib (some ()) alg key msg out size hk (fun l hl => (hv l hl).1) ho w
  refine ⟨r', w', e, ?_⟩
  rcases h with ⟨d1, c1, v1⟩ | ⟨_, h⟩
  · left
    obtain ⟨a, d, rfl, rfl⟩ := digest_ok_args hok c0
    have hok' : r'.err = .ok := by
      rcases d1 with d1 | ⟨_, d1, _⟩
      · rw [d1, ← d0, hok]
      · rw [documentedSize_algId] at d1; simp at d1
    rw [hok] at d0
    cases size with
    | none => simp [documentedHmacError, documentedSize_algId] at d0
    | some sz =>
      simp only [documentedHmacError, documentedSize_algId] at d0
      split at d0
      · simp at d0
      split at d0
      · simp at d0
      rename_i hsz
      cases msg with
      | none => simp at d0
      | some g =>
        simp only at d0
        split at d0
        · simp at d0
        rename_i hl
        split at d0
        · simp at d0
        rename_i hs
        refine reply_unique hok' hok c1 c0 ?_
        rw [v1 hok' a g d rfl rfl rfl]
        have := C42_hmac_partial a key hk hkb hkl g (hv g rfl).1 (Classical.not_not.1 hl) (Classical.not_not.1 hs)
          (by have := block_le_128 a; have := (hv g rfl).2; omega) d sz (size_le_of_not_lt a sz fun h => hsz (.inr h)) (ho d sz rfl rfl)
        rw [this] at hr
        simp only [Except.ok.injEq] at hr
        rw [← hr]
  · exact .inr h

/-- **C46** (extract). -/
theorem C46_extract (lib : Lib) (alg : UInt32) (ikm salt : Slice) (out : Option Bytes) (size : Option UInt64)
    (hi : ikm.Valid) (hil : 128 + ikm.bytes.length < 2 ^ 61) (hs : salt.Valid) (hsl : salt.bytes.length < 2 ^ 61)
    (ho : ∀ d sz, out = some d → size = some sz → sz.toNat ≤ d.length) (r : Reply)
    (hr : nat20Ctx.hkdfExtract alg ikm salt out size = .ok r) (hok : r.err = .ok) (w : World) :
    ∃ r' w', bsslExtract lib (some ()) alg ikm salt out size w = .ok (r', w') ∧ (r' = r ∨ LibFailure lib w w' r'.err) := by
  have hsb := nat20_extract_salt alg ikm salt out size r hr hok
  obtain ⟨r0, e0, d0, c0⟩ := C45_extract_contract_partial (some ()) alg ikm salt out size hi hil hs hsl (fun h => absurd h hsb) ho
  have : r0 = r := by
    have : Except.ok r0 = (Except.ok r : Except UB Reply) := e0.symm.trans hr
    simpa using this
  subst this
  obtain ⟨r', w', e, _, _, h⟩ := C56_extract lib (some ()) alg ikm salt out size hi hs ho w
  refine ⟨r', w', e, ?_⟩
  rcases h with ⟨d1, c1, v1⟩ | ⟨_, h⟩
  · left
    have hok' : r'.err = .ok := by rw [d1, ← d0, hok]
    obtain ⟨a, d, rfl, rfl⟩ := digest_ok_args hok c0
    rw [hok] at d0
    simp only [documentedExtractError, documentedSize_algId] at d0
    split at d0
    · simp at d0
    rename_i hin
    split at d0
    · simp at d0
    cases size with
    | none => simp at d0
    | some sz =>
      simp only at d0
      split at d0
      · simp at d0
      rename_i hsz
      refine reply_unique hok' hok c1 c0 ?_
      rw [v1 hok' a d rfl rfl]
      have := C44_extract_partial a ikm salt hi (fun h => Classical.byContradiction fun h' => hin ⟨h, h'⟩) hs hsb hsl hil d sz
        (size_le_of_not_lt a sz fun h => hsz (.inr h)) (ho d sz rfl rfl)
      rw [this] at hr
      simp only [Except.ok.injEq] at hr
      rw [← hr]
  · exact .inr h

/-- **C46** (expand).  Here the reference context accepts less: no more octets than RFC 5869 has. -/
theorem C46_expand (lib : Lib) (alg : UInt32) (prk info : Slice) (L : UInt64) (out : Option Bytes)
    (hp : prk.Valid) (hpl : prk.bytes.length < 2 ^ 61) (hi : info.Valid) (hil : 256 + info.bytes.length < 2 ^ 61)
    (ho : ∀ d, out = some d → L.toNat ≤ d.length) (r : N20Error × Option Bytes)
    (hr : nat20Ctx.hkdfExpand alg prk info L out = .ok r) (hok : r.1 = .ok) (w : World) :
    ∃ r' w', bsslExpand lib (some ()) alg prk info L out w = .ok (r', w') ∧
      (r' = r ∨ LibFailure lib w w' r'.1 ∨ (r' = (.implementationSpecific, out) ∧ ∃ a, alg = algId a ∧ 255 * a.size < L.toNat)) := by
  by_cases hL : L = 0
  · have hr' := hr
    change n20HkdfExpand (some nat20Ctx.hmac) alg prk info L out = .ok r at hr'
    rcases alg_cases alg with ⟨a, rfl⟩ | ⟨h1, h2, h3⟩
    · have h1 : digestEnumToSize (algId a) ≠ 0 := by cases a <;> decide
      simp only [n20HkdfExpand, if_neg h1, if_pos hL] at hr'
      split at hr'
      · simp only [Except.ok.injEq] at hr'; subst hr'; simp at hok
      rename_i hpn
      split at hr'
      · simp only [Except.ok.injEq] at hr'; subst hr'; simp at hok
      rename_i hin
      simp only [Except.ok.injEq] at hr'
      refine ⟨r, w, ?_, .inl rfl⟩
      unfold bsslExpand
      simp only [bsslMd_algId]
      rw [if_neg hpn, if_neg hin, if_pos hL, ← hr']
      rfl
    · simp only [n20HkdfExpand, if_pos h2, Except.ok.injEq] at hr'
      subst hr'
      simp at hok
  have hpb := nat20_expand_prk alg prk info L out r hr hok hL
  obtain ⟨r0, e0, d0, c0⟩ := C45_expand_contract_partial (some ()) alg prk info L out hp hpl (fun h => absurd h hpb) hi hil ho
  have : r0 = r := by
    have : Except.ok r0 = (Except.ok r : Except UB _) := e0.symm.trans hr
    simpa using this
  subst this
  obtain ⟨r', w', e, _, _, h⟩ := C56_expand lib (some ()) alg prk info L out hp hi ho w
  refine ⟨r', w', e, ?_⟩
  rcases h with (⟨d1, c1, v1⟩ | ⟨h1, h2, h3⟩) | ⟨_, h⟩
  · left
    have hok' : r'.1 = .ok := by rw [d1, ← d0, hok]
    rw [hok] at d0
    unfold documentedExpandError at d0
    rw [if_neg (by simp)] at d0
    split at d0
    · simp at d0
    rename_i hsz
    split at d0
    · simp at d0
    split at d0
    · simp at d0
    rename_i hin
    split at d0
    · simp at d0
    rename_i hon
    rcases alg_cases alg with ⟨a, rfl⟩ | ⟨h1, h2, h3⟩
    · cases out with
      | none => exact absurd ⟨rfl, hL⟩ hon
      | some d =>
        obtain ⟨okm, e1, e2⟩ := v1 hok' a rfl
        have hL' : L.toNat ≤ 255 * a.size := by
          unfold hkdfExpand at e1
          split at e1
          · assumption
          · simp at e1
        obtain ⟨okm', e1', _, e3⟩ := C44_expand_partial a prk info hp hpb hpl hi (fun h => Classical.byContradiction fun h' => hin ⟨h, h'⟩) hil L hL' d (ho d rfl)
        rw [e1] at e1'
        simp only [Option.some.injEq] at e1'
        subst e1'
        rw [e3] at hr
        simp only [Except.ok.injEq] at hr
        rw [← hr]
        exact Prod.ext hok' (e2 d rfl)
    · exact absurd h1 hsz
  · exact .inr (.inr ⟨h2, h3⟩)
  · exact .inr (.inl h)

/-- **C46** (HKDF). -/
theorem C46_hkdf (lib : Lib) (alg : UInt32) (ikm salt info : Slice) (L : UInt64) (out : Option Bytes)
    (hi : ikm.Valid) (hil : 128 + ikm.bytes.length < 2 ^ 61) (hs : salt.Valid) (hsl : salt.bytes.length < 2 ^ 61)
    (hf : info.Valid) (hfl : 256 + info.bytes.length < 2 ^ 61)
    (ho : ∀ d, out = some d → L.toNat ≤ d.length) (r : N20Error × Option Bytes)
    (hr : nat20Ctx.hkdf alg ikm salt info L out = .ok r) (hok : r.1 = .ok) (w : World) :
    ∃ r' w', bsslHkdf lib (some ()) alg ikm salt info L out w = .ok (r', w') ∧
      (r' = r ∨ LibFailure lib w w' r'.1 ∨ (r' = (.implementationSpecific, out) ∧ ∃ a, alg = algId a ∧ 255 * a.size < L.toNat)) := by
  have hsb := hkdf_extract_reply alg ikm salt info L out r hr hok
  obtain ⟨r0, e0, d0, c0⟩ := C45_hkdf_contract_partial (some ()) alg ikm salt info L out hi hil hs hsl (fun h => absurd h hsb) hf hfl ho
  have : r0 = r := by
    have : Except.ok r0 = (Except.ok r : Except UB _) := e0.symm.trans hr
    simpa using this
  subst this
  obtain ⟨r', w', e, _, _, h⟩ := C56_hkdf lib (some ()) alg ikm salt info L out hi hs hf ho w
  refine ⟨r', w', e, ?_⟩
  rcases h with (⟨d1, c1, v1⟩ | ⟨h1, h2, h3⟩) | ⟨_, h⟩
  · left
    have hok' : r'.1 = .ok := by rw [d1, ← d0, hok]
    rw [hok] at d0
    unfold documentedHkdfError at d0
    rw [if_neg (by simp)] at d0
    split at d0
    · simp at d0
    rename_i hsz
    split at d0
    · simp at d0
    rename_i hin
    split at d0
    · simp at d0
    split at d0
    · simp at d0
    rename_i hfn
    split at d0
    · simp at d0
    rename_i hon
    rcases alg_cases alg with ⟨a, rfl⟩ | ⟨h1, h2, h3⟩
    · cases out with
      | none =>
        unfold ExpandEffects at c0 c1
        rw [if_pos hok] at c0
        rw [if_pos hok'] at c1
        exact Prod.ext (hok'.trans hok.symm) ((c1.1 rfl).trans (c0.1 rfl).symm)
      | some d =>
        obtain ⟨okm, e1, e2⟩ := v1 hok' a rfl
        have hL' : L.toNat ≤ 255 * a.size := by
          unfold hkdfExpand at e1
          split at e1
          · assumption
          · simp at e1
        obtain ⟨okm', e1', _, e3⟩ := C44_hkdf_partial a ikm salt info hi (fun h => Classical.byContradiction fun h' => hin ⟨h, h'⟩) hs hsb hsl hil hf
          (fun h => Classical.byContradiction fun h' => hfn ⟨h, h'⟩) hfl L hL' d (ho d rfl)
        rw [e1] at e1'
        simp only [Option.some.injEq] at e1'
        subst e1'
        rw [e3] at hr
        simp only [Except.ok.injEq] at hr
        rw [← hr]
        exact Prod.ext hok' (e2 d rfl)
    · exact absurd h1 hsz
  · exact .inr (.inr ⟨h2, h3⟩)
  · exact .inr (.inl h)

/-- A library without failures, for examples. -/
def calmLib : Lib := ⟨fun _ => false, fun _ _ => 0, fun _ => List.replicate 32 7, fun _ _ => List.replicate 64 9, fun _ _ => (1, 2), fun _ _ _ _ => (3, 4), 4⟩

/-- A library all of whose calls from the second on fail. -/
def brokenLib : Lib := { calmLib with fails := fun n => n != 0, junk := fun _ _ => 0xee }

/-- The native context hashes "abc", so that `C46_digest` applies; a failing library is reported. -/
example : (nat20Ctx.digest 0 (some abcMessage) 3 (some (List.replicate 30 0)) (some 30)).map (·.err) = .ok .ok ∧
    bsslDigest brokenLib (some ()) 0 (some abcMessage) 3 (some (List.replicate 30 0)) (some 30) ⟨0, []⟩ =
      .ok (⟨.noResources, some (List.replicate 30 0), some 30⟩, ⟨2, []⟩) := by decide +kernel

/-- An output that is too long for RFC 5869. -/
example (mem : Bytes) : bsslExpand calmLib (some ()) 1 ⟨1, some ⟨[], [7]⟩⟩ Slice.null 8161 (some mem) ⟨0, []⟩ =
    .ok ((.implementationSpecific, some mem), ⟨1, []⟩) := by rfl

/-- A failing `HMAC_Final` leaves rubbish in the first 28 octets and the size as it was. -/
example : bsslHmac { brokenLib with fails := fun n => n == 2 } (some ()) 0 Slice.null (some ⟨0, none⟩) (some (List.replicate 30 0)) (some 30) ⟨0, []⟩ =
    .ok (⟨.implementationSpecific, some (List.replicate 28 0xee ++ [0, 0]), some 30⟩, ⟨3, []⟩) := by decide +kernel

end Nat20
