import Verif.Spec.KeyApi
import Verif.Lemmas.Ecdsa
import Verif.Props.BsslDigest
/-!
# C47, C48, C49, C57, C58: keys of the reference context

Every statement is for all `lib`, that is, for every choice of library calls that fail.
-/

namespace Nat20

open Fips

/-! ## RFC 6979 -/

/-- **C48**.  For every key, message (or none), algorithm and order `q`, whatever library calls fail: the generator gives the first candidate of
RFC 6979 3.2 that is in `[1, q - 1]`, or reports a library failure or that the algorithm is unknown; it does not end within `lib.patience` rounds only if that many candidates
are to be rejected. -/
theorem C48_nonce (lib : Lib) (x : Bytes) (m : Option Bytes) (alg : UInt32) (q : Nat) (hq : q ≠ 0) (w : World) :
    (∃ a, alg = algId a ∧ rfc6979 lib x m alg q w = .error .diverges ∧
      ∀ n < lib.patience, ¬ Acceptable q (rfcCandidate a q (rfcSeedOctets a q x m) n)) ∨
    ∃ r w', rfc6979 lib x m alg q w = .ok (r, w') ∧ w'.heap = w.heap ∧
      match r with
      | .ok k => ∃ a n, alg = algId a ∧ IsNonce a q (rfcSeedOctets a q x m) n k
      | .error e => (e = .unknownAlgorithm ∧ documentedSize alg = none) ∨ LibFailure lib w w' e := by
  rcases alg_cases alg with ⟨a, rfl⟩ | ⟨h1, _, _⟩
  · rcases runs_rfc6979 lib x m (algId a) a (bsslMd_algId a) q hq w with ⟨e, h⟩ | ⟨r, w', e, h1, _, h3⟩
    · exact .inl ⟨a, rfl, e, h⟩
    · refine .inr ⟨r, w', e, h1, ?_⟩
      cases r with
      | ok k => obtain ⟨n, hn⟩ := h3; exact ⟨a, n, rfl, hn⟩
      | error e =>
        rcases h3 with h3 | h3
        · exact h3.elim
        · exact .inr h3
  · refine .inr ⟨.error .unknownAlgorithm, w, ?_, rfl, .inl ⟨rfl, h1⟩⟩
    unfold rfc6979
    rw [bsslMd_none alg h1]
    rfl

/-- There is at most one such number. -/
theorem nonce_unique {a : Alg} {q : Nat} {seed : Bytes} {n n' k k' : Nat} (h : IsNonce a q seed n k) (h' : IsNonce a q seed n' k') : k = k' := by
  obtain ⟨e, h1, h2⟩ := h
  obtain ⟨e', h1', h2'⟩ := h'
  rcases Nat.lt_trichotomy n n' with hn | hn | hn
  · exact absurd (e ▸ h1) (h2' n hn)
  · rw [e, e', hn]
  · exact absurd (e' ▸ h1') (h2 n' hn)

/-- The number does not depend on the patience, the history or what fails. -/
theorem C48_deterministic (lib lib' : Lib) (x : Bytes) (m : Option Bytes) (alg : UInt32) (q : Nat) (hq : q ≠ 0) (w v w' v' : World) (k k' : Nat)
    (h : rfc6979 lib x m alg q w = .ok (.ok k, w')) (h' : rfc6979 lib' x m alg q v = .ok (.ok k', v')) : k = k' := by
  rcases C48_nonce lib x m alg q hq w with ⟨_, _, e, _⟩ | ⟨r, w1, e, _, h1⟩
  · rw [h] at e; simp at e
  rcases C48_nonce lib' x m alg q hq v with ⟨_, _, e', _⟩ | ⟨r', v1, e', _, h1'⟩
  · rw [h'] at e'; simp at e'
  rw [h] at e
  rw [h'] at e'
  simp only [Except.ok.injEq, Prod.mk.injEq] at e e'
  obtain ⟨rfl, rfl⟩ := e
  obtain ⟨rfl, rfl⟩ := e'
  obtain ⟨a, n, rfl, hn⟩ := h1
  obtain ⟨a', n', ha, hn'⟩ := h1'
  rw [← algId_inj ha] at hn'
  exact nonce_unique hn hn'

/-! ## kdf -/

theorem gather_cases (g : Option GatherList) (hg : ∀ l, g = some l → l.Valid) :
    (gatherError g ≠ .ok ∧ ∀ w, gatherToVector g w = .ok (.error (gatherError g), w)) ∨
    (gatherError g = .ok ∧ ∃ l, g = some l ∧ l.NoNullList ∧ l.NoNullSlice ∧ ∀ w, gatherToVector g w = .ok (.ok l.bytes, w)) := by
  cases g with
  | none => exact .inl ⟨by simp [gatherError], fun w => rfl⟩
  | some l =>
    by_cases hl : l.NoNullList
    · have hnl : ¬ (l.count ≠ 0 ∧ l.list = none) := fun h => h.1 (hl h.2)
      obtain ⟨h1, h2⟩ := bsslSlices_gather l (hg l rfl) hl []
      by_cases hs : l.NoNullSlice
      · have he : gatherError (some l) = .ok := by simp [gatherError, hl, hs]
        refine .inr ⟨he, l, rfl, hl, hs, fun w => ?_⟩
        unfold gatherToVector
        simp only
        rw [if_neg hnl, bindM (liftB_ok (h2 hs) w), List.nil_append]
        rfl
      · have he : gatherError (some l) = .nullSlice := by simp [gatherError, hl, hs]
        obtain ⟨acc, e⟩ := h1 hs
        refine .inl ⟨by rw [he]; simp, fun w => ?_⟩
        rw [he]
        unfold gatherToVector
        simp only
        rw [if_neg hnl, bindM (liftB_ok e w)]
        rfl
    · have hnl : l.count ≠ 0 ∧ l.list = none := by
        unfold GatherList.NoNullList at hl
        exact ⟨fun h => hl fun _ => h, Classical.byContradiction fun h => hl fun h' => absurd h' h⟩
      have he : gatherError (some l) = .nullList := by simp [gatherError, hl]
      refine .inl ⟨by rw [he]; simp, fun w => ?_⟩
      rw [he]
      unfold gatherToVector
      simp only
      rw [if_pos hnl]
      rfl

theorem runs_gather (lib : Lib) (g : Option GatherList) (hg : ∀ l, g = some l → l.Valid) {D : Prop} :
    Runs lib (gatherToVector g) (fun b => gatherError g = .ok ∧ ∃ l, g = some l ∧ b = l.bytes) (fun e => e = gatherError g ∧ gatherError g ≠ .ok) D := by
  intro w
  right
  rcases gather_cases g hg with ⟨h, e⟩ | ⟨h, l, h1, _, _, e⟩
  · exact ⟨_, w, e w, rfl, Nat.le_refl _, .inl ⟨rfl, h⟩⟩
  · exact ⟨_, w, e w, rfl, Nat.le_refl _, h, l, h1, rfl⟩

theorem derived_eq (cdi context : Bytes) : hkdfExpand .sha512 cdi context 32 = some (derivedOctets cdi context) := by
  unfold derivedOctets hkdfExpand
  rw [if_pos (by decide)]
  rfl

theorem derived_length (cdi context : Bytes) : (derivedOctets cdi context).length = 32 := hkdfExpand_length (derived_eq cdi context)

theorem runs_derive (lib : Lib) (bits : Bytes) (g : Option GatherList) (hg : ∀ l, g = some l → l.Valid) {D : Prop} :
    Runs lib (bsslDerive lib bits g) (fun b => gatherError g = .ok ∧ ∃ l, g = some l ∧ b = derivedOctets bits l.bytes)
      (fun e => e = gatherError g ∧ gatherError g ≠ .ok) D := by
  unfold bsslDerive
  refine (runs_gather lib g hg).bind fun b hb => ?_
  obtain ⟨h1, l, h2, rfl⟩ := hb
  intro w
  right
  cases hf : lib.fails w.calls with
  | false =>
    refine ⟨.ok (derivedOctets bits l.bytes), ⟨w.calls + 1, w.heap⟩, ?_, rfl, Nat.le_succ _, h1, l, h2, rfl⟩
    have e : libExpand lib .sha512 bits l.bytes 32 w = .ok (.ok (derivedOctets bits l.bytes), ⟨w.calls + 1, w.heap⟩) := by
      unfold libExpand
      rw [bindB (a := !lib.fails w.calls) (w' := { w with calls := w.calls + 1 }) rfl, hf, derived_eq]
      rfl
    rw [bindM e]
    rfl
  | true =>
    refine ⟨.error .implementationSpecific, ⟨w.calls + 1, w.heap⟩, ?_, rfl, Nat.le_succ _,
      .inr ⟨.inr rfl, w.calls, Nat.le_refl _, Nat.lt_succ_self _, hf⟩⟩
    have e : libExpand lib .sha512 bits l.bytes 32 w = .ok (.error ((List.range 32).map (lib.junk w.calls)), ⟨w.calls + 1, w.heap⟩) := by
      unfold libExpand
      rw [bindB (a := !lib.fails w.calls) (w' := { w with calls := w.calls + 1 }) rfl, hf, derived_eq]
      rfl
    rw [bindM e]
    rfl

theorem order_ne_zero (c : Curve) : c.order ≠ 0 := by cases c <;> decide

/-- The key objects that may come out for the derived octets. -/
def MadeOf (type : UInt32) (derived : Bytes) (k : BsslKey) : Prop :=
  k.type = type ∧
    ((type = 4 ∧ k.body = .inl derived) ∨ (type = 3 ∧ k.body = .inr (.ed25519 derived)) ∨
     (∃ c d n, curveOf type = some c ∧ k.body = .inr (.ec c d) ∧ IsNonce .sha512 c.order derived n d))

theorem runs_ecKey (lib : Lib) (type : UInt32) (ht : type = 1 ∨ type = 2) (derived : Bytes) {E : N20Error → Prop} :
    Runs lib (bsslEcKey lib type derived) (MadeOf type derived) E (NoPrivateKey lib type derived) := by
  have hc : curveOf type = some (if type = 1 then Curve.p256 else Curve.p384) := by
    rcases ht with rfl | rfl <;> rfl
  unfold bsslEcKey
  simp only
  refine Runs.need (.inr rfl) ?_
  refine ((runs_rfc6979 lib derived none 3 .sha512 rfl _ (order_ne_zero (if type = 1 then Curve.p256 else Curve.p384))).weaken
    (fun _ h => h) (fun _ h => h.elim) (fun h => ⟨_, hc, fun n hn => by simpa [rfcSeedOctets] using h n hn⟩)).bind fun d hd => ?_
  · refine Runs.need (.inl rfl) ?_
    refine Runs.need (.inr rfl) ?_
    refine Runs.need (.inl rfl) ?_
    refine Runs.need (.inr rfl) ?_
    refine Runs.need (.inr rfl) ?_
    refine Runs.need (.inr rfl) ?_
    refine Runs.need (.inl rfl) (Runs.pure ?_)
    obtain ⟨n, hn⟩ := hd
    refine ⟨rfl, .inr (.inr ⟨_, d, n, hc, rfl, ?_⟩)⟩
    unfold rfcSeedOctets at hn
    simpa using hn

theorem runs_makeKey (lib : Lib) (type : UInt32) (derived : Bytes) :
    Runs lib (bsslMakeKey lib type derived) (MadeOf type derived) (fun e => e = .invalidKeyType ∧ type ≠ 1 ∧ type ≠ 2 ∧ type ≠ 3 ∧ type ≠ 4)
      (NoPrivateKey lib type derived) := by
  unfold bsslMakeKey
  by_cases h3 : type = 3
  · rw [if_pos h3]
    exact Runs.need (.inr rfl) (Runs.pure ⟨rfl, .inr (.inl ⟨h3, rfl⟩)⟩)
  rw [if_neg h3]
  by_cases h4 : type = 4
  · rw [if_pos h4]
    exact Runs.pure ⟨rfl, .inl ⟨h4, rfl⟩⟩
  rw [if_neg h4]
  by_cases h : type = 1 ∨ type = 2
  · rw [if_pos h]
    exact runs_ecKey lib type h derived
  · rw [if_neg h]
    exact Runs.throw ⟨rfl, fun h1 => h (.inl h1), fun h2 => h (.inr h2), h3, h4⟩

/-- Derived keys are what their type says. -/
theorem derived_ok {cdi context : Bytes} {type : UInt32} {k : BsslKey} (h : IsDerived cdi context type k) : KeyOk k := by
  obtain ⟨ht, h⟩ := h
  unfold KeyOk
  rcases h with ⟨h4, hb⟩ | ⟨h3, hb⟩ | ⟨c, d, n, hc, hb, _, hd, _⟩
  · rw [hb]
    exact ht.trans h4
  · rw [hb]
    exact ⟨ht.trans h3, derived_length cdi context⟩
  · rw [hb]
    refine ⟨by rw [ht]; exact hc, hd.1, ?_⟩
    have := order_ne_zero c
    have := hd.2
    omega

theorem derived_type {cdi context : Bytes} {type : UInt32} {k : BsslKey} (h : IsDerived cdi context type k) : type = 1 ∨ type = 2 ∨ type = 3 ∨ type = 4 := by
  obtain ⟨_, h⟩ := h
  rcases h with ⟨h4, _⟩ | ⟨h3, _⟩ | ⟨c, d, n, hc, _⟩
  · exact .inr (.inr (.inr h4))
  · exact .inr (.inr (.inl h3))
  · unfold curveOf at hc
    split at hc
    · exact .inl ‹_›
    · split at hc
      · exact .inr (.inl ‹_›)
      · simp at hc

theorem runs_kdfKey (lib : Lib) (bits : Bytes) (type : UInt32) (g : Option GatherList) (hg : ∀ l, g = some l → l.Valid) :
    Runs lib (bsslKdfKey lib bits type g) (fun k => gatherError g = .ok ∧ ∃ l, g = some l ∧ IsDerived bits l.bytes type k)
      (fun e => (e = gatherError g ∧ gatherError g ≠ .ok) ∨ (gatherError g = .ok ∧ e = .invalidKeyType ∧ type ≠ 1 ∧ type ≠ 2 ∧ type ≠ 3 ∧ type ≠ 4))
      (∃ l, g = some l ∧ NoPrivateKey lib type (derivedOctets bits l.bytes)) := by
  unfold bsslKdfKey
  refine ((runs_derive lib bits g hg).weaken (fun _ h => h) (fun _ h => .inl h) (fun h => h)).bind fun b hb => ?_
  obtain ⟨h1, l, h2, rfl⟩ := hb
  exact (runs_makeKey lib type _).weaken (fun k hk => ⟨h1, l, h2, hk⟩) (fun e he => .inr ⟨h1, he⟩) (fun h => ⟨l, h2, h⟩)

/-- What `kdf` does besides returning an error: in case of success it stores a new handle, which refers to a new key object, the one that is to be derived;
otherwise nothing. -/
def KdfEffects (w w' : World) (keyIn : Option Nat) (type : UInt32) (context : Option GatherList) (keyOut : Option (Option Nat)) (r : KeyReply) : Prop :=
  if r.1 = .ok then ∃ p cdi g k, keyIn = some p ∧ Live w p ⟨4, .inl cdi⟩ ∧ context = some g ∧ IsDerived cdi g.bytes type k ∧
    r.2 = some (some w.heap.length) ∧ w'.heap = w.heap ++ [some k]
  else r.2 = keyOut ∧ w'.heap = w.heap

/-- **C49** (kdf).  For all arguments and handles, in every state of the key objects, whatever library calls fail: `kdf` returns the documented error and has the documented effects,
or it reports the failure of the library, leaving everything alone.  It does not end only if no candidate is acceptable as private key. -/
theorem C49_kdf (lib : Lib) (ctx : Option Unit) (keyIn : Option Nat) (type : UInt32) (context : Option GatherList) (keyOut : Option (Option Nat))
    (w : World) (hw : w.Ok) (hk : HandleOk w keyIn) (hc : ∀ g, context = some g → g.Valid) :
    (bsslKdf lib ctx keyIn type context keyOut w = .error .diverges ∧ ∃ p cdi g, keyIn = some p ∧ Live w p ⟨4, .inl cdi⟩ ∧ context = some g ∧
      NoPrivateKey lib type (derivedOctets cdi g.bytes)) ∨
    ∃ r w', bsslKdf lib ctx keyIn type context keyOut w = .ok (r, w') ∧
      ((r.1 = documentedKdfError ctx (w.object keyIn) type context keyOut ∧ KdfEffects w w' keyIn type context keyOut r) ∨
       (LibFailure lib w w' r.1 ∧ r.2 = keyOut ∧ w'.heap = w.heap)) := by
  have done : ∀ e : N20Error, e ≠ .ok → e = documentedKdfError ctx (w.object keyIn) type context keyOut →
      bsslKdf lib ctx keyIn type context keyOut w = .ok ((e, keyOut), w) → ∃ r w', bsslKdf lib ctx keyIn type context keyOut w = .ok (r, w') ∧
      ((r.1 = documentedKdfError ctx (w.object keyIn) type context keyOut ∧ KdfEffects w w' keyIn type context keyOut r) ∨
       (LibFailure lib w w' r.1 ∧ r.2 = keyOut ∧ w'.heap = w.heap)) := by
    intro e hne he hr
    refine ⟨_, w, hr, .inl ⟨he, ?_⟩⟩
    unfold KdfEffects
    rw [if_neg hne]
    exact ⟨rfl, rfl⟩
  cases ctx with
  | none => exact .inr (done .invalidContext (by simp) rfl rfl)
  | some u =>
    cases keyIn with
    | none => exact .inr (done .nullKeyIn (by simp) rfl rfl)
    | some p =>
      obtain ⟨k, hl⟩ := hk p rfl
      have hobj : w.object (some p) = some k := by
        unfold World.object
        unfold Live at hl
        simp [hl]
      have hload : loadKey p w = .ok (k, w) := by
        unfold loadKey
        unfold Live at hl
        rw [hl]
      have hrun : bsslKdf lib (some u) (some p) type context keyOut w = (if k.type ≠ 4 then (pure (.invalidKey, keyOut) : B KeyReply)
          else liftB (castCdi k) >>= fun bits => match (generalizing := false) keyOut with
            | none => pure (.nullKeyOut, keyOut)
            | some old => keyReply (bsslKdfRun lib bits type context) old) w := bindB hload
      by_cases h4 : k.type ≠ 4
      · refine .inr (done .invalidKey (by simp) ?_ ?_)
        · simp only [hobj, documentedKdfError, if_pos h4]
        · rw [hrun, if_pos h4]
          rfl
      have h4' : k.type = 4 := Classical.not_not.1 h4
      obtain ⟨bits, hb⟩ : ∃ bits, k = ⟨4, .inl bits⟩ := by
        have hok := hw p k hl
        obtain ⟨t, b⟩ := k
        simp only at h4'
        subst h4'
        unfold KeyOk at hok
        cases b with
        | inl bits => exact ⟨bits, rfl⟩
        | inr key =>
          exfalso
          cases key with
          | ed25519 s => exact absurd hok.1 (by simp)
          | ec c d => exact absurd hok.1 (by simp [curveOf])
      subst hb
      rw [if_neg h4, bindLift (x := castCdi ⟨4, .inl bits⟩) (a := bits) rfl] at hrun
      cases keyOut with
      | none =>
        refine .inr (done .nullKeyOut (by simp) ?_ hrun)
        simp only [hobj, documentedKdfError, if_neg h4, if_true]
      | some old =>
        simp only at hrun
        rcases runs_kdfKey lib bits type context hc w with ⟨e, g, hg, hd⟩ | ⟨r, w1, e, hh, hcalls, hr⟩
        · left
          refine ⟨?_, p, bits, g, rfl, hl, hg, hd⟩
          rw [hrun]
          unfold keyReply
          apply bindB_error
          unfold bsslKdfRun
          exact bindE_error e
        · right
          cases r with
          | error x =>
            have e2 : bsslKdf lib (some u) (some p) type context (some old) w = .ok ((x, some old), w1) := by
              rw [hrun]
              unfold keyReply
              rw [bindB (a := .error x) (w' := w1) (bindE_throw e)]
              rfl
            have hx : x ≠ .ok := by
              rcases hr with (⟨rfl, h⟩ | ⟨_, rfl, _⟩) | ⟨h, _⟩
              · exact h
              · simp
              · rcases h with rfl | rfl <;> simp
            refine ⟨_, w1, e2, ?_⟩
            rcases hr with (⟨rfl, h⟩ | ⟨h1, rfl, h2, h3, h5, h6⟩) | h
            · left
              refine ⟨?_, ?_⟩
              · simp only [hobj, documentedKdfError, if_neg h4, if_pos h]
                rw [if_neg (by simp)]
              · unfold KdfEffects
                rw [if_neg hx]
                exact ⟨rfl, hh⟩
            · left
              refine ⟨?_, ?_⟩
              · simp only [hobj, documentedKdfError, if_neg h4, h1]
                rw [if_neg (by simp), if_neg (by simp), if_pos ⟨h2, h3, h5, h6⟩]
              · unfold KdfEffects
                rw [if_neg hx]
                exact ⟨rfl, hh⟩
            · exact .inr ⟨h, rfl, hh⟩
          | ok key =>
            obtain ⟨h1, g, h2, h3⟩ := hr
            have e2 : bsslKdf lib (some u) (some p) type context (some old) w = .ok ((.ok, some (some w1.heap.length)), ⟨w1.calls, w1.heap ++ [some key]⟩) := by
              rw [hrun]
              unfold keyReply
              rw [bindB (a := .ok w1.heap.length) (w' := ⟨w1.calls, w1.heap ++ [some key]⟩)]
              · rfl
              · show (bsslKdfRun lib bits type context) w = _
                unfold bsslKdfRun
                rw [bindE e]
                rfl
            refine ⟨_, _, e2, .inl ⟨?_, ?_⟩⟩
            · simp only [hobj, documentedKdfError, if_neg h4, h1]
              have := derived_type h3
              rw [if_neg (by simp), if_neg (by simp), if_neg]
              rintro ⟨a, b, c, d⟩
              rcases this with h | h | h | h <;> contradiction
            · unfold KdfEffects
              rw [if_pos rfl, hh]
              exact ⟨p, bits, g, key, rfl, hl, h2, h3, rfl, rfl⟩

/-! ## sign -/

/-- What comes after a computation that may fail. -/
theorem Replies.run {α β : Type} {lib : Lib} {err : β → N20Error} {c : BE α} {f : Except N20Error α → B β} {P : α → Prop} {E : N20Error → Prop} {Q F : β → Prop}
    (h : Runs lib c P E False) (hok : ∀ a, P a → Replies lib err (f (.ok a)) Q F) (herr : ∀ e, E e → Replies lib err (f (.error e)) Q F)
    (hlib : ∀ e w, (e = .noResources ∨ e = .implementationSpecific) → ∃ r, f (.error e) w = .ok (r, w) ∧ F r ∧ err r = e) :
    Replies lib err (c.run >>= f) Q F := by
  intro w
  rcases h w with ⟨_, d⟩ | ⟨r, w1, e, hh, hc, hr⟩
  · exact d.elim
  have e' : (c.run >>= f) w = f r w1 := bindB e
  unfold RepliesAt
  rw [e']
  have lift : Replies lib err (f r) Q F → ∃ r_1 w', f r w1 = .ok (r_1, w') ∧ w'.heap = w.heap ∧ w.calls ≤ w'.calls ∧ (Q r_1 ∨ F r_1 ∧ LibFailure lib w w' (err r_1)) := by
    intro h
    obtain ⟨x, w2, e2, h1, h2, h3⟩ := h w1
    refine ⟨x, w2, e2, h1.trans hh, by omega, ?_⟩
    rcases h3 with h3 | ⟨h3, h4⟩
    · exact .inl h3
    · exact .inr ⟨h3, h4.mono hc (Nat.le_refl _)⟩
  cases r with
  | ok a => exact lift (hok a hr)
  | error x =>
    rcases hr with hr | hr
    · exact lift (herr x hr)
    · obtain ⟨y, e2, h1, h2⟩ := hlib x w1 hr.1
      exact ⟨y, w1, e2, hh, hc, .inr ⟨h1, by rw [h2]; exact hr⟩⟩

theorem runs_signUpdate (lib : Lib) {D : Prop} (n : Nat) : ∀ (l : List Slice) (acc : Bytes), n ≤ l.length → (∀ s ∈ l.take n, s.Valid) →
    Runs lib (signUpdate lib n l acc) (fun b => (∀ s ∈ l.take n, s.buffer = none → s.size = 0) ∧ b = acc ++ ((l.take n).map Slice.bytes).flatten)
      (fun e => e = .nullSlice ∧ ∃ s ∈ l.take n, s.buffer = none ∧ s.size ≠ 0) D := by
  induction n with
  | zero => intro l acc _ _; exact Runs.pure ⟨by simp, by simp⟩
  | succ n ih =>
    intro l acc hl hv
    cases l with
    | nil => simp at hl
    | cons s rest =>
      rw [List.take_succ_cons] at hv ⊢
      have hs := hv s (by simp)
      have hrest : ∀ x ∈ rest.take n, x.Valid := fun x hx => hv x (List.mem_cons_of_mem _ hx)
      have hlen : n ≤ rest.length := by simpa using hl
      simp only [signUpdate]
      by_cases h0 : s.size = 0
      · rw [if_pos h0]
        refine (ih rest acc hlen hrest).weaken ?_ ?_ (fun h => h)
        · rintro b ⟨h1, rfl⟩
          refine ⟨fun x hx => ?_, by simp [slice_bytes_of_size_zero s h0]⟩
          rcases List.mem_cons.1 hx with rfl | h
          · exact fun _ => h0
          · exact h1 x h
        · rintro e ⟨rfl, x, hx, h⟩
          exact ⟨rfl, x, List.mem_cons_of_mem _ hx, h⟩
      · rw [if_neg h0]
        cases hb : s.buffer with
        | none => exact Runs.throw ⟨rfl, s, by simp, hb, h0⟩
        | some p =>
          have hr := readSlice_ok s hs p hb
          simp only
          intro w
          rw [bindM (liftB_ok hr w)]
          refine Runs.need (Q := fun b => (∀ x ∈ s :: rest.take n, x.buffer = none → x.size = 0) ∧ b = acc ++ ((s :: rest.take n).map Slice.bytes).flatten)
            (E := fun e => e = .nullSlice ∧ ∃ x ∈ s :: rest.take n, x.buffer = none ∧ x.size ≠ 0) (D := D) (.inr rfl)
            ((ih rest (acc ++ s.bytes) hlen hrest).weaken ?_ ?_ (fun h => h)) w
          · rintro b ⟨h1, rfl⟩
            refine ⟨fun x hx => ?_, by simp⟩
            rcases List.mem_cons.1 hx with rfl | h
            · exact fun h => by rw [hb] at h; simp at h
            · exact h1 x h
          · rintro e ⟨rfl, x, hx, h⟩
            exact ⟨rfl, x, List.mem_cons_of_mem _ hx, h⟩

theorem runs_ecMessage (lib : Lib) (msg : Option GatherList) (hm : ∀ g, msg = some g → g.Valid) {D : Prop} :
    Runs lib (ecMessage lib msg) (fun b => gatherError msg = .ok ∧ ∃ l, msg = some l ∧ b = l.bytes) (fun e => e = gatherError msg ∧ gatherError msg ≠ .ok) D := by
  cases msg with
  | none => exact Runs.throw ⟨rfl, by simp [gatherError]⟩
  | some l =>
    unfold ecMessage
    simp only
    have hv := hm l rfl
    by_cases hl : l.NoNullList
    · have hnl : ¬ (l.count ≠ 0 ∧ l.list = none) := fun h => h.1 (hl h.2)
      rw [if_neg hnl]
      have hlen : l.count.toNat ≤ (l.list.getD []).length := by
        cases h : l.list with
        | none => rw [hl h]; simp
        | some x => exact hv.list x h
      refine Runs.need (.inr rfl) ((runs_signUpdate lib l.count.toNat (l.list.getD []) [] hlen hv.slices).weaken ?_ ?_ (fun h => h))
      · rintro b ⟨h1, rfl⟩
        have hs : l.NoNullSlice := h1
        exact ⟨by simp [gatherError, hl, hs], l, rfl, rfl⟩
      · rintro e ⟨rfl, s, hs, h1, h2⟩
        have hn : ¬ l.NoNullSlice := fun h => h2 (h s hs h1)
        exact ⟨by simp [gatherError, hl, hn], by simp [gatherError, hl, hn]⟩
    · have hnl : l.count ≠ 0 ∧ l.list = none := by
        unfold GatherList.NoNullList at hl
        exact ⟨fun h => hl fun _ => h, Classical.byContradiction fun h => hl fun h' => absurd h' h⟩
      rw [if_pos hnl]
      exact Runs.throw ⟨by simp [gatherError, hl], by simp [gatherError, hl]⟩

/-- The effects of a call of `sign` that failed because the library did: no more than the octets of the signature are touched.  The size may now be 104, see
`C49_sign_failure_size`. -/
def SignFailure (n : Option UInt64) (out : Option Bytes) (size : Option UInt64) (r : Reply) : Prop :=
  (r.size = size ∨ r.size = some 104) ∧ (out = none → r.out = none) ∧
    ∀ d, out = some d → ∃ d' k, r.out = some d' ∧ n = some k ∧ d'.length = d.length ∧ d'.drop k.toNat = d.drop k.toNat

theorem order_lt (c : Curve) : c.order < 256 ^ c.octets := by cases c <;> decide

theorem replies_ecFinal (lib : Lib) (hlib : lib.Standard) (c : Curve) (x : Nat) (text rest d : Bytes) (n : UInt64) (hn : n.toNat = 2 * c.octets)
    (hd : n.toNat ≤ d.length) (size : Option UInt64) :
    Replies lib Reply.err (ecFinal lib c.digest (.ec c x) text n rest d)
      (fun r => ∃ v, IsSignature lib (.ec c x) text v ∧ v.length = n.toNat ∧ r = ⟨.ok, some (v ++ d.drop n.toNat), some n⟩)
      (SignFailure (some n) (some d) size) := by
  intro w
  have e0 : ecFinal lib c.digest (.ec c x) text n rest d w = (libCall lib >>= fun ok => if ok = false then (pure ⟨.implementationSpecific, some d, some 104⟩ : B Reply)
      else do
        let rs := lib.ecSign c x (sha2 c.digest text) w.calls
        let der := ecdsaDer rs.1 rs.2
        if 104 < der.length then return ⟨.implementationSpecific, some d, some 104⟩
        else do
          let out ← liftB (sigUnwrap (der ++ rest.drop der.length) n.toNat d)
          return ⟨.ok, some out, some n⟩) w := bindB rfl
  unfold RepliesAt
  rw [e0]
  refine Replies.call (lib := lib) (err := Reply.err) (F := SignFailure (some n) (some d) size) ?_ ?_ w
  · rw [if_neg (by simp)]
    obtain ⟨_, h2, _, h4⟩ := hlib.ecSign c x (sha2 c.digest text) w.calls
    have hlt := order_lt c
    obtain ⟨l1, l2⟩ := sigUnwrap_ok c.octets _ _ (by cases c <;> decide) (by cases c <;> decide) (Nat.lt_trans h2 hlt) (Nat.lt_trans h4 hlt)
      (rest.drop (ecdsaDer (lib.ecSign c x (sha2 c.digest text) w.calls).1 (lib.ecSign c x (sha2 c.digest text) w.calls).2).length) d (by omega)
    simp only
    rw [if_neg (by omega)]
    rw [hn, bindLift l2]
    refine Replies.pure ⟨_, ⟨w.calls, rfl⟩, ?_, rfl⟩
    rw [List.length_append, toBE_length, toBE_length]
    omega
  · intro w
    refine ⟨_, rfl, ⟨.inr rfl, fun h => by simp at h, fun d' hd' => ?_⟩, .inr rfl⟩
    simp only [Option.some.injEq] at hd'
    subst hd'
    exact ⟨d, n, rfl, rfl, rfl, rfl⟩

theorem SignFailure.untouched (n sz : UInt64) (d : Bytes) (e : N20Error) : SignFailure (some n) (some d) (some sz) ⟨e, some d, some sz⟩ := by
  refine ⟨.inl rfl, fun h => by simp at h, fun d' hd' => ?_⟩
  simp only [Option.some.injEq] at hd'
  subst hd'
  exact ⟨d, n, rfl, rfl, rfl, rfl⟩

/-- What `sign` gives once the arguments but for the message are in order. -/
def Signed (lib : Lib) (key : PKey) (msg : Option GatherList) (n sz : UInt64) (d : Bytes) (r : Reply) : Prop :=
  (r = ⟨gatherError msg, some d, some sz⟩ ∧ gatherError msg ≠ .ok) ∨
  (gatherError msg = .ok ∧ ∃ g v, msg = some g ∧ IsSignature lib key g.bytes v ∧ v.length = n.toNat ∧ r = ⟨.ok, some (v ++ d.drop n.toNat), some n⟩)

theorem replies_ecSign (lib : Lib) (hlib : lib.Standard) (c : Curve) (x : Nat) (msg : Option GatherList) (hm : ∀ g, msg = some g → g.Valid) (d : Bytes)
    (n sz : UInt64) (hn : n.toNat = 2 * c.octets) (hd : n.toNat ≤ d.length) :
    Replies lib Reply.err (ecSign lib c.digest (.ec c x) msg n d sz) (Signed lib (.ec c x) msg n sz d) (SignFailure (some n) (some d) (some sz)) := by
  unfold ecSign
  refine Replies.run (runs_ecMessage lib msg hm) ?_ ?_ ?_
  · rintro b ⟨h1, g, hg, rfl⟩
    simp only
    intro w
    have e : (libJunk lib 104 >>= fun rest => ecFinal lib c.digest (.ec c x) g.bytes n rest d) w =
      ecFinal lib c.digest (.ec c x) g.bytes n ((List.range 104).map (lib.junk (w.calls - 1))) d w := bindB rfl
    unfold RepliesAt
    rw [e]
    refine Replies.weaken (replies_ecFinal lib hlib c x g.bytes _ d n hn hd (some sz)) ?_ (fun _ h => h) w
    rintro r ⟨v, h2, h3, rfl⟩
    exact .inr ⟨h1, g, v, hg, h2, h3, rfl⟩
  · rintro e ⟨rfl, h⟩
    exact Replies.pure (.inl ⟨rfl, h⟩)
  · intro e w _
    exact ⟨_, rfl, SignFailure.untouched n sz d e, rfl⟩

theorem replies_edSign (lib : Lib) (hlib : lib.Standard) (seed : Bytes) (msg : Option GatherList) (hm : ∀ g, msg = some g → g.Valid) (d : Bytes)
    (sz : UInt64) (hd : 64 ≤ d.length) :
    Replies lib Reply.err (edSign lib (.ed25519 seed) msg d sz) (Signed lib (.ed25519 seed) msg 64 sz d) (SignFailure (some 64) (some d) (some sz)) := by
  unfold edSign
  refine Replies.call ?_ fun w => ⟨_, rfl, SignFailure.untouched 64 sz d _, .inr rfl⟩
  rw [if_neg (by simp)]
  refine Replies.run (runs_gather lib msg hm) ?_ ?_ ?_
  · rintro b ⟨h1, g, hg, rfl⟩
    simp only
    unfold edFinal
    refine Replies.call ?_ fun w => ?_
    · have hl := hlib.edSign seed g.bytes
      simp only
      rw [bindLift (writeOut_ok d (lib.edSign seed g.bytes) (by omega)), hl]
      exact Replies.pure (.inr ⟨h1, g, _, hg, rfl, hl, rfl⟩)
    · refine ⟨⟨.implementationSpecific, some ((List.range 64).map (lib.junk (w.calls - 1)) ++ d.drop 64), some sz⟩, ?_, ?_, .inr rfl⟩
      · simp only
        rw [bindB (a := (List.range 64).map (lib.junk (w.calls - 1))) (w' := w) rfl, bindLift (writeOut_ok d _ (by simpa using hd))]
        simp
        rfl
      · refine ⟨.inl rfl, fun h => by simp at h, fun d' hd' => ?_⟩
        simp only [Option.some.injEq] at hd'
        subst hd'
        refine ⟨_, 64, rfl, rfl, ?_, ?_⟩
        · rw [List.length_append, List.length_map, List.length_range, List.length_drop]; omega
        · have : (64 : UInt64).toNat = ((List.range 64).map (lib.junk (w.calls - 1))).length := by simp
          rw [this, List.drop_left]
          simp
  · rintro e ⟨rfl, h⟩
    exact Replies.pure (.inl ⟨rfl, h⟩)
  · intro e w _
    exact ⟨_, rfl, SignFailure.untouched 64 sz d e, rfl⟩

theorem gatherError_cases (g : Option GatherList) : gatherError g = .ok ∨ gatherError g = .nullData ∨ gatherError g = .nullList ∨ gatherError g = .nullSlice := by
  cases g with
  | none => exact .inr (.inl rfl)
  | some l =>
    unfold gatherError
    by_cases hl : l.NoNullList <;> by_cases hs : l.NoNullSlice <;> simp [hl, hs]

/-- The octets `sign` needs for the key of a handle. -/
def signNeed (key : Option BsslKey) : Option UInt64 := key.bind fun k => documentedSignatureSize k.type

theorem signed_contract {lib : Lib} {ctx : Option Unit} {k : BsslKey} {sk : PKey} {msg : Option GatherList} {d : Bytes} {n sz : UInt64}
    (hc : ctx = some ()) (hn : documentedSignatureSize k.type = some n) (hsz : ¬ sz < n) {r : Reply} (h : Signed lib sk msg n sz d r) (hb : k.body = .inr sk) :
    r.err = documentedSignError ctx (some k) msg (some d) (some sz) ∧
      SizedEffects (signNeed (some k)) (fun v => ∃ k' sk g, some k = some k' ∧ k'.body = .inr sk ∧ msg = some g ∧ IsSignature lib sk g.bytes v)
        (some d) (some sz) r := by
  subst hc
  have hdoc : documentedSignError (some ()) (some k) msg (some d) (some sz) = gatherError msg := by
    simp only [documentedSignError, hn]
    rw [if_neg (by rintro (h | h); exact absurd h (by simp); exact hsz h)]
  rw [hdoc]
  rcases h with ⟨rfl, h⟩ | ⟨h1, g, v, hg, h2, h3, rfl⟩
  · refine ⟨rfl, ?_⟩
    rcases gatherError_cases msg with e | e | e | e
    · exact absurd e h
    all_goals rw [e]; exact ⟨rfl, rfl⟩
  · refine ⟨h1.symm, ?_⟩
    exact ⟨n, d, v, hn, rfl, h3, ⟨k, sk, g, rfl, hb, hg, h2⟩, rfl, rfl⟩

/-- **C49** (sign).  For all arguments and handles, in every state of the key objects, whatever library calls fail: `sign` returns the documented error and has the documented
effects, or it reports the failure of the library.  It never does anything undefined and leaves all key objects alone. -/
theorem C49_sign (lib : Lib) (hlib : lib.Standard) (ctx : Option Unit) (key : Option Nat) (msg : Option GatherList) (out : Option Bytes) (size : Option UInt64)
    (w : World) (hw : w.Ok) (hk : HandleOk w key) (hm : ∀ g, msg = some g → g.Valid) (ho : ∀ d sz, out = some d → size = some sz → sz.toNat ≤ d.length) :
    RepliesAt lib Reply.err (bsslSign lib ctx key msg out size)
      (fun r => r.err = documentedSignError ctx (w.object key) msg out size ∧
        SizedEffects (signNeed (w.object key)) (fun v => ∃ k sk g, w.object key = some k ∧ k.body = .inr sk ∧ msg = some g ∧ IsSignature lib sk g.bytes v) out size r)
      (SignFailure (signNeed (w.object key)) out size) w := by
  cases ctx with
  | none => exact Replies.pure ⟨rfl, rfl, rfl⟩ w
  | some u =>
    cases key with
    | none => exact Replies.pure ⟨rfl, rfl, rfl⟩ w
    | some p =>
      obtain ⟨k, hl⟩ := hk p rfl
      have hobj : w.object (some p) = some k := by
        unfold World.object
        unfold Live at hl
        simp [hl]
      have hload : loadKey p w = .ok (k, w) := by
        unfold loadKey
        unfold Live at hl
        rw [hl]
      rw [hobj]
      cases size with
      | none => exact Replies.pure ⟨rfl, rfl, rfl⟩ w
      | some sz =>
        have hrun : bsslSign lib (some u) (some p) msg out (some sz) w = (if k.type = 4 then (pure ⟨.invalidKey, out, some sz⟩ : B Reply)
            else liftB (castEvp k) >>= fun key => bsslSignRun lib k.type key msg out sz) w := bindB hload
        unfold RepliesAt
        rw [hrun]
        clear hrun
        by_cases h4 : k.type = 4
        · rw [if_pos h4]
          refine Replies.pure ⟨?_, rfl, rfl⟩ w
          simp only [documentedSignError, h4]
          rfl
        rw [if_neg h4]
        have hok := hw p k hl
        obtain ⟨t, b⟩ := k
        cases b with
        | inl bits => exact absurd hok h4
        | inr sk =>
          rw [bindLift (x := castEvp ⟨t, .inr sk⟩) (a := sk) rfl]
          obtain ⟨n, hn, hn'⟩ : ∃ n, signatureSize t = some n ∧ documentedSignatureSize t = some n := by
            unfold KeyOk at hok
            cases sk with
            | ed25519 seed =>
              have : t = 3 := hok.1
              subst this
              exact ⟨64, rfl, rfl⟩
            | ec c x =>
              have := hok.1
              unfold curveOf at this
              split at this
              · rename_i h; have : t = 1 := h; subst this; exact ⟨64, rfl, rfl⟩
              · split at this
                · rename_i h; have : t = 2 := h; subst this; exact ⟨96, rfl, rfl⟩
                · simp at this
          unfold bsslSignRun
          refine Replies.call (lib := lib) (err := Reply.err) (F := SignFailure (signNeed (some ⟨t, .inr sk⟩)) out (some sz)) ?_ ?_ w
          · simp only [hn]
            rw [if_neg (by simp)]
            cases out with
            | none =>
              refine Replies.pure ⟨?_, rfl, ?_⟩
              · simp [documentedSignError, hn']
              · exact hn'.symm
            | some d =>
              simp only
              by_cases hsz : sz < n
              · rw [if_pos hsz]
                refine Replies.pure ⟨?_, rfl, ?_⟩
                · simp [documentedSignError, hn', hsz]
                · exact hn'.symm
              rw [if_neg hsz]
              have hszle : n.toNat ≤ sz.toNat := Nat.le_of_not_lt fun h => hsz (UInt64.lt_iff_toNat_lt.2 h)
              have hd := ho d sz rfl rfl
              have fin : ∀ r, Signed lib sk msg n sz d r → _ := fun r h => signed_contract (lib := lib) (ctx := some u) (k := ⟨t, .inr sk⟩) rfl hn' hsz h rfl
              have hneed : signNeed (some ⟨t, .inr sk⟩) = some n := hn'
              rw [hneed] at fin ⊢
              unfold KeyOk at hok
              cases sk with
              | ed25519 seed =>
                have ht : t = 3 := hok.1
                subst ht
                have : n = 64 := by
                  have : some (64 : UInt64) = some n := hn'
                  simpa using this.symm
                subst this
                rw [if_pos rfl]
                exact (replies_edSign lib hlib seed msg hm d sz (Nat.le_trans hszle hd)).weaken fin (fun _ h => h)
              | ec c x =>
                have hc : curveOf t = some c := hok.1
                unfold curveOf at hc
                split at hc
                · rename_i h
                  have ht : t = 1 := h
                  subst ht
                  have : n = 64 := by
                    have : some (64 : UInt64) = some n := hn'
                    simpa using this.symm
                  subst this
                  simp only [Option.some.injEq] at hc
                  subst hc
                  rw [if_neg (by simp), if_pos rfl]
                  exact (replies_ecSign lib hlib .p256 x msg hm d 64 sz rfl (Nat.le_trans hszle hd)).weaken fin (fun _ h => h)
                · split at hc
                  · rename_i h
                    have ht : t = 2 := h
                    subst ht
                    have : n = 96 := by
                      have : some (96 : UInt64) = some n := hn'
                      simpa using this.symm
                    subst this
                    simp only [Option.some.injEq] at hc
                    subst hc
                    rw [if_neg (by simp), if_neg (by simp)]
                    exact (replies_ecSign lib hlib .p384 x msg hm d 96 sz rfl (Nat.le_trans hszle hd)).weaken fin (fun _ h => h)
                  · simp at hc
          · intro w1
            refine ⟨_, rfl, ⟨.inl rfl, fun h => h, fun d hd => ?_⟩, .inl rfl⟩
            exact ⟨d, n, hd, hn', rfl, rfl⟩

/-- **C47**.  With an EC key and valid arguments, whatever `r` and `s` the library comes up with and however its DER encoding looks like: if `sign` succeeds, the output is `r` and `s`,
big-endian, each padded to the octets of the curve, and nothing behind them is touched; if not, the library failed. -/
theorem C47_ecdsa_format (lib : Lib) (hlib : lib.Standard) (c : Curve) (x : Nat) (type : UInt32) (p : Nat) (w : World) (hw : w.Ok)
    (hl : Live w p ⟨type, .inr (.ec c x)⟩) (g : GatherList) (hg : g.Valid) (hg1 : g.NoNullList) (hg2 : g.NoNullSlice) (d : Bytes) (sz : UInt64)
    (hsz : 2 * c.octets ≤ sz.toNat) (hd : sz.toNat ≤ d.length) :
    ∃ rep w', bsslSign lib (some ()) (some p) (some g) (some d) (some sz) w = .ok (rep, w') ∧
      ((∃ n r s, (r, s) = lib.ecSign c x (sha2 c.digest g.bytes) n ∧
          rep = ⟨.ok, some (toBE c.octets r ++ toBE c.octets s ++ d.drop (2 * c.octets)), some (UInt64.ofNat (2 * c.octets))⟩) ∨
       LibFailure lib w w' rep.err) := by
  have hobj : w.object (some p) = some ⟨type, .inr (.ec c x)⟩ := by
    unfold World.object
    unfold Live at hl
    simp [hl]
  obtain ⟨r, w', e, _, _, h⟩ := C49_sign lib hlib (some ()) (some p) (some g) (some d) (some sz) w hw (fun q hq => by
    simp only [Option.some.injEq] at hq; subst hq; exact ⟨_, hl⟩) (fun g' h => by simp only [Option.some.injEq] at h; subst h; exact hg)
    (fun d' sz' h1 h2 => by simp only [Option.some.injEq] at h1 h2; subst h1 h2; exact hd)
  refine ⟨r, w', e, ?_⟩
  rcases h with ⟨h1, h2⟩ | ⟨_, h⟩
  · left
    have hc : curveOf type = some c := (hw p _ hl).1
    obtain ⟨n, hn, hn2⟩ : ∃ n, documentedSignatureSize type = some n ∧ n = UInt64.ofNat (2 * c.octets) := by
      unfold curveOf at hc
      split at hc
      · rename_i h; subst h
        simp only [Option.some.injEq] at hc
        subst hc
        exact ⟨64, rfl, rfl⟩
      · split at hc
        · rename_i h; subst h
          simp only [Option.some.injEq] at hc
          subst hc
          exact ⟨96, rfl, rfl⟩
        · simp at hc
    have hnn : n.toNat = 2 * c.octets := by rw [hn2]; cases c <;> rfl
    have hok : r.err = .ok := by
      rw [h1, hobj]
      simp only [documentedSignError, hn]
      rw [if_neg]
      · simp [gatherError, hg1, hg2]
      · rintro (h | h)
        · simp at h
        · have := UInt64.lt_iff_toNat_lt.1 h
          omega
    rw [hobj] at h2
    unfold SizedEffects at h2
    rw [hok] at h2
    obtain ⟨n', d', v, e1, e2, e3, ⟨k, sk, g', e4, e5, e6, e7⟩, e8, e9⟩ := h2
    simp only [Option.some.injEq] at e2 e4 e6
    subst e2 e4 e6
    simp only [Sum.inr.injEq] at e5
    subst e5
    obtain ⟨m, e7⟩ := e7
    have : n' = n := by
      have : some n = some n' := hn.symm.trans e1
      simpa using this.symm
    subst this
    refine ⟨m, _, _, rfl, ?_⟩
    obtain ⟨re, ro, rs⟩ := r
    simp only at hok e8 e9
    rw [hok, e8, e9, e7, hnn, hn2]
  · exact .inr h

/-- The size is not reliable after a failure: if `EVP_DigestSignFinal` fails, `sign` reports an implementation specific error and the size is 104 from then on, whatever
the size of the buffer.  A caller who tries again with the same variables announces memory they do not have. -/
theorem C49_sign_failure_size (lib : Lib) (c : Curve) (x : Nat) (type : UInt32) (p : Nat) (w : World) (hw : w.Ok) (hl : Live w p ⟨type, .inr (.ec c x)⟩)
    (hlib : ∀ i, lib.fails (w.calls + i) = (i == 2)) (d : Bytes) (sz : UInt64) (hsz : 2 * c.octets ≤ sz.toNat) :
    bsslSign lib (some ()) (some p) (some ⟨0, none⟩) (some d) (some sz) w = .ok (⟨.implementationSpecific, some d, some 104⟩, ⟨w.calls + 3, w.heap⟩) := by
  have hc : curveOf type = some c := (hw p _ hl).1
  have h0 := hlib 0
  have h1 := hlib 1
  have h2 := hlib 2
  have hload : loadKey p w = .ok (⟨type, .inr (.ec c x)⟩, w) := by
    unfold loadKey
    unfold Live at hl
    rw [hl]
  have main : ∀ n : UInt64, n.toNat = 2 * c.octets → ecSign lib c.digest (.ec c x) (some ⟨0, none⟩) n d sz ⟨w.calls + 1, w.heap⟩ =
      .ok (⟨.implementationSpecific, some d, some 104⟩, ⟨w.calls + 3, w.heap⟩) := by
    intro n hn
    unfold ecSign
    rw [bindB (a := .ok []) (w' := ⟨w.calls + 2, w.heap⟩)]
    · simp only
      rw [bindB (a := (List.range 104).map (lib.junk (w.calls + 2 - 1))) (w' := ⟨w.calls + 2, w.heap⟩) rfl]
      unfold ecFinal
      rw [bindB (a := w.calls + 2) (w' := ⟨w.calls + 2, w.heap⟩) rfl, bindB (a := !lib.fails (w.calls + 2)) (w' := ⟨w.calls + 3, w.heap⟩) rfl, h2]
      rfl
    · show (ecMessage lib (some ⟨0, none⟩)) _ = _
      unfold ecMessage
      simp only
      rw [if_neg (by simp), bindE (a := ()) (w' := ⟨w.calls + 2, w.heap⟩)]
      · rfl
      · unfold need
        simp only [h1]
        rfl
  unfold bsslSign
  simp only
  rw [bindB hload]
  have h4 : ¬ type = 4 := by
    rintro rfl
    simp [curveOf] at hc
  rw [if_neg h4, bindLift (x := castEvp ⟨type, .inr (.ec c x)⟩) (a := .ec c x) rfl]
  unfold bsslSignRun
  rw [bindB (a := !lib.fails w.calls) (w' := ⟨w.calls + 1, w.heap⟩) rfl]
  rw [Nat.add_zero] at h0
  rw [h0, if_neg (by simp)]
  unfold curveOf at hc
  split at hc
  · rename_i h
    subst h
    simp only [Option.some.injEq] at hc
    subst hc
    have hs1 : signatureSize 1 = some 64 := rfl
    simp only [hs1]
    have hge : ¬ sz < 64 := fun h => by
      have := UInt64.lt_iff_toNat_lt.1 h
      have e : (64 : UInt64).toNat = 64 := rfl
      rw [e] at this
      have e : Curve.p256.octets = 32 := rfl
      omega
    rw [if_neg hge, if_neg (by decide)]
    exact main 64 rfl
  · split at hc
    · rename_i h
      subst h
      simp only [Option.some.injEq] at hc
      subst hc
      have hs1 : signatureSize 2 = some 96 := rfl
      simp only [hs1]
      have hge : ¬ sz < 96 := fun h => by
        have := UInt64.lt_iff_toNat_lt.1 h
        have e : (96 : UInt64).toNat = 96 := rfl
        rw [e] at this
        have e : Curve.p384.octets = 48 := rfl
        omega
      rw [if_neg hge, if_neg (by decide), if_neg (by decide)]
      exact main 96 rfl
    · simp at hc

/-! ## get_public_key -/

/-- The octets `key_get_public_key` needs for the key of a handle. -/
def publicNeed (key : Option BsslKey) : Option UInt64 := key.bind fun k => documentedPublicKeySize k.type

/-- **C49** (key_get_public_key). -/
theorem C49_public_key (lib : Lib) (hlib : lib.Standard) (ctx : Option Unit) (key : Option Nat) (out : Option Bytes) (size : Option UInt64)
    (w : World) (hw : w.Ok) (hk : HandleOk w key) (ho : ∀ d sz, out = some d → size = some sz → sz.toNat ≤ d.length) :
    RepliesAt lib Reply.err (bsslPublicKey lib ctx key out size)
      (fun r => r.err = documentedPublicKeyError ctx (w.object key) out size ∧
        SizedEffects (publicNeed (w.object key)) (fun v => ∃ k sk, w.object key = some k ∧ k.body = .inr sk ∧ v = publicKeyOf lib sk) out size r)
      (fun r => r.out = out ∧ r.size = size) w := by
  cases ctx with
  | none => exact Replies.pure ⟨rfl, rfl, rfl⟩ w
  | some u =>
    cases key with
    | none => exact Replies.pure ⟨rfl, rfl, rfl⟩ w
    | some p =>
      obtain ⟨k, hl⟩ := hk p rfl
      have hobj : w.object (some p) = some k := by
        unfold World.object
        unfold Live at hl
        simp [hl]
      have hload : loadKey p w = .ok (k, w) := by
        unfold loadKey
        unfold Live at hl
        rw [hl]
      rw [hobj]
      cases size with
      | none => exact Replies.pure ⟨rfl, rfl, rfl⟩ w
      | some sz =>
        have hrun : bsslPublicKey lib (some u) (some p) out (some sz) w = (match publicKeySize k.type, out with
          | none, _ => (pure ⟨.invalidKey, out, some sz⟩ : B Reply)
          | some n, none => pure ⟨.insufficientBufferSize, out, some n⟩
          | some n, some d =>
            if sz < n then pure ⟨.insufficientBufferSize, out, some n⟩
            else liftB (castEvp k) >>= fun key => match key with
              | .ec curve x => ecPublicKey lib k.type curve x n d sz
              | .ed25519 seed => edPublicKey lib k.type seed d sz) w := bindB hload
        unfold RepliesAt
        rw [hrun]
        clear hrun
        have hok := hw p k hl
        have hsizes : publicKeySize k.type = documentedPublicKeySize k.type := by
          unfold publicKeySize documentedPublicKeySize
          repeat' split
          all_goals first | rfl | simp_all
        rw [hsizes]
        cases hn : documentedPublicKeySize k.type with
        | none =>
          simp only
          refine Replies.pure ⟨?_, rfl, rfl⟩ w
          simp [documentedPublicKeyError, hn]
        | some n =>
          have hneed : publicNeed (some k) = some n := hn
          cases out with
          | none =>
            refine Replies.pure ⟨?_, rfl, hneed.symm⟩ w
            simp [documentedPublicKeyError, hn]
          | some d =>
            simp only
            by_cases hsz : sz < n
            · rw [if_pos hsz]
              refine Replies.pure ⟨?_, rfl, hneed.symm⟩ w
              simp [documentedPublicKeyError, hn, hsz]
            rw [if_neg hsz, hneed]
            have hszle : n.toNat ≤ sz.toNat := Nat.le_of_not_lt fun h => hsz (UInt64.lt_iff_toNat_lt.2 h)
            have hd := ho d sz rfl rfl
            have hdoc : documentedPublicKeyError (some u) (some k) (some d) (some sz) = .ok := by
              simp [documentedPublicKeyError, hn, hsz]
            rw [hdoc]
            obtain ⟨t, b⟩ := k
            cases b with
            | inl bits =>
              exfalso
              have : t = 4 := hok
              subst this
              simp [documentedPublicKeySize] at hn
            | inr sk =>
              rw [bindLift (x := castEvp ⟨t, .inr sk⟩) (a := sk) rfl]
              unfold KeyOk at hok
              cases sk with
              | ed25519 seed =>
                have ht : t = 3 := hok.1
                subst ht
                have : n = 32 := by
                  have : some (32 : UInt64) = some n := hn
                  simpa using this.symm
                subst this
                simp only
                unfold edPublicKey
                rw [if_neg (by simp)]
                refine Replies.call (lib := lib) (err := Reply.err) (F := fun r => r.out = some d ∧ r.size = some sz) ?_ (fun w => ⟨_, rfl, ⟨rfl, rfl⟩, .inr rfl⟩) w
                have hp := hlib.edPublic seed
                rw [if_neg (by simp), bindLift (writeOut_ok d (lib.edPublic seed) (by rw [hp]; exact Nat.le_trans hszle hd)), if_neg (by rw [hp]; simp), hp]
                exact Replies.pure ⟨rfl, 32, d, _, rfl, rfl, hp, ⟨_, _, rfl, rfl, rfl⟩, rfl, rfl⟩
              | ec c x =>
                have hc : curveOf t = some c := hok.1
                obtain ⟨ht, hn2⟩ : (t = 1 ∨ t = 2) ∧ n.toNat = 2 * c.octets := by
                  unfold curveOf at hc
                  split at hc
                  · rename_i h
                    have ht : t = 1 := h
                    subst ht
                    have : n = 64 := by
                      have : some (64 : UInt64) = some n := hn
                      simpa using this.symm
                    subst this
                    simp only [Option.some.injEq] at hc
                    subst hc
                    exact ⟨.inl rfl, rfl⟩
                  · split at hc
                    · rename_i h
                      have ht : t = 2 := h
                      subst ht
                      have : n = 96 := by
                        have : some (96 : UInt64) = some n := hn
                        simpa using this.symm
                      subst this
                      simp only [Option.some.injEq] at hc
                      subst hc
                      exact ⟨.inr rfl, rfl⟩
                    · simp at hc
                simp only
                unfold ecPublicKey
                rw [if_neg (by rintro ⟨h1, h2⟩; rcases ht with h | h <;> contradiction)]
                refine Replies.call (lib := lib) (err := Reply.err) (F := fun r => r.out = some d ∧ r.size = some sz) ?_ (fun w => ⟨_, rfl, ⟨rfl, rfl⟩, .inl rfl⟩) w
                rw [if_neg (by simp)]
                have hv : (toBE c.octets (lib.ecPublic c x).1 ++ toBE c.octets (lib.ecPublic c x).2).length = n.toNat := by
                  rw [List.length_append, toBE_length, toBE_length]; omega
                simp only
                rw [if_neg (by
                  unfold x962
                  rintro (h | h)
                  · rw [List.length_cons, hv] at h
                    exact h rfl
                  · simp at h)]
                have hmem : memcpy (some d) 0 (localPtr ((x962 c (lib.ecPublic c x)).drop 1)) n =
                    .ok (toBE c.octets (lib.ecPublic c x).1 ++ toBE c.octets (lib.ecPublic c x).2 ++ d.drop n.toNat) := by
                  unfold memcpy localPtr x962
                  simp only [List.drop_succ_cons, List.drop_zero]
                  rw [if_neg (by rw [hv]; omega), if_neg (by rw [UInt64.toNat_zero]; omega), UInt64.toNat_zero]
                  have ht : (toBE c.octets (lib.ecPublic c x).1 ++ toBE c.octets (lib.ecPublic c x).2).take n.toNat = _ :=
                    List.take_of_length_le (by rw [hv]; exact Nat.le_refl _)
                  rw [ht, List.take_zero, List.nil_append, Nat.zero_add]
                rw [bindLift hmem]
                exact Replies.pure ⟨rfl, n, d, _, rfl, rfl, hv, ⟨_, _, rfl, rfl, rfl⟩, rfl, rfl⟩

/-! ## key_free, make_secret, open and close -/

/-- **C49** (key_free).  Never fails with a context, accepts NULL, and destroys the one key object. -/
theorem C49_free (ctx : Option Unit) (key : Option Nat) (w : World) (hk : HandleOk w key) :
    ∃ w', bsslKeyFree ctx key w = .ok (if ctx = none then .invalidContext else .ok, w') ∧
      w' = match ctx, key with
        | some _, some p => { w with heap := w.heap.set p none }
        | _, _ => w := by
  cases ctx with
  | none => exact ⟨w, rfl, rfl⟩
  | some u =>
    cases key with
    | none => exact ⟨w, rfl, rfl⟩
    | some p =>
      obtain ⟨k, hl⟩ := hk p rfl
      refine ⟨_, ?_, rfl⟩
      unfold bsslKeyFree
      simp only
      rw [bindB (a := ()) (w' := { w with heap := w.heap.set p none })]
      · rfl
      · unfold deleteKey
        unfold Live at hl
        rw [hl]

/-- **C49** (make_secret).  The new handle refers to a new CDI with the octets of the secret. -/
theorem C49_secret (ctx : Option Unit) (secret : Option Slice) (keyOut : Option (Option Nat)) (w : World) (hs : ∀ s, secret = some s → s.Valid) :
    ∃ r w', bsslMakeSecret ctx secret keyOut w = .ok (r, w') ∧ r.1 = documentedSecretError ctx secret keyOut ∧
      (if r.1 = .ok then ∃ s, secret = some s ∧ s.bytes ≠ [] ∧ r.2 = some (some w.heap.length) ∧ w' = ⟨w.calls, w.heap ++ [some ⟨4, .inl s.bytes⟩]⟩
       else r.2 = keyOut ∧ w' = w) := by
  cases ctx with
  | none => exact ⟨_, w, rfl, rfl, by rw [if_neg (by simp)]; exact ⟨rfl, rfl⟩⟩
  | some u =>
    cases secret with
    | none => exact ⟨_, w, rfl, rfl, by rw [if_neg (by simp)]; exact ⟨rfl, rfl⟩⟩
    | some s =>
      have hv := hs s rfl
      unfold bsslMakeSecret
      cases hb : s.buffer with
      | none =>
        simp only [hb]
        refine ⟨_, w, rfl, ?_, by rw [if_neg (by simp)]; exact ⟨rfl, rfl⟩⟩
        simp [documentedSecretError, hb]
      | some p =>
        simp only [hb]
        by_cases h0 : s.size = 0
        · rw [if_pos h0]
          refine ⟨_, w, rfl, ?_, by rw [if_neg (by simp)]; exact ⟨rfl, rfl⟩⟩
          simp [documentedSecretError, h0]
        rw [if_neg h0]
        cases keyOut with
        | none =>
          refine ⟨_, w, rfl, ?_, by rw [if_neg (by simp)]; exact ⟨rfl, rfl⟩⟩
          simp [documentedSecretError, hb, h0]
        | some old =>
          simp only
          rw [bindLift (readSlice_ok s hv p hb)]
          refine ⟨_, _, rfl, ?_, ?_⟩
          · simp [documentedSecretError, hb, h0]
          · rw [if_pos rfl]
            refine ⟨s, rfl, ?_, rfl, rfl⟩
            intro he
            have hl : s.size.toNat ≤ p.data.length := hv p hb
            unfold Slice.bytes at he
            rw [hb] at he
            simp only at he
            have := congrArg List.length he
            rw [List.length_take] at this
            simp only [List.length_nil] at this
            exact h0 (UInt64.toNat_inj.1 (by simp; omega))

/-- **C53** (reference context). -/
theorem C53_bssl_open_close (c : Option Unit) :
    bsslOpen none = (.unexpectedNull, none) ∧ bsslOpen (some c) = (.ok, some (some ())) ∧ bsslClose none = .unexpectedNull ∧ bsslClose (some ()) = .ok :=
  ⟨rfl, rfl, rfl, rfl⟩

/-! ## Histories -/

theorem ok_append {w w' : World} (hw : w.Ok) {k : BsslKey} (hk : KeyOk k) (h : w'.heap = w.heap ++ [some k]) : w'.Ok := by
  intro p x hp
  rw [h] at hp
  rcases Nat.lt_or_ge p w.heap.length with hlt | hge
  · rw [List.getElem?_append_left hlt] at hp
    exact hw p x hp
  · rw [List.getElem?_append_right hge] at hp
    cases hi : p - w.heap.length with
    | zero =>
      rw [hi] at hp
      simp only [List.getElem?_cons_zero, Option.some.injEq] at hp
      subst hp
      exact hk
    | succ n => rw [hi] at hp; simp at hp

/-- **C57** (one call).  Any call a program may make returns, unless no candidate for a private key is acceptable; in particular it does nothing undefined.
Afterwards all key objects are in order again, and all handles still refer to the same objects, but for the one that was destroyed. -/
theorem C57_step (lib : Lib) (hlib : lib.Standard) (op : KeyOp) (w : World) (hw : w.Ok) (hl : op.Legal w) :
    (op.run lib w = .error .diverges ∧ op.Stuck lib w) ∨
    ∃ e w', op.run lib w = .ok (e, w') ∧ w'.Ok ∧ ∀ p k, Live w p k → ¬ op.Destroys p → Live w' p k := by
  have keep : ∀ w' : World, w'.heap = w.heap → w'.Ok ∧ ∀ p k, Live w p k → ¬ op.Destroys p → Live w' p k := by
    intro w' h
    refine ⟨fun p k hp => hw p k (by rw [← h]; exact hp), fun p k hp _ => ?_⟩
    unfold Live at hp ⊢
    rw [h]
    exact hp
  have grow : ∀ (w' : World) (k : BsslKey), KeyOk k → w'.heap = w.heap ++ [some k] → w'.Ok ∧ ∀ p k, Live w p k → ¬ op.Destroys p → Live w' p k := by
    intro w' k hk h
    refine ⟨ok_append hw hk h, fun p x hp _ => ?_⟩
    unfold Live at hp ⊢
    rw [h, List.getElem?_append_left]
    · exact hp
    · exact (List.getElem?_eq_some_iff.1 hp).1
  cases op with
  | kdf ctx keyIn type context keyOut =>
    obtain ⟨h1, h2⟩ := hl
    rcases C49_kdf lib ctx keyIn type context keyOut w hw h1 h2 with ⟨e, p, cdi, g, rfl, hp, rfl, hn⟩ | ⟨r, w', e, h⟩
    · exact .inl ⟨bindB_error e, ctx, p, type, g, keyOut, cdi, rfl, hp, hn⟩
    · refine .inr ⟨r.1, w', (bindB e).trans rfl, ?_⟩
      rcases h with ⟨_, h⟩ | ⟨_, _, h⟩
      · unfold KdfEffects at h
        split at h
        · obtain ⟨p, cdi, g, k, _, _, _, hd, _, hh⟩ := h
          exact grow w' k (derived_ok hd) hh
        · exact keep w' h.2
      · exact keep w' h
  | sign ctx key msg out size =>
    obtain ⟨h1, h2, h3⟩ := hl
    obtain ⟨r, w', e, h, _⟩ := C49_sign lib hlib ctx key msg out size w hw h1 h2 h3
    exact .inr ⟨r.err, w', (bindB e).trans rfl, keep w' h⟩
  | publicKey ctx key out size =>
    obtain ⟨h1, h2⟩ := hl
    obtain ⟨r, w', e, h, _⟩ := C49_public_key lib hlib ctx key out size w hw h1 h2
    exact .inr ⟨r.err, w', (bindB e).trans rfl, keep w' h⟩
  | free ctx key =>
    obtain ⟨w', e, h⟩ := C49_free ctx key w hl
    refine .inr ⟨_, w', e, ?_⟩
    cases ctx with
    | none => subst h; exact keep _ rfl
    | some u =>
      cases key with
      | none => subst h; exact keep _ rfl
      | some p =>
        subst h
        constructor
        · intro q k hq
          simp only [List.getElem?_set] at hq
          split at hq
          · split at hq <;> simp at hq
          · exact hw q k hq
        · intro q k hq hd
          unfold Live at hq ⊢
          rw [List.getElem?_set_ne]
          · exact hq
          · rintro rfl
            exact hd ⟨rfl, rfl⟩
  | makeSecret ctx secret keyOut =>
    obtain ⟨r, w', e, _, h⟩ := C49_secret ctx secret keyOut w hl
    refine .inr ⟨r.1, w', (bindB e).trans rfl, ?_⟩
    split at h
    · obtain ⟨s, _, _, _, rfl⟩ := h
      exact grow _ _ (show KeyOk ⟨4, .inl s.bytes⟩ from rfl) rfl
    · rw [h.2]
      exact keep _ rfl

/-- **C57**.  After every history of legal calls, whatever library calls failed in it: every handle that was obtained and not destroyed since refers to the same key object as at first, and every further legal
call is defined (it returns, unless no candidate for a private key is acceptable). -/
theorem C57_histories (lib : Lib) (hlib : lib.Standard) (w : World) (hw : w.Ok) (ops : List (KeyOp × N20Error)) (w' : World) (h : History lib w ops w') :
    w'.Ok ∧ (∀ p k, Live w p k → (∀ x ∈ ops, ¬ x.1.Destroys p) → Live w' p k) ∧
    ∀ op : KeyOp, op.Legal w' → (op.run lib w' = .error .diverges ∧ op.Stuck lib w') ∨ ∃ e w'', op.run lib w' = .ok (e, w'') := by
  induction h with
  | nil w =>
    refine ⟨hw, fun p k hp _ => hp, fun op ho => ?_⟩
    rcases C57_step lib hlib op w hw ho with h | ⟨e, w'', h, _⟩
    · exact .inl h
    · exact .inr ⟨e, w'', h⟩
  | @cons w w1 w2 op e ops hl hr hh ih =>
    rcases C57_step lib hlib op w hw hl with ⟨h, _⟩ | ⟨e', w'', h, h1, h2⟩
    · rw [hr] at h; simp at h
    · rw [hr] at h
      simp only [Except.ok.injEq, Prod.mk.injEq] at h
      obtain ⟨rfl, rfl⟩ := h
      obtain ⟨i1, i2, i3⟩ := ih h1
      refine ⟨i1, fun p k hp hd => ?_, i3⟩
      exact i2 p k (h2 p k hp (hd (op, e) (by simp))) fun x hx => hd x (List.mem_cons_of_mem _ hx)

/-! ## Determinism -/

/-- There is one key for a CDI, a context and a type. -/
theorem derived_unique {cdi context : Bytes} {type : UInt32} {k k' : BsslKey} (h : IsDerived cdi context type k) (h' : IsDerived cdi context type k') : k = k' := by
  obtain ⟨t, b⟩ := k
  obtain ⟨t', b'⟩ := k'
  obtain ⟨h1, h2⟩ := h
  obtain ⟨h1', h2'⟩ := h'
  simp only at h1 h1' h2 h2'
  subst h1 h1'
  congr 1
  rcases h2 with ⟨e, rfl⟩ | ⟨e, rfl⟩ | ⟨c, d, n, e, rfl, hn⟩ <;> rcases h2' with ⟨e', rfl⟩ | ⟨e', rfl⟩ | ⟨c', d', n', e', rfl, hn'⟩
  · rfl
  · subst e; simp at e'
  · subst e; simp [curveOf] at e'
  · subst e; simp at e'
  · rfl
  · subst e; simp [curveOf] at e'
  · subst e'; simp [curveOf] at e
  · subst e'; simp [curveOf] at e
  · rw [e] at e'
    simp only [Option.some.injEq] at e'
    subst e'
    rw [nonce_unique hn hn']

/-- **C58**.  Whenever `kdf` succeeds twice, with the same CDI (in one handle or in two), the same type and contexts of the same octets (however they are cut into slices), the keys are
the same; it does not matter what happened in between, what the library did, nor how often. -/
theorem C58_kdf_deterministic (lib lib' : Lib) (p p' : Nat) (type : UInt32) (g g' : GatherList) (old old' : Option Nat) (w v : World) (hw : w.Ok) (hv : v.Ok)
    (cdi : Bytes) (hp : Live w p ⟨4, .inl cdi⟩) (hp' : Live v p' ⟨4, .inl cdi⟩) (hg : g.Valid) (hg' : g'.Valid) (hgg : g.bytes = g'.bytes) (w' v' : World) (h h' : Nat)
    (e : bsslKdf lib (some ()) (some p) type (some g) (some old) w = .ok ((.ok, some (some h)), w'))
    (e' : bsslKdf lib' (some ()) (some p') type (some g') (some old') v = .ok ((.ok, some (some h')), v')) :
    ∃ k, Live w' h k ∧ Live v' h' k ∧ IsDerived cdi g.bytes type k := by
  have one : ∀ (lib : Lib) (p : Nat) (g : GatherList) (old : Option Nat) (w w' : World) (h : Nat), w.Ok → Live w p ⟨4, .inl cdi⟩ → g.Valid →
      bsslKdf lib (some ()) (some p) type (some g) (some old) w = .ok ((.ok, some (some h)), w') → ∃ k, Live w' h k ∧ IsDerived cdi g.bytes type k := by
    intro lib p g old w w' h hw hp hg e
    rcases C49_kdf lib (some ()) (some p) type (some g) (some old) w hw (fun q hq => by simp only [Option.some.injEq] at hq; subst hq; exact ⟨_, hp⟩)
      (fun x hx => by simp only [Option.some.injEq] at hx; subst hx; exact hg) with ⟨e1, _⟩ | ⟨r, w1, e1, hr⟩
    · rw [e] at e1; simp at e1
    · rw [e] at e1
      simp only [Except.ok.injEq, Prod.mk.injEq] at e1
      obtain ⟨rfl, rfl⟩ := e1
      rcases hr with ⟨_, hr⟩ | ⟨⟨hr, _⟩, _⟩
      · unfold KdfEffects at hr
        rw [if_pos rfl] at hr
        obtain ⟨q, c, x, k, e2, e3, e4, e5, e6, e7⟩ := hr
        simp only [Option.some.injEq] at e2 e4 e6
        subst e2 e4 e6
        unfold Live at hp e3
        rw [hp] at e3
        simp only [Option.some.injEq, BsslKey.mk.injEq, Sum.inl.injEq, true_and] at e3
        subst e3
        refine ⟨k, ?_, e5⟩
        unfold Live
        rw [e7, List.getElem?_append_right (Nat.le_refl _)]
        simp
      · rcases hr with hr | hr <;> simp at hr
  obtain ⟨k, h1, h2⟩ := one lib p g old w w' h hw hp hg e
  obtain ⟨k', h1', h2'⟩ := one lib' p' g' old' v v' h' hv hp' hg' e'
  rw [← hgg] at h2'
  have := derived_unique h2 h2'
  subst this
  exact ⟨k, h1, h1', h2⟩

/-! ## Examples -/

/-- The library of the examples meets the assumptions. -/
theorem calmLib_standard : calmLib.Standard := by
  refine ⟨fun _ => by rfl, fun _ _ => by rfl, fun c d h n => ?_⟩
  show 1 ≤ 3 ∧ 3 < c.order ∧ 1 ≤ 4 ∧ 4 < c.order
  cases c <;> decide

/-- A state with a CDI, a P-256 key, an Ed25519 key and a handle that was freed. -/
def someKeys : World := ⟨0, [some ⟨4, .inl [1, 2, 3]⟩, some ⟨1, .inr (.ec .p256 5)⟩, some ⟨3, .inr (.ed25519 (List.replicate 32 8))⟩, none]⟩

theorem someKeys_ok : someKeys.Ok := by
  intro p k h
  match p with
  | 0 => simp only [someKeys, List.getElem?_cons_zero, Option.some.injEq] at h; subst h; rfl
  | 1 =>
    simp only [someKeys, List.getElem?_cons_succ, List.getElem?_cons_zero, Option.some.injEq] at h
    subst h
    exact ⟨rfl, by decide, by decide⟩
  | 2 =>
    simp only [someKeys, List.getElem?_cons_succ, List.getElem?_cons_zero, Option.some.injEq] at h
    subst h
    exact ⟨rfl, by decide⟩
  | 3 => simp [someKeys] at h
  | n + 4 => simp [someKeys] at h

/-- An ECDSA signature of small integers. -/
example : bsslSign calmLib (some ()) (some 1) (some ⟨0, none⟩) (some (List.replicate 66 0xff)) (some 66) someKeys =
    .ok (⟨.ok, some (List.replicate 31 0 ++ [3] ++ List.replicate 31 0 ++ [4] ++ [0xff, 0xff]), some 64⟩, ⟨3, someKeys.heap⟩) := by decide +kernel

/-- The same for a library that gives large ones: the DER encoding has leading zeros then. -/
example : bsslSign { calmLib with ecSign := fun _ _ _ _ => (2 ^ 255, 2 ^ 255 + 1) } (some ()) (some 1) (some ⟨0, none⟩) (some (List.replicate 66 0xff)) (some 66) someKeys =
    .ok (⟨.ok, some (0x80 :: List.replicate 31 0 ++ 0x80 :: List.replicate 30 0 ++ [1] ++ [0xff, 0xff]), some 64⟩, ⟨3, someKeys.heap⟩) := by decide +kernel

/-- Keys of the wrong kind, asking for the size, and public keys. -/
example : bsslSign calmLib (some ()) (some 0) (some ⟨0, none⟩) none (some 0) someKeys = .ok (⟨.invalidKey, none, some 0⟩, someKeys) ∧
    bsslSign calmLib (some ()) (some 2) none none (some 0) someKeys = .ok (⟨.insufficientBufferSize, none, some 64⟩, ⟨1, someKeys.heap⟩) ∧
    bsslPublicKey calmLib (some ()) (some 1) (some (List.replicate 64 9)) (some 64) someKeys =
      .ok (⟨.ok, some (List.replicate 31 0 ++ [1] ++ List.replicate 31 0 ++ [2]), some 64⟩, ⟨1, someKeys.heap⟩) ∧
    bsslKdf calmLib (some ()) (some 1) 4 (some ⟨0, none⟩) (some none) someKeys = .ok ((.invalidKey, some none), someKeys) ∧
    bsslSign calmLib (some ()) (some 3) none none (some 0) someKeys = .error .useAfterFree := by decide +kernel

/-- A derivation that succeeds, so that `C58_kdf_deterministic` applies to it. -/
example : ∃ w', bsslKdf calmLib (some ()) (some 0) 3 (some ⟨0, none⟩) (some none) someKeys = .ok ((.ok, some (some 4)), w') := by
  rcases C49_kdf calmLib (some ()) (some 0) 3 (some ⟨0, none⟩) (some none) someKeys someKeys_ok
    (fun p hp => by simp only [Option.some.injEq] at hp; subst hp; exact ⟨_, rfl⟩)
    (fun g hg => by
      simp only [Option.some.injEq] at hg
      subst hg
      exact ⟨fun l hl => by simp at hl, fun s hs => by simp [GatherList.slices] at hs⟩) with ⟨_, _, _, _, _, _, _, c, h, _⟩ | ⟨⟨e, o⟩, w', e1, h⟩
  · simp [curveOf] at h
  · refine ⟨w', ?_⟩
    rw [e1]
    rcases h with ⟨h1, h2⟩ | ⟨⟨_, i, _, _, h⟩, _⟩
    · have h1 : e = .ok := h1
      subst h1
      unfold KdfEffects at h2
      rw [if_pos rfl] at h2
      obtain ⟨p, cdi, g, k, _, _, _, _, h3, _⟩ := h2
      have h3 : o = some (some 4) := h3
      rw [h3]
    · simp [calmLib] at h

/-- A history: a secret is made, a derivation fails, a handle is freed. -/
example : History calmLib someKeys [(.makeSecret (some ()) (some ⟨1, some ⟨[], [7]⟩⟩) (some none), .ok),
    (.kdf (some ()) (some 4) 1 none (some none), .nullData), (.free (some ()) (some 0), .ok)]
    (World.mk 0 ((someKeys.heap ++ [some (BsslKey.mk 4 (.inl [7]))]).set 0 none)) := by
  refine History.cons (w1 := World.mk 0 (someKeys.heap ++ [some (BsslKey.mk 4 (.inl [7]))])) ?_ rfl (History.cons (w1 := World.mk 0 (someKeys.heap ++ [some (BsslKey.mk 4 (.inl [7]))])) ?_ rfl
    (History.cons (w1 := World.mk 0 ((someKeys.heap ++ [some (BsslKey.mk 4 (.inl [7]))]).set 0 none)) ?_ rfl (.nil _)))
  · intro s hs
    simp only [Option.some.injEq] at hs
    subst hs
    intro p hp
    simp only [Option.some.injEq] at hp
    subst hp
    decide
  · refine ⟨fun p hp => ?_, fun g hg => by simp at hg⟩
    simp only [Option.some.injEq] at hp
    subst hp
    exact ⟨_, rfl⟩
  · intro p hp
    simp only [Option.some.injEq] at hp
    subst hp
    exact ⟨_, rfl⟩

end Nat20
