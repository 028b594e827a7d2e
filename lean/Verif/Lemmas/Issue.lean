import Verif.Model.Issue
import Verif.Spec.Issue
import Verif.Props.Keys
import Verif.Props.X509
/-!
# Lemmas about issuing certificates
-/

namespace Nat20

open Der Fips Pki

/-! ## Rendering into a buffer -/

theorem renderInto_ok {w : W Unit} {bs : Bytes} (hw : Prepends w bs) (buffer : Bytes) (hb : buffer.length < 2 ^ 64) :
    (renderInto w buffer = .ok none ∧ buffer.length < bs.length) ∨
    (∃ mem off n, renderInto w buffer = .ok (some (mem, off, n)) ∧ mem.length = buffer.length ∧ bs.length ≤ buffer.length ∧
      n.toNat = bs.length ∧ mem.drop off.toNat = bs) := by
  have hs : (UInt64.ofNat buffer.length).toNat = buffer.length := UInt64.toNat_ofNat_of_lt' hb
  obtain ⟨s', mem', e, hwf, hm, hl, _, hbo, hwp, hc, hf⟩ := fresh_stream hw buffer (UInt64.ofNat buffer.length) (by omega)
  rw [hs] at hbo hf
  have hrun : renderInto w buffer = (if streamHasBufferOverflow (some s') || streamHasWritePositionOverflow (some s') then Except.ok none
      else match (some s').bind Stream.begin_, streamData (some s') with
        | some mem, some off => Except.ok (some (mem, off, streamByteCount (some s')))
        | _, _ => .error .nullDeref) := by
    unfold renderInto
    rw [e]
    rfl
  cases hb' : s'.bufferOverflow with
  | true =>
    left
    refine ⟨?_, hbo.1 hb'⟩
    rw [hrun]
    simp [streamHasBufferOverflow, hb']
  | false =>
    right
    have hle : bs.length ≤ buffer.length := by
      apply Nat.le_of_not_lt
      intro h
      rw [hbo.2 h] at hb'
      simp at hb'
    have hwp' : s'.writePositionOverflow = false := by
      cases h : s'.writePositionOverflow with
      | false => rfl
      | true => have := hwp.1 h; omega
    obtain ⟨hmem, _⟩ := hf hb'
    have hd : streamData (some s') = some (s'.size - s'.writePosition) := rfl
    refine ⟨mem', s'.size - s'.writePosition, s'.writePosition, ?_, hl, hle, hc hwp', ?_⟩
    · rw [hrun]
      simp only [streamHasBufferOverflow, streamHasWritePositionOverflow, hb', hwp', Bool.or_self, Bool.false_eq_true, if_false, Option.bind_some, hm, hd]
      rfl
    · have hsz : s'.size = UInt64.ofNat buffer.length := by
        obtain ⟨s2, e2, _, p⟩ := hw.run _ (streamInit_wf buffer (UInt64.ofNat buffer.length) (by omega))
        rw [e] at e2
        cases e2
        rw [p.size_eq]
        rfl
      have ho : (s'.size - s'.writePosition).toNat = buffer.length - bs.length := by
        have hle' : s'.writePosition ≤ s'.size := by
          rw [UInt64.le_iff_toNat_le, hc hwp', hsz, hs]
          exact hle
        rw [UInt64.toNat_sub_of_le _ _ hle', hc hwp', hsz, hs]
      rw [ho, hmem]
      rw [List.drop_of_length_le (Nat.le_refl buffer.length), List.append_nil, List.drop_append_of_le_length (by simp)]
      rw [List.drop_of_length_le (by simp), List.nil_append]

/-! ## Signatures -/

theorem fromBE_append (a b : Bytes) : fromBE (a ++ b) = fromBE a * 256 ^ b.length + fromBE b := by
  unfold fromBE
  rw [List.foldl_append]
  generalize List.foldl (fun acc (b : UInt8) => acc * 256 + b.toNat) 0 a = x
  induction b generalizing x with
  | nil => simp
  | cons c t ih =>
    simp only [List.foldl_cons, List.length_cons]
    rw [ih (x * 256 + c.toNat), ih (0 * 256 + c.toNat), Nat.pow_succ, Nat.add_mul, Nat.add_mul, Nat.mul_assoc, Nat.mul_comm 256, Nat.zero_mul, Nat.zero_add, Nat.add_assoc]

theorem fromBE_toBE (n : Nat) : ∀ r, r < 256 ^ n → fromBE (toBE n r) = r := by
  induction n with
  | zero =>
    intro r hr
    have : r = 0 := by simpa using hr
    subst this
    rfl
  | succ n ih =>
    intro r hr
    rw [toBE_succ, fromBE_append, ih (r / 256) (by rw [Nat.pow_succ] at hr; omega)]
    have : fromBE [UInt8.ofNat r] = r % 256 := by simp [fromBE]
    rw [this]
    simp only [List.length_singleton, Nat.pow_one]
    omega

theorem prepends_half (b x rest : Bytes) (n r : Nat) (half : UInt64) (hh : half.toNat = n) (hx : x = toBE n r) (hr : 1 ≤ r) (hr' : r < 256 ^ n) :
    Prepends (asn1Integer ⟨half, some ⟨b, x ++ rest⟩⟩ false false tagInfoNoOverride) (integer r).encode := by
  have hxl : x.length = n := by rw [hx, toBE_length]
  have hbytes : Slice.bytes ⟨half, some ⟨b, x ++ rest⟩⟩ = x := by
    simp only [Slice.bytes, hh]
    rw [List.take_append_of_le_length (by omega), List.take_of_length_le (by omega)]
  have hval : Slice.value ⟨half, some ⟨b, x ++ rest⟩⟩ false false = (r : Int) := by
    simp only [Slice.value, mostSignificantFirst, bytesValue, hbytes, Bool.false_eq_true, if_false]
    rw [hx, fromBE_toBE n r hr']
  have := prepends_integer ⟨half, some ⟨b, x ++ rest⟩⟩ false false tagInfoNoOverride
    (by intro p hp; cases hp; simp only [List.length_append]; omega) (by simp) (by simp) (by rw [hval]; right; constructor <;> omega)
  rw [hval] at this
  exact this

theorem prepends_rs (b rest : Bytes) (n r s : Nat) (size : UInt64) (hs : size.toNat = 2 * n) (hr : 1 ≤ r) (hr' : r < 256 ^ n) (hs1 : 1 ≤ s) (hs' : s < 256 ^ n) :
    Prepends (x509Rs ⟨b, toBE n r ++ toBE n s ++ rest⟩ size) (ecdsaDer r s) := by
  have hhalf : (size / 2).toNat = n := by
    have e2 : (2 : UInt64).toNat = 2 := rfl
    rw [UInt64.toNat_div, hs, e2]
    omega
  unfold x509Rs x509RsContent ecdsaDer
  refine prepends_sequence ?_
  have h1 : Prepends (asn1Integer ⟨size / 2, some (Ptr.advance ⟨b, toBE n r ++ toBE n s ++ rest⟩ (size / 2).toNat)⟩ false false tagInfoNoOverride)
      (integer s).encode := by
    have e : Ptr.advance ⟨b, toBE n r ++ toBE n s ++ rest⟩ (size / 2).toNat = ⟨b ++ toBE n r, toBE n s ++ rest⟩ := by
      have hl := toBE_length n r
      simp only [Ptr.advance, hhalf, List.append_assoc]
      rw [List.take_append_of_le_length (by omega), List.take_of_length_le (by omega), List.drop_append_of_le_length (by omega), List.drop_of_length_le (by omega), List.nil_append]
    rw [e]
    exact prepends_half _ _ _ n s _ hhalf rfl hs1 hs'
  have h2 : Prepends (asn1Integer ⟨size / 2, some ⟨b, toBE n r ++ toBE n s ++ rest⟩⟩ false false tagInfoNoOverride) (integer r).encode := by
    rw [List.append_assoc]
    exact prepends_half _ _ _ n r _ hhalf rfl hr hr'
  exact h1.singleDer.consDer h2

/-! ## What the crypto context does for keys that exist -/

theorem live_object {w : World} {p : Nat} {k : BsslKey} (hl : Live w p k) : w.object (some p) = some k := by
  unfold World.object
  unfold Live at hl
  simp [hl]

theorem live_handle {w : World} {p : Nat} {k : BsslKey} (hl : Live w p k) : HandleOk w (some p) := by
  intro q hq
  simp only [Option.some.injEq] at hq
  subst hq
  exact ⟨_, hl⟩

theorem LibFailure.not_ok {lib : Lib} {w w' : World} {e : N20Error} (h : LibFailure lib w w' e) : e ≠ .ok := by
  rcases h.1 with h | h <;> rw [h] <;> decide

/-- Keys that sign have a private key. -/
theorem evp_body {k : BsslKey} (hk : KeyOk k) (ht : k.type = 1 ∨ k.type = 2 ∨ k.type = 3) : ∃ sk, k.body = .inr sk := by
  obtain ⟨t, b⟩ := k
  cases b with
  | inl x =>
    simp only [KeyOk] at hk
    subst hk
    simp at ht
  | inr sk => exact ⟨sk, rfl⟩

theorem public_done (lib : Lib) (hlib : lib.Standard) (p : Nat) (k : BsslKey) (sk : PKey) (w : World) (hw : w.Ok) (hl : Live w p k)
    (hb : k.body = .inr sk) (n : UInt64) (hn : documentedPublicKeySize k.type = some n) (d : Bytes) (hd : d.length < 2 ^ 64) (hdn : n.toNat ≤ d.length) :
    ∃ rep w', bsslPublicKey lib (some ()) (some p) (some d) (some (UInt64.ofNat d.length)) w = .ok (rep, w') ∧ w'.heap = w.heap ∧ w.calls ≤ w'.calls ∧
      ((rep = ⟨.ok, some (publicKeyOf lib sk ++ d.drop n.toNat), some n⟩ ∧ (publicKeyOf lib sk).length = n.toNat) ∨ LibFailure lib w w' rep.err) := by
  have hs : (UInt64.ofNat d.length).toNat = d.length := UInt64.toNat_ofNat_of_lt' hd
  obtain ⟨r, w', e, hh, hc, h⟩ := C49_public_key lib hlib (some ()) (some p) (some d) (some (UInt64.ofNat d.length)) w hw (live_handle hl)
    (fun d' sz' h1 h2 => by simp only [Option.some.injEq] at h1 h2; subst h1 h2; omega)
  refine ⟨r, w', e, hh, hc, ?_⟩
  rcases h with ⟨h1, h2⟩ | ⟨_, h⟩
  · left
    have hok : r.err = .ok := by
      rw [h1, live_object hl]
      simp only [documentedPublicKeyError, hn]
      rw [if_neg]
      rintro (h | h)
      · simp at h
      · have := UInt64.lt_iff_toNat_lt.1 h
        omega
    rw [live_object hl] at h2
    unfold SizedEffects at h2
    rw [hok] at h2
    obtain ⟨n', d', v, e1, e2, e3, ⟨k', sk', e4, e5, e6⟩, e8, e9⟩ := h2
    simp only [Option.some.injEq] at e2 e4
    subst e2 e4
    rw [hb] at e5
    simp only [Sum.inr.injEq] at e5
    subst e5
    have : n' = n := by
      have : some n = some n' := hn.symm.trans e1
      simpa using this.symm
    subst this
    obtain ⟨re, ro, rs⟩ := r
    simp only at hok e8 e9
    rw [hok, e8, e9, ← e6]
    exact ⟨rfl, e3⟩
  · exact .inr h

theorem sign_done (lib : Lib) (hlib : lib.Standard) (p : Nat) (k : BsslKey) (sk : PKey) (w : World) (hw : w.Ok) (hl : Live w p k)
    (hb : k.body = .inr sk) (n : UInt64) (hn : documentedSignatureSize k.type = some n) (msg : Slice) (hm : msg.Valid) (hnull : msg.buffer ≠ none)
    (d : Bytes) (hd : d.length < 2 ^ 64) (hdn : n.toNat ≤ d.length) :
    ∃ rep w', bsslSign lib (some ()) (some p) (some ⟨1, some [msg]⟩) (some d) (some (UInt64.ofNat d.length)) w = .ok (rep, w') ∧ w'.heap = w.heap ∧ w.calls ≤ w'.calls ∧
      ((∃ v, rep = ⟨.ok, some (v ++ d.drop n.toNat), some n⟩ ∧ v.length = n.toNat ∧ IsSignature lib sk msg.bytes v) ∨ LibFailure lib w w' rep.err) := by
  have hs : (UInt64.ofNat d.length).toNat = d.length := UInt64.toNat_ofNat_of_lt' hd
  have hg1 : GatherList.NoNullList ⟨1, some [msg]⟩ := by intro h; simp at h
  have hsl : GatherList.slices ⟨1, some [msg]⟩ = [msg] := rfl
  have hg2 : GatherList.NoNullSlice ⟨1, some [msg]⟩ := by
    intro s hs hb
    rw [hsl, List.mem_singleton] at hs
    subst hs
    exact absurd hb hnull
  have hv : GatherList.Valid ⟨1, some [msg]⟩ := by
    refine ⟨?_, ?_⟩
    · intro l h
      simp only [Option.some.injEq] at h
      subst h
      exact Nat.le_refl 1
    · intro s hs
      rw [hsl, List.mem_singleton] at hs
      subst hs
      exact hm
  have hgb : GatherList.bytes ⟨1, some [msg]⟩ = msg.bytes := by simp [GatherList.bytes, hsl]
  obtain ⟨r, w', e, hh, hc, h⟩ := C49_sign lib hlib (some ()) (some p) (some ⟨1, some [msg]⟩) (some d) (some (UInt64.ofNat d.length)) w hw (live_handle hl)
    (fun g' h => by simp only [Option.some.injEq] at h; subst h; exact hv)
    (fun d' sz' h1 h2 => by simp only [Option.some.injEq] at h1 h2; subst h1 h2; omega)
  refine ⟨r, w', e, hh, hc, ?_⟩
  rcases h with ⟨h1, h2⟩ | ⟨_, h⟩
  · left
    have hok : r.err = .ok := by
      rw [h1, live_object hl]
      simp only [documentedSignError, hn]
      rw [if_neg]
      · simp [gatherError, hg1, hg2]
      · rintro (h | h)
        · simp at h
        · have := UInt64.lt_iff_toNat_lt.1 h
          omega
    rw [live_object hl] at h2
    unfold SizedEffects at h2
    rw [hok] at h2
    obtain ⟨n', d', v, e1, e2, e3, ⟨k', sk', g', e4, e5, e6, e7⟩, e8, e9⟩ := h2
    simp only [Option.some.injEq] at e2 e4 e6
    subst e2 e4 e6
    rw [hb] at e5
    simp only [Sum.inr.injEq] at e5
    subst e5
    rw [hgb] at e7
    have : n' = n := by
      have : some n = some n' := hn.symm.trans e1
      simpa using this.symm
    subst this
    obtain ⟨re, ro, rs⟩ := r
    simp only at hok e8 e9
    exact ⟨v, by rw [hok, e8, e9], e3, e7⟩
  · exact .inr h

end Nat20
