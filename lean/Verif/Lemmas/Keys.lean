import Verif.Spec.Keys
import Verif.Lemmas.Digest
/-!
# Lemmas about the reference context: how computations of the layer run, RFC 6979
-/

namespace Nat20

open Fips

/-- The outcomes of `c`: it leaves key objects alone; its result satisfies `P`, or its error `E`, or its error reports a failure of
the library, or it does not terminate and `D`. -/
def Runs {α : Type} (lib : Lib) (c : BE α) (P : α → Prop) (E : N20Error → Prop) (D : Prop) : Prop :=
  ∀ w, (c w = .error .diverges ∧ D) ∨
    ∃ r w', c w = .ok (r, w') ∧ w'.heap = w.heap ∧ w.calls ≤ w'.calls ∧
      match r with
      | .ok a => P a
      | .error e => E e ∨ LibFailure lib w w' e

theorem LibFailure.mono {lib : Lib} {w w1 w2 w3 : World} {e : N20Error} (h : LibFailure lib w1 w2 e) (h1 : w.calls ≤ w1.calls)
    (h2 : w2.calls ≤ w3.calls) : LibFailure lib w w3 e := by
  obtain ⟨he, i, a, b, c⟩ := h
  exact ⟨he, i, by omega, by omega, c⟩

theorem Runs.pure {α : Type} {lib : Lib} {a : α} {P : α → Prop} {E : N20Error → Prop} {D : Prop} (h : P a) :
    Runs lib (Pure.pure a : BE α) P E D := fun w => .inr ⟨.ok a, w, rfl, rfl, Nat.le_refl _, h⟩

theorem Runs.throw {α : Type} {lib : Lib} {e : N20Error} {P : α → Prop} {E : N20Error → Prop} {D : Prop} (h : E e) :
    Runs lib (MonadExcept.throw e : BE α) P E D := fun w => .inr ⟨.error e, w, rfl, rfl, Nat.le_refl _, .inl h⟩

theorem Runs.bind {α β : Type} {lib : Lib} {c : BE α} {f : α → BE β} {P : α → Prop} {Q : β → Prop} {E : N20Error → Prop} {D : Prop}
    (h : Runs lib c P E D) (hf : ∀ a, P a → Runs lib (f a) Q E D) : Runs lib (c >>= f) Q E D := by
  intro w
  rcases h w with ⟨e, d⟩ | ⟨r, w1, e, hh, hc, hr⟩
  · left
    refine ⟨?_, d⟩
    show ((c : BE α).run >>= _) w = _
    simp only [Bind.bind, StateT.bind, ExceptT.run, e, Except.bind]
  · cases r with
    | error x =>
      right
      refine ⟨.error x, w1, ?_, hh, hc, hr⟩
      show ((c : BE α).run >>= _) w = _
      simp only [Bind.bind, StateT.bind, ExceptT.run, e, Except.bind, ExceptT.bindCont]
      rfl
    | ok a =>
      have key : (c >>= f) w = f a w1 := by
        show ((c : BE α).run >>= _) w = _
        simp only [Bind.bind, StateT.bind, ExceptT.run, e, Except.bind, ExceptT.bindCont]
      rcases hf a hr w1 with ⟨e2, d⟩ | ⟨r2, w2, e2, hh2, hc2, hr2⟩
      · left
        exact ⟨by rw [key, e2], d⟩
      · right
        refine ⟨r2, w2, by rw [key, e2], hh2.trans hh, by omega, ?_⟩
        cases r2 with
        | ok b => exact hr2
        | error x =>
          rcases hr2 with h1 | h1
          · exact .inl h1
          · exact .inr (h1.mono hc (Nat.le_refl _))

theorem Runs.weaken {α : Type} {lib : Lib} {c : BE α} {P Q : α → Prop} {E F : N20Error → Prop} {D G : Prop} (h : Runs lib c P E D)
    (hp : ∀ a, P a → Q a) (he : ∀ e, E e → F e) (hd : D → G) : Runs lib c Q F G := by
  intro w
  rcases h w with ⟨e, d⟩ | ⟨r, w1, e, hh, hc, hr⟩
  · exact .inl ⟨e, hd d⟩
  · refine .inr ⟨r, w1, e, hh, hc, ?_⟩
    cases r with
    | ok a => exact hp a hr
    | error x =>
      rcases hr with h1 | h1
      · exact .inl (he x h1)
      · exact .inr h1

theorem runs_need {lib : Lib} {e : N20Error} (he : e = .noResources ∨ e = .implementationSpecific) {E : N20Error → Prop} {D : Prop} :
    Runs lib (need lib e) (fun _ => True) E D := by
  intro w
  right
  refine ⟨_, _, rfl, rfl, Nat.le_succ _, ?_⟩
  cases h : lib.fails w.calls with
  | false => simp
  | true => simp only [if_true]; exact .inr ⟨he, w.calls, Nat.le_refl _, Nat.lt_succ_self _, h⟩

/-- Sequencing after a library call. -/
theorem Runs.need {β : Type} {lib : Lib} {e : N20Error} (he : e = .noResources ∨ e = .implementationSpecific) {f : Unit → BE β} {Q : β → Prop}
    {E : N20Error → Prop} {D : Prop} (hf : Runs lib (f ()) Q E D) : Runs lib (Nat20.need lib e >>= f) Q E D :=
  (runs_need he).bind fun _ _ => hf

/-! ## Numbers -/

theorem binaryLength_eq (q : Nat) : bnNumBits q = binaryLength q := by
  induction q using Nat.strongRecOn with
  | _ q ih =>
    rw [binaryLength]
    by_cases h : q = 0
    · simp [h, bnNumBits]
    · rw [dif_neg h, ← ih (q / 2) (by omega)]
      unfold bnNumBits
      rw [if_neg h, Nat.log2_def q]
      by_cases h2 : q / 2 = 0
      · rw [if_pos h2, if_neg (by omega)]
      · rw [if_neg h2, if_pos (by omega)]

theorem binaryLength_lt (q : Nat) : q < 2 ^ binaryLength q := by
  induction q using Nat.strongRecOn with
  | _ q ih =>
    rw [binaryLength]
    by_cases h : q = 0
    · simp [h]
    · rw [dif_neg h, Nat.pow_succ]
      have := ih (q / 2) (by omega)
      omega

theorem binaryLength_le (q : Nat) (hq : q ≠ 0) : 2 ^ binaryLength q ≤ 2 * q := by
  induction q using Nat.strongRecOn with
  | _ q ih =>
    rw [binaryLength, dif_neg hq, Nat.pow_succ]
    by_cases h2 : q / 2 = 0
    · rw [h2, binaryLength]
      simp
      omega
    · have := ih (q / 2) (by omega) h2
      omega

theorem fromBE_lt (l : Bytes) : Der.fromBE l < 256 ^ l.length := by
  induction l using Der.rev_ind with
  | nil => simp [Der.fromBE]
  | snoc l b ih =>
    rw [Der.fromBE_append, List.length_append, List.length_singleton, Nat.pow_succ]
    have := b.toNat_lt
    omega

theorem bits2int_lt (qlen : Nat) (b : Bytes) : bits2int qlen b < 2 ^ qlen := by
  unfold bits2int
  have h := fromBE_lt b
  have h256 : (256 : Nat) ^ b.length = 2 ^ (8 * b.length) := by rw [Nat.pow_mul]
  rw [h256] at h
  apply Nat.div_lt_of_lt_mul
  rw [← Nat.pow_add]
  refine Nat.lt_of_lt_of_le h (Nat.pow_le_pow_right (by decide) (by omega))

theorem runs_bnPadded (lib : Lib) (n k : Nat) (h : k < 256 ^ n) {E : N20Error → Prop} {D : Prop} :
    Runs lib (bnPadded lib n k) (fun b => b = toBE n k) E D := by
  unfold bnPadded
  refine Runs.need (.inl rfl) ?_
  rw [if_pos h]
  exact Runs.pure rfl

theorem runs_rfcShift (lib : Lib) (b : Bytes) (qlen : Nat) {E : N20Error → Prop} {D : Prop} :
    Runs lib (rfcShift lib b.length qlen (Der.fromBE b)) (fun h => h = bits2int qlen b) E D := by
  unfold rfcShift bits2int
  split
  · refine Runs.need (.inl rfl) (Runs.pure ?_)
    rw [Nat.shiftRight_eq_div_pow, Nat.mul_comm]
  · refine Runs.pure ?_
    rw [show 8 * b.length - qlen = 0 by omega]
    simp

/-- RFC 6979 2.3.4: one subtraction is enough for the reduction. -/
theorem runs_rfcH1 (lib : Lib) (a : Alg) (m : Bytes) (q : Nat) (hq : q ≠ 0) {E : N20Error → Prop} {D : Prop} :
    Runs lib (rfcH1 lib a m q) (fun h => h = bits2octets q (sha2 a m)) E D := by
  unfold rfcH1
  simp only [binaryLength_eq]
  have hbi := bits2int_lt (binaryLength q) (sha2 a m)
  have hle := binaryLength_le q hq
  have hlt := binaryLength_lt q
  have hpad : ∀ k, k < q → k < 256 ^ ((binaryLength q + 7) / 8) := by
    intro k hk
    have : (256 : Nat) ^ ((binaryLength q + 7) / 8) = 2 ^ (8 * ((binaryLength q + 7) / 8)) := by rw [Nat.pow_mul]
    rw [this]
    exact Nat.lt_of_lt_of_le (Nat.lt_trans hk hlt) (Nat.pow_le_pow_right (by decide) (by omega))
  refine Runs.need (.inr rfl) (Runs.need (.inl rfl) ((runs_rfcShift lib _ _).bind fun h hh => ?_))
  subst hh
  refine Runs.need (.inl rfl) (Runs.need (.inl rfl) ?_)
  unfold bits2octets
  generalize bits2int (binaryLength q) (sha2 a m) = z at *
  by_cases hz : z < q
  · rw [if_pos (by omega), Nat.mod_eq_of_lt hz]
    exact runs_bnPadded lib _ _ (hpad z hz)
  · rw [if_neg (by omega), show ((z : Int) - (q : Int)).toNat = z - q by omega, Nat.mod_eq_sub_mod (by omega), Nat.mod_eq_of_lt (by omega)]
    exact runs_bnPadded lib _ _ (hpad _ (by omega))

theorem runs_updateK (lib : Lib) (a : Alg) (K V : Bytes) (o : UInt8) (more : Bytes) {E : N20Error → Prop} {D : Prop} :
    Runs lib (rfcUpdateK lib a K V o more) (fun r => r = hmac a K (V ++ [o] ++ more)) E D :=
  Runs.need (.inl rfl) (Runs.need (.inr rfl) (Runs.pure rfl))

theorem runs_updateV (lib : Lib) (a : Alg) (K V : Bytes) {E : N20Error → Prop} {D : Prop} :
    Runs lib (rfcUpdateV lib a K V) (fun r => r = hmac a K V) E D := Runs.need (.inr rfl) (Runs.pure rfl)

theorem runs_rfcSeed (lib : Lib) (a : Alg) (x h1 : Bytes) {E : N20Error → Prop} {D : Prop} :
    Runs lib (rfcSeed lib a x h1 (List.replicate a.size 0) (List.replicate a.size 1)) (fun r => r = rfcStart a (x ++ h1)) E D := by
  unfold rfcSeed
  refine (runs_updateK _ _ _ _ _ _).bind fun K hK => (runs_updateV _ _ _ _).bind fun V hV => (runs_updateK _ _ _ _ _ _).bind fun K' hK' =>
    (runs_updateV _ _ _ _).bind fun V' hV' => Runs.pure ?_
  subst hK hV hK' hV'
  rfl

/-- The loop with the precomputed number of repetitions fills `T` as the loop that looks at the length of `T`. -/
theorem runs_rfcT (lib : Lib) (a : Alg) (K : Bytes) (qlen : Nat) {E : N20Error → Prop} {D : Prop} : ∀ (n steps : Nat) (V T : Bytes), n ≤ steps →
    qlen ≤ 8 * T.length + n * (8 * a.size) → (n ≠ 0 → 8 * T.length + (n - 1) * (8 * a.size) < qlen) →
    Runs lib (rfcT lib a K n V T) (fun r => r = rfcFill a qlen K steps V T) E D := by
  intro n
  induction n with
  | zero =>
    intro steps V T _ h1 _
    unfold rfcT
    refine Runs.pure ?_
    cases steps with
    | zero => rfl
    | succ steps => rw [rfcFill, if_neg (by omega)]
  | succ n ih =>
    intro steps V T hs h1 h2
    obtain ⟨steps, rfl⟩ : ∃ k, steps = k + 1 := ⟨steps - 1, by omega⟩
    have h3 := h2 (by omega)
    rw [Nat.add_sub_cancel] at h3
    rw [rfcT, rfcFill, if_pos (by omega)]
    refine (runs_updateV _ _ _ _).bind fun V' hV' => ?_
    subst hV'
    refine ih steps _ _ (by omega) ?_ ?_
    · rw [List.length_append, hmac_length]
      rw [Nat.succ_mul n] at h1
      omega
    · intro hn
      obtain ⟨m, rfl⟩ : ∃ m, n = m + 1 := ⟨n - 1, by omega⟩
      rw [List.length_append, hmac_length, Nat.add_sub_cancel]
      rw [Nat.succ_mul m] at h3
      omega

theorem runs_rfcOctets (lib : Lib) (a : Alg) (q : Nat) (st : Bytes × Bytes) (hq : q ≠ 0) {E : N20Error → Prop} {D : Prop} :
    Runs lib (rfcT lib a st.1 ((bnNumBits q + a.size * 8 - 1) / (a.size * 8)) st.2 []) (fun r => r = rfcOctets a q st) E D := by
  rw [binaryLength_eq]
  have hs := size_pos a
  have hb : 0 < binaryLength q := by
    rw [binaryLength, dif_neg hq]
    omega
  unfold rfcOctets
  generalize binaryLength q = L at *
  generalize hd : a.size * 8 = d at *
  have hm : 8 * a.size = d := by omega
  have h0 := Nat.div_add_mod (L + d - 1) d
  have h1 := Nat.mod_lt (L + d - 1) (y := d) (by omega)
  generalize hn : (L + d - 1) / d = n at *
  rw [Nat.mul_comm] at h0
  have hn0 : n ≠ 0 := by
    rintro rfl
    omega
  obtain ⟨m, rfl⟩ : ∃ m, n = m + 1 := ⟨n - 1, by omega⟩
  have hmd : m ≤ m * d := Nat.le_mul_of_pos_right m (by omega)
  rw [Nat.succ_mul m] at h0
  refine runs_rfcT lib a st.1 L (m + 1) L st.2 [] (by omega) ?_ ?_
  · rw [hm, Nat.succ_mul m, List.length_nil]
    omega
  · intro _
    rw [hm, Nat.add_sub_cancel, List.length_nil]
    omega

theorem rfcLoop_succ (lib : Lib) (a : Alg) (q fuel : Nat) (K V : Bytes) : rfcLoop lib a q (fuel + 1) K V =
    (rfcT lib a K ((bnNumBits q + a.size * 8 - 1) / (a.size * 8)) V [] >>= fun r => Nat20.need lib .noResources >>= fun _ => Nat20.need lib .noResources >>= fun _ =>
      if Der.fromBE r.2 >>> (r.2.length * 8 - bnNumBits q) ≠ 0 ∧ Der.fromBE r.2 >>> (r.2.length * 8 - bnNumBits q) < q then
        Pure.pure (Der.fromBE r.2 >>> (r.2.length * 8 - bnNumBits q))
      else rfcUpdateK lib a K r.1 0 [] >>= fun K => rfcUpdateV lib a K r.1 >>= fun V => rfcLoop lib a q fuel K V) := rfl

theorem runs_rfcLoop (lib : Lib) (a : Alg) (q : Nat) (seed : Bytes) (hq : q ≠ 0) {E : N20Error → Prop} : ∀ (fuel n : Nat) (st : Bytes × Bytes),
    st = rfcState a q seed n → (∀ m < n, ¬ Acceptable q (rfcCandidate a q seed m)) →
    Runs lib (rfcLoop lib a q fuel st.1 st.2) (fun k => ∃ n, IsNonce a q seed n k) E
      (∀ m < n + fuel, ¬ Acceptable q (rfcCandidate a q seed m)) := by
  intro fuel
  induction fuel with
  | zero =>
    intro n st _ hm w
    exact .inl ⟨rfl, hm⟩
  | succ fuel ih =>
    intro n st hst hm
    rw [rfcLoop_succ]
    refine (runs_rfcOctets lib a q st hq).bind fun r hr => Runs.need (.inl rfl) (Runs.need (.inl rfl) ?_)
    have hk : Der.fromBE r.2 >>> (r.2.length * 8 - bnNumBits q) = rfcCandidate a q seed n := by
      rw [hr, hst, Nat.shiftRight_eq_div_pow, binaryLength_eq, Nat.mul_comm]
      rfl
    rw [hk]
    by_cases hacc : rfcCandidate a q seed n ≠ 0 ∧ rfcCandidate a q seed n < q
    · rw [if_pos hacc]
      refine Runs.pure ⟨n, rfl, ?_, hm⟩
      unfold Acceptable
      omega
    · rw [if_neg hacc]
      refine (runs_updateK _ _ _ _ _ _).bind fun K' hK' => (runs_updateV _ _ _ _).bind fun V' hV' => ?_
      have hm' : ∀ m < n + 1, ¬ Acceptable q (rfcCandidate a q seed m) := by
        intro m hlt
        by_cases hmn : m = n
        · subst hmn
          unfold Acceptable
          omega
        · exact hm m (by omega)
      refine (ih (n + 1) (K', V') ?_ hm').weaken (fun _ h => h) (fun _ h => h) (fun h m hl => h m (by omega))
      rw [hV', hK', hr, hst, List.append_nil]
      rfl

/-- The generator, with or without message, for any failures of the library. -/
theorem runs_rfc6979 (lib : Lib) (x : Bytes) (m : Option Bytes) (alg : UInt32) (a : Alg) (ha : bsslMd alg = some a) (q : Nat) (hq : q ≠ 0) :
    Runs lib (rfc6979 lib x m alg q) (fun k => ∃ n, IsNonce a q (rfcSeedOctets a q x m) n k) (fun _ => False)
      (∀ n < lib.patience, ¬ Acceptable q (rfcCandidate a q (rfcSeedOctets a q x m) n)) := by
  unfold rfc6979
  rw [ha]
  refine Runs.bind (P := fun h => x ++ h = rfcSeedOctets a q x m) ?_ fun h1 hh => Runs.need (.inl rfl) ?_
  · cases m with
    | none => exact Runs.pure rfl
    | some m => exact (runs_rfcH1 lib a m q hq).weaken (fun h hh => by rw [hh]; rfl) (fun _ h => h) (fun h => h)
  · refine (runs_rfcSeed lib a x h1).bind fun r hr => ?_
    refine (runs_rfcLoop lib a q (rfcSeedOctets a q x m) hq lib.patience 0 r ?_ (fun m h => by omega)).weaken (fun _ h => h) (fun _ h => h)
      (fun h m hl => h m (by omega))
    rw [hr, hh]
    rfl

end Nat20
