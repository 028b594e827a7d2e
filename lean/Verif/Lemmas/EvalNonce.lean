import Verif.Lemmas.Eval
import Verif.Props.Separation
/-!
# Computing RFC 6979 in the kernel
-/

namespace Nat20.Rfc6979

open Fips

theorem bits_of (q k : Nat) (h : q ≠ 0) (h1 : 2 ^ (k - 1) ≤ q) (h2 : q < 2 ^ k) : binaryLength q = k := by
  have a := binaryLength_lt q
  have b := binaryLength_le q h
  have hk : 0 < k := by
    rcases Nat.eq_zero_or_pos k with rfl | hk
    · simp at h2; omega
    · exact hk
  have e : 2 ^ k = 2 * 2 ^ (k - 1) := by
    obtain ⟨j, rfl⟩ : ∃ j, k = j + 1 := ⟨k - 1, by omega⟩
    rw [Nat.pow_succ, Nat.add_sub_cancel]
    omega
  have c : k - 1 < binaryLength q := (Nat.pow_lt_pow_iff_right (a := 2) (by omega)).1 (by omega)
  have d : binaryLength q < k + 1 := (Nat.pow_lt_pow_iff_right (a := 2) (by omega)).1 (by rw [Nat.pow_succ]; omega)
  omega

/-- One block is enough. -/
theorem octets_one (a : Alg) (q : Nat) (K V : Bytes) (h : 2 ≤ binaryLength q) (h' : binaryLength q ≤ 8 * a.size) : rfcOctets a q (K, V) = (hmac a K V, hmac a K V) := by
  unfold rfcOctets
  obtain ⟨j, hj⟩ : ∃ j, binaryLength q = j + 2 := ⟨binaryLength q - 2, by omega⟩
  rw [hj, rfcFill, if_pos (by simp), rfcFill, if_neg (by rw [List.nil_append, hmac_length]; omega)]
  rfl

/-- With a library in which nothing fails and enough patience, the model gives the number of the specification. -/
theorem model_gives (a : Alg) (q : Nat) (x : Bytes) (m : Option Bytes) (hq : q ≠ 0) (n k : Nat) (h : IsNonce a q (rfcSeedOctets a q x m) n k) (hn : n < calmLib.patience) :
    ∃ w, rfc6979 calmLib x m (algId a) q ⟨0, []⟩ = .ok (.ok k, w) := by
  rcases C48_nonce calmLib x m (algId a) q hq ⟨0, []⟩ with ⟨a', e, _, h'⟩ | ⟨r, w', e, _, hr⟩
  · have : a = a' := by cases a <;> cases a' <;> first | rfl | exact absurd e (by decide)
    subst this
    have h1 := h.1
    exact absurd (h1 ▸ h.2.1) (h' n hn)
  · refine ⟨w', ?_⟩
    rw [e]
    cases r with
    | ok k' =>
      obtain ⟨a', n', e', h'⟩ := hr
      have : a = a' := by cases a <;> cases a' <;> first | rfl | exact absurd e' (by decide)
      subst this
      rw [nonce_unique h h']
    | error er =>
      rcases hr with ⟨_, hr⟩ | ⟨_, i, _, _, hr⟩
      · cases a <;> exact absurd hr (by decide)
      · simp [calmLib] at hr

end Nat20.Rfc6979
