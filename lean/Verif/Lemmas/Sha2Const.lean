import Verif.Lemmas.Sha2Stream
/-!
# The constants of the SHA-2 code
-/

namespace Nat20

open Fips

/-- `iroot` computes integer roots. -/
theorem iroot_spec (e : Nat) (he : 0 < e) (k : Nat) : ∀ n, n < 2 ^ (e * k) → (iroot e n k) ^ e ≤ n ∧ n < (iroot e n k + 1) ^ e := by
  induction k with
  | zero =>
    intro n hn
    simp only [Nat.mul_zero, Nat.pow_zero] at hn
    have : n = 0 := by omega
    subst this
    simp only [iroot]
    exact ⟨by rw [Nat.zero_pow he]; exact Nat.le_refl _, by simp⟩
  | succ k ih =>
    intro n hn
    have hp : 0 < 2 ^ e := Nat.two_pow_pos e
    have hlt : n / 2 ^ e < 2 ^ (e * k) := by
      apply Nat.div_lt_of_lt_mul
      rw [Nat.mul_add, Nat.mul_one, Nat.add_comm, Nat.pow_add] at hn
      exact hn
    obtain ⟨h1, h2⟩ := ih _ hlt
    rw [iroot]
    generalize iroot e (n / 2 ^ e) k = r at *
    have h3 : (2 * r) ^ e ≤ n := by
      rw [Nat.mul_pow]
      have := Nat.mul_le_mul_left (2 ^ e) h1
      have := Nat.mul_div_le n (2 ^ e)
      omega
    have h4 : n < (2 * r + 1 + 1) ^ e := by
      have : 2 * r + 1 + 1 = 2 * (r + 1) := by omega
      rw [this, Nat.mul_pow]
      exact (Nat.div_lt_iff_lt_mul hp).1 h2 |> fun h => by rwa [Nat.mul_comm] at h
    by_cases hc : (2 * r + 1) ^ e ≤ n
    · rw [if_pos hc]; exact ⟨hc, h4⟩
    · rw [if_neg hc]; exact ⟨h3, by omega⟩

theorem isPrime_iff (n : Nat) : isPrime n = true ↔ 2 ≤ n ∧ ∀ d, d ∣ n → d = 1 ∨ d = n := by
  simp only [isPrime, Bool.and_eq_true, decide_eq_true_eq, List.all_eq_true, List.mem_range, Bool.or_eq_true]
  constructor
  · rintro ⟨h2, h⟩
    refine ⟨h2, fun d hd => ?_⟩
    have hle := Nat.le_of_dvd (by omega) hd
    by_cases he : d = n
    · exact Or.inr he
    · left
      rcases h d (by omega) with h | h
      · have : d ≠ 0 := by rintro rfl; rw [Nat.zero_dvd] at hd; omega
        omega
      · exact absurd (Nat.mod_eq_zero_of_dvd hd) h
  · rintro ⟨h2, h⟩
    refine ⟨h2, fun d hd => ?_⟩
    by_cases hd2 : d < 2
    · exact Or.inl hd2
    · right
      intro hm
      rcases h d (Nat.dvd_of_mod_eq_zero hm) with h | h <;> omega

theorem K_256_eq : K_256 = roundConstants 32 64 := by decide +kernel
theorem K_512_eq : K_512 = roundConstants 64 80 := by decide +kernel
theorem sha256Init_eq : sha256Init = shaInit (hashOf (F := family256) (initialFirst 32)) := by
  refine congrArg shaInit (Vector.toList_inj.1 ?_); decide +kernel
theorem sha224Init_eq : sha224Init = shaInit (hashOf (F := family256) initialSha224) := by
  refine congrArg shaInit (Vector.toList_inj.1 ?_); decide +kernel
theorem sha512Init_eq : sha512Init = shaInit (hashOf (F := family512) (initialFirst 64)) := by
  refine congrArg shaInit (Vector.toList_inj.1 ?_); decide +kernel
theorem sha384Init_eq : sha384Init = shaInit (hashOf (F := family512) initialSha384) := by
  refine congrArg shaInit (Vector.toList_inj.1 ?_); decide +kernel

theorem rotr_eq {w : Nat} (x : BitVec w) (n : Nat) (h : n < w) : shaRotr x n = x.rotateRight n := by
  rw [BitVec.rotateRight_def, Nat.mod_eq_of_lt h]; rfl

theorem sha256_refines : ShaCode.Refines family256 sha256Code where
  shift := by decide
  block := by decide
  padLimit := by decide
  lengthAt := by decide
  wide := by decide
  small := by decide
  rounds := rfl
  roundsLt := by decide
  K := K_256_eq
  SIGMA0 x :=
    (fun (y : BitVec 32) => (by
      simp only [sha256Code]
      rw [rotr_eq _ 2 (by decide), rotr_eq _ 13 (by decide), rotr_eq _ 22 (by decide)] :
      sha256Code.SIGMA0 y = y.rotateRight 2 ^^^ y.rotateRight 13 ^^^ y.rotateRight 22)) x
  SIGMA1 x :=
    (fun (y : BitVec 32) => (by
      simp only [sha256Code]
      rw [rotr_eq _ 6 (by decide), rotr_eq _ 11 (by decide), rotr_eq _ 25 (by decide)] :
      sha256Code.SIGMA1 y = y.rotateRight 6 ^^^ y.rotateRight 11 ^^^ y.rotateRight 25)) x
  sigma0 x :=
    (fun (y : BitVec 32) => (by
      simp only [sha256Code]
      rw [rotr_eq _ 7 (by decide), rotr_eq _ 18 (by decide)] :
      sha256Code.sigma0 y = y.rotateRight 7 ^^^ y.rotateRight 18 ^^^ (y >>> 3))) x
  sigma1 x :=
    (fun (y : BitVec 32) => (by
      simp only [sha256Code]
      rw [rotr_eq _ 17 (by decide), rotr_eq _ 19 (by decide)] :
      sha256Code.sigma1 y = y.rotateRight 17 ^^^ y.rotateRight 19 ^^^ (y >>> 10))) x

theorem sha512_refines : ShaCode.Refines family512 sha512Code where
  shift := by decide
  block := by decide
  padLimit := by decide
  lengthAt := by decide
  wide := by decide
  small := by decide
  rounds := rfl
  roundsLt := by decide
  K := K_512_eq
  SIGMA0 x :=
    (fun (y : BitVec 64) => (by
      simp only [sha512Code]
      rw [rotr_eq _ 28 (by decide), rotr_eq _ 34 (by decide), rotr_eq _ 39 (by decide)] :
      sha512Code.SIGMA0 y = y.rotateRight 28 ^^^ y.rotateRight 34 ^^^ y.rotateRight 39)) x
  SIGMA1 x :=
    (fun (y : BitVec 64) => (by
      simp only [sha512Code]
      rw [rotr_eq _ 14 (by decide), rotr_eq _ 18 (by decide), rotr_eq _ 41 (by decide)] :
      sha512Code.SIGMA1 y = y.rotateRight 14 ^^^ y.rotateRight 18 ^^^ y.rotateRight 41)) x
  sigma0 x :=
    (fun (y : BitVec 64) => (by
      simp only [sha512Code]
      rw [rotr_eq _ 1 (by decide), rotr_eq _ 8 (by decide)] :
      sha512Code.sigma0 y = y.rotateRight 1 ^^^ y.rotateRight 8 ^^^ (y >>> 7))) x
  sigma1 x :=
    (fun (y : BitVec 64) => (by
      simp only [sha512Code]
      rw [rotr_eq _ 19 (by decide), rotr_eq _ 61 (by decide)] :
      sha512Code.sigma1 y = y.rotateRight 19 ^^^ y.rotateRight 61 ^^^ (y >>> 6))) x

end Nat20
