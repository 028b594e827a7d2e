import Verif.Model.Sha2
import Verif.Spec.Sha2
import Verif.Lemmas.Der
/-!
# The code of SHA-2 refines FIPS 180-4
-/

namespace Nat20

open Fips Der

/-! ## Indices -/

theorem rIndex_val (j x : Nat) (hj : j < 2 ^ 64) (hx : x < 8) : (rIndex j x).val = (x + 7 * j) % 8 := by
  have h7 : (7 : UInt64).toNat = 2 ^ 3 - 1 := rfl
  have h0 : (0 : UInt64).toNat = 0 := rfl
  simp only [rIndex, Fin.ofNat, UInt64.toNat_and, UInt64.toNat_add, UInt64.toNat_sub, UInt64.toNat_ofNat', h7, h0,
    Nat.and_two_pow_sub_one_eq_mod]
  omega

theorem rIndex_succ (j x : Nat) (hj : j + 1 < 2 ^ 64) (hx : x < 7) : rIndex (j + 1) (x + 1) = rIndex j x := by
  apply Fin.ext
  rw [rIndex_val _ _ hj (by omega), rIndex_val _ _ (by omega) (by omega)]
  omega

theorem rIndex_wrap (j : Nat) (hj : j + 1 < 2 ^ 64) : rIndex (j + 1) 0 = rIndex j 7 := by
  apply Fin.ext
  rw [rIndex_val _ _ hj (by omega), rIndex_val _ _ (by omega) (by omega)]
  omega

theorem rIndex_ne (j x y : Nat) (hj : j < 2 ^ 64) (hx : x < 8) (hy : y < 8) (h : x ≠ y) : (rIndex j x).val ≠ (rIndex j y).val := by
  rw [rIndex_val _ _ hj hx, rIndex_val _ _ hj hy]
  omega

theorem wIndex_val (i : Nat) : (wIndex i).val = i % 16 := by
  simp only [wIndex, Fin.ofNat, show (15 : Nat) = 2 ^ 4 - 1 from rfl, Nat.and_two_pow_sub_one_eq_mod]
  omega

/-! ## What the parameters must satisfy -/

/-- The parameters of the code are those of the standard. -/
structure ShaCode.Refines (F : Family) (P : ShaCode F.w) : Prop where
  shift : 2 ^ P.shift = F.wordBytes
  block : P.block = F.blockBytes
  padLimit : P.padLimit + 2 * F.wordBytes = F.blockBytes
  lengthAt : P.lengthAt + 8 = F.blockBytes
  wide : 4 ≤ F.wordBytes
  small : F.blockBytes < 2 ^ 32
  rounds : P.rounds = F.rounds
  roundsLt : 16 ≤ F.rounds ∧ F.rounds < 2 ^ 64
  K : P.K = roundConstants F.w F.rounds
  SIGMA0 : ∀ x, P.SIGMA0 x = F.bigSigma F.big0 x
  SIGMA1 : ∀ x, P.SIGMA1 x = F.bigSigma F.big1 x
  sigma0 : ∀ x, P.sigma0 x = F.smallSigma F.small0 x
  sigma1 : ∀ x, P.sigma1 x = F.smallSigma F.small1 x

section
variable {F : Family} {P : ShaCode F.w} (hP : P.Refines F)

/-! ## The compression function -/

/-- The rotating register file holds the working variables. -/
def Regs (F : Family) (j : Nat) (R : Vector F.Word 8) (v : F.Vars) : Prop :=
  v.a = R[rIndex j 0] ∧ v.b = R[rIndex j 1] ∧ v.c = R[rIndex j 2] ∧ v.d = R[rIndex j 3] ∧
  v.e = R[rIndex j 4] ∧ v.f = R[rIndex j 5] ∧ v.g = R[rIndex j 6] ∧ v.h = R[rIndex j 7]

include hP in
theorem round_refines (j : Nat) (hj : j + 1 < 2 ^ 64) (t : F.Word) (R : Vector F.Word 8) (v : F.Vars) (h : Regs F j R v) :
    Regs F (j + 1) (shaRound P j t R) (F.round ((roundConstants F.w F.rounds).getD j 0) t v) := by
  obtain ⟨ha, hb, hc, hd, he, hf, hg, hh⟩ := h
  have hj' : j < 2 ^ 64 := by omega
  have ne := fun x y hx hy h => rIndex_ne j x y hj' hx hy h
  unfold Regs
  have i1 := rIndex_succ j 0 hj (by decide)
  have i2 := rIndex_succ j 1 hj (by decide)
  have i3 := rIndex_succ j 2 hj (by decide)
  have i4 := rIndex_succ j 3 hj (by decide)
  have i5 := rIndex_succ j 4 hj (by decide)
  have i6 := rIndex_succ j 5 hj (by decide)
  have i7 := rIndex_succ j 6 hj (by decide)
  simp only [Nat.zero_add, Nat.reduceAdd] at i1 i2 i3 i4 i5 i6 i7
  simp only [rIndex_wrap j hj, i1, i2, i3, i4, i5, i6, i7]
  simp only [shaRound, Family.round, Fin.getElem_fin, Vector.getElem_set]
  simp only [Fin.getElem_fin] at ha hb hc hd he hf hg hh
  have t1 : t + R[(rIndex j 7).val] + P.SIGMA1 R[(rIndex j 4).val] +
        shaCh R[(rIndex j 4).val] R[(rIndex j 5).val] R[(rIndex j 6).val] + P.K.getD j 0 =
      v.h + F.bigSigma F.big1 v.e + F.ch v.e v.f v.g + (roundConstants F.w F.rounds).getD j 0 + t := by
    rw [hP.K, hP.SIGMA1, ← he, ← hf, ← hg, ← hh]
    simp only [shaCh, Family.ch]
    ac_rfl
  simp only [t1, ne 3 7 (by decide) (by decide) (by decide), ne 3 0 (by decide) (by decide) (by decide),
    ne 3 1 (by decide) (by decide) (by decide), ne 3 2 (by decide) (by decide) (by decide),
    ne 3 4 (by decide) (by decide) (by decide), ne 3 5 (by decide) (by decide) (by decide),
    ne 3 6 (by decide) (by decide) (by decide), ne 7 0 (by decide) (by decide) (by decide),
    ne 7 1 (by decide) (by decide) (by decide), ne 7 2 (by decide) (by decide) (by decide),
    ne 7 3 (by decide) (by decide) (by decide), ne 7 4 (by decide) (by decide) (by decide),
    ne 7 5 (by decide) (by decide) (by decide), ne 7 6 (by decide) (by decide) (by decide), if_true, if_false]
  refine ⟨?_, ha, hb, hc, ?_, he, hf, hg⟩
  · rw [hP.SIGMA0, ← ha, ← hb, ← hc]
    simp only [shaMajority, Family.maj]
    ac_rfl
  · rw [← hd]

include hP in
theorem rounds16_refines (block : Bytes) (W : Vector F.Word 16) (hW : ∀ t : Nat, t < 16 → W[wIndex t] = F.word block t)
    (R : Vector F.Word 8) (v : F.Vars) (h : Regs F 0 R v) (n : Nat) (hn : n ≤ 16) :
    Regs F n (shaRounds16 P W R n) (F.runRounds block v n) := by
  induction n with
  | zero => exact h
  | succ n ih =>
    rw [shaRounds16, Family.runRounds, hW n (by omega), Family.schedule, dif_pos (by omega)]
    exact round_refines hP n (by omega) _ _ _ (ih (by omega))

include hP in
theorem roundsExt_refines (block : Bytes) (W : Vector F.Word 16) (hW : ∀ t : Nat, t < 16 → W[wIndex t] = F.word block t)
    (R : Vector F.Word 8) (v : F.Vars) (h : Regs F 16 R (F.runRounds block v 16)) (n : Nat) (hn : 16 + n < 2 ^ 64) :
    Regs F (16 + n) (shaRoundsExt P (W, R) n).2 (F.runRounds block v (16 + n)) ∧
    ∀ t, n ≤ t → t < n + 16 → (shaRoundsExt P (W, R) n).1[wIndex t] = F.schedule block t := by
  induction n with
  | zero =>
    refine ⟨h, fun t _ ht => ?_⟩
    rw [Family.schedule, dif_pos (by omega)]
    exact hW t (by omega)
  | succ n ih =>
    obtain ⟨ih1, ih2⟩ := ih (by omega)
    have hw : (shaRoundsExt P (W, R) n).1[wIndex (16 + n)] = F.schedule block n := by
      have : wIndex (16 + n) = wIndex n := Fin.ext (by rw [wIndex_val, wIndex_val]; omega)
      simp only [this]
      exact ih2 n (by omega) (by omega)
    have hs : F.schedule block (16 + n) = F.schedule block n + (P.sigma1 (F.schedule block (16 + n - 2)) +
        F.schedule block (16 + n - 7) + P.sigma0 (F.schedule block (16 + n - 15))) := by
      rw [Family.schedule, dif_neg (by omega), hP.sigma0, hP.sigma1, show 16 + n - 16 = n by omega]
      ac_rfl
    rw [shaRoundsExt]
    dsimp only
    rw [hw, ih2 _ (by omega) (by omega), ih2 _ (by omega) (by omega), ih2 _ (by omega) (by omega), ← hs]
    refine ⟨round_refines hP (16 + n) (by omega) _ _ _ ih1, fun t h1 h2 => ?_⟩
    by_cases ht : t = 16 + n
    · subst ht
      simp
    · have : (wIndex (16 + n)).val ≠ (wIndex t).val := by
        rw [wIndex_val, wIndex_val]; omega
      simp only [Fin.getElem_fin, Vector.getElem_set, this, if_false]
      exact ih2 t (by omega) (by omega)

/-- Register 0 of the `j`-th position after a multiple of eight rounds is element 0. -/
theorem rIndex_mul8 (j x : Nat) (hj : j < 2 ^ 64) (h8 : j % 8 = 0) (hx : x < 8) : (rIndex j x).val = x := by
  rw [rIndex_val _ _ hj hx]; omega

include hP in
theorem main_refines (h8 : F.rounds % 8 = 0) (s : ShaState F.w) (block : Bytes)
    (hW : ∀ t : Nat, (h : t < 16) → s.W[t] = F.word block t) :
    (shaMain P s).H = F.compress s.H block ∧ (shaMain P s).fill = 0 ∧ (shaMain P s).total = s.total := by
  obtain ⟨r1, r2⟩ := hP.roundsLt
  have hW' : ∀ t : Nat, t < 16 → s.W[wIndex t] = F.word block t := by
    intro t ht
    have : (wIndex t).val = t := by rw [wIndex_val]; omega
    simp only [Fin.getElem_fin, this]
    exact hW t ht
  have h0 : Regs F 0 s.H ⟨s.H[0], s.H[1], s.H[2], s.H[3], s.H[4], s.H[5], s.H[6], s.H[7]⟩ := by
    unfold Regs
    simp only [Fin.getElem_fin]
    simp only [rIndex_mul8 0 0 (by decide) rfl (by decide), rIndex_mul8 0 1 (by decide) rfl (by decide),
      rIndex_mul8 0 2 (by decide) rfl (by decide), rIndex_mul8 0 3 (by decide) rfl (by decide),
      rIndex_mul8 0 4 (by decide) rfl (by decide), rIndex_mul8 0 5 (by decide) rfl (by decide),
      rIndex_mul8 0 6 (by decide) rfl (by decide), rIndex_mul8 0 7 (by decide) rfl (by decide), and_self]
  have h16 := rounds16_refines hP block s.W hW' s.H _ h0 16 (Nat.le_refl _)
  have hx := (roundsExt_refines hP block s.W hW' _ _ h16 (P.rounds - 16) (by rw [hP.rounds]; omega)).1
  rw [hP.rounds, show 16 + (F.rounds - 16) = F.rounds by omega] at hx
  unfold Regs at hx
  simp only [Fin.getElem_fin] at hx
  simp only [rIndex_mul8 F.rounds 0 r2 h8 (by decide), rIndex_mul8 F.rounds 1 r2 h8 (by decide),
    rIndex_mul8 F.rounds 2 r2 h8 (by decide), rIndex_mul8 F.rounds 3 r2 h8 (by decide), rIndex_mul8 F.rounds 4 r2 h8 (by decide),
    rIndex_mul8 F.rounds 5 r2 h8 (by decide), rIndex_mul8 F.rounds 6 r2 h8 (by decide), rIndex_mul8 F.rounds 7 r2 h8 (by decide)] at hx
  refine ⟨?_, rfl, rfl⟩
  obtain ⟨e0, e1, e2, e3, e4, e5, e6, e7⟩ := hx
  simp only [Family.compress]
  rw [e0, e1, e2, e3, e4, e5, e6, e7]
  apply Vector.ext
  intro i hi
  simp only [shaMain, hP.rounds, Vector.getElem_zipWith]
  have : i = 0 ∨ i = 1 ∨ i = 2 ∨ i = 3 ∨ i = 4 ∨ i = 5 ∨ i = 6 ∨ i = 7 := by omega
  rcases this with rfl | rfl | rfl | rfl | rfl | rfl | rfl | rfl <;> exact BitVec.add_comm _ _

end

end Nat20
