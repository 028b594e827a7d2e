import Verif.Spec.Curves
/-!
# C48: the orders of the curves
-/

namespace Nat20

namespace Weierstrass

/-! ## Evaluation in the kernel: numbers are computed before they are used -/

def strict {α : Type} (x : Nat) (f : Nat → α) : α := Nat.rec (f 0) (fun n _ => f (Nat.succ n)) x

theorem strict_eq {α : Type} (x : Nat) (f : Nat → α) : strict x f = f x := by cases x <;> rfl

def powGo (p : Nat) : Nat → Nat → Nat → Nat → Nat
  | 0, _, _, acc => acc
  | fuel + 1, b, e, acc => strict (b * b % p) fun b2 => strict (e / 2) fun e2 => strict (if e % 2 = 1 then acc * b % p else acc) fun acc2 => powGo p fuel b2 e2 acc2

theorem powGo_eq (p fuel : Nat) : ∀ b e acc, e < 2 ^ fuel → powGo p fuel b e acc % p = acc * b ^ e % p := by
  induction fuel with
  | zero =>
    intro b e acc he
    have : e = 0 := by simp only [Nat.pow_zero] at he; omega
    subst this
    simp [powGo]
  | succ fuel ih =>
    intro b e acc he
    have h2 : e / 2 < 2 ^ fuel := by rw [Nat.pow_succ] at he; omega
    simp only [powGo, strict_eq]
    rw [ih _ _ _ h2]
    have hp : (b * b % p) ^ (e / 2) % p = b ^ (2 * (e / 2)) % p := by
      rw [← Nat.pow_mod, ← Nat.pow_two, ← Nat.pow_mul]
    by_cases h : e % 2 = 1
    · rw [if_pos h]
      have he : e = 2 * (e / 2) + 1 := by omega
      conv => rhs; rw [he, Nat.pow_succ, Nat.mul_comm (b ^ _) b, ← Nat.mul_assoc]
      rw [Nat.mul_mod, hp, Nat.mod_mod, ← Nat.mul_mod]
    · rw [if_neg h]
      have he : e = 2 * (e / 2) := by omega
      conv => rhs; rw [he]
      rw [Nat.mul_mod, hp, ← Nat.mul_mod]

def inverseE (f p x : Nat) : Nat := strict (powGo p f x (p - 2) 1) fun y => y % p

theorem inverseE_eq (f : Nat) (c : Weierstrass) (hp : c.p < 2 ^ f) (x : Nat) : inverseE f c.p x = c.inverse x := by
  unfold inverseE inverse
  rw [strict_eq, powGo_eq _ _ _ _ _ (by omega), Nat.one_mul]

def slopeE (f : Nat) (c : Weierstrass) (x₁ y₁ x₂ y₂ : Nat) : Nat :=
  if x₁ = x₂ then strict (2 * y₁) fun d => strict (inverseE f c.p d) fun i => (3 * x₁ ^ 2 + c.a) * i % c.p
  else strict (x₂ + (c.p - x₁)) fun d => strict (inverseE f c.p d) fun i => (y₂ + (c.p - y₁)) * i % c.p

theorem slopeE_eq (f : Nat) (c : Weierstrass) (hp : c.p < 2 ^ f) (x₁ y₁ x₂ y₂ : Nat) : slopeE f c x₁ y₁ x₂ y₂ = c.slope x₁ y₁ x₂ y₂ := by
  unfold slopeE slope
  simp only [strict_eq, inverseE_eq f c hp]

def addE (f : Nat) (c : Weierstrass) : Point → Point → Point
  | none, q => q
  | some p, none => some p
  | some (x₁, y₁), some (x₂, y₂) =>
    if x₁ = x₂ ∧ (y₁ + y₂) % c.p = 0 then none
    else
      strict (slopeE f c x₁ y₁ x₂ y₂) fun l => strict ((l ^ 2 + (c.p - x₁) + (c.p - x₂)) % c.p) fun x₃ => strict ((l * (x₁ + (c.p - x₃)) + (c.p - y₁)) % c.p) fun y₃ => some (x₃, y₃)

theorem addE_eq (f : Nat) (c : Weierstrass) (hp : c.p < 2 ^ f) (q r : Point) : addE f c q r = c.add q r := by
  unfold addE add
  split
  · rfl
  · rfl
  · simp only [strict_eq, slopeE_eq f c hp]

def strictP {α : Type} (q : Point) (f : Point → α) : α :=
  match q with
  | none => f none
  | some (x, y) => strict x fun x => strict y fun y => f (some (x, y))

theorem strictP_eq {α : Type} (q : Point) (f : Point → α) : strictP q f = f q := by
  unfold strictP
  split
  · rfl
  · simp only [strict_eq]

def timesE (f : Nat) (c : Weierstrass) : Nat → Nat → Point → Point
  | 0, _, _ => none
  | fuel + 1, n, q =>
    strict (n / 2) fun m => strictP (addE f c q q) fun r =>
      if n = 0 then none else if n % 2 = 1 then strictP (timesE f c fuel m r) fun s => addE f c q s else timesE f c fuel m r

theorem timesE_eq (f : Nat) (c : Weierstrass) (hp : c.p < 2 ^ f) (fuel : Nat) : ∀ n q, n < 2 ^ fuel → timesE f c fuel n q = c.times n q := by
  induction fuel with
  | zero =>
    intro n q h
    have : n = 0 := by simp only [Nat.pow_zero] at h; omega
    subst this
    unfold times
    rfl
  | succ fuel ih =>
    intro n q h
    have h2 : n / 2 < 2 ^ fuel := by rw [Nat.pow_succ] at h; omega
    unfold timesE times
    simp only [strict_eq, strictP_eq, addE_eq f c hp, ih _ _ h2]

end Weierstrass

set_option maxRecDepth 100000 in
theorem p256_order : Weierstrass.timesE 256 p256Curve 256 (Curve.order .p256) (some (p256Curve.gx, p256Curve.gy)) = none := by decide +kernel

set_option maxRecDepth 100000 in
theorem p384_order : Weierstrass.timesE 384 p384Curve 384 (Curve.order .p384) (some (p384Curve.gx, p384Curve.gy)) = none := by decide +kernel

/-- **C48** (the numbers `q` that RFC 6979 is used with). The orders are those of the standard curves: the base point is on the curve, `order` times the base point is the point at infinity, and `order` is as
near to `p + 1` as the number of points of a curve is (Hasse: at most `2 √p` away). -/
theorem C48_curve_orders (c : Curve) :
    c.weierstrass.On c.weierstrass.gx c.weierstrass.gy ∧
    c.weierstrass.times c.order (some (c.weierstrass.gx, c.weierstrass.gy)) = none ∧
    c.order < c.weierstrass.p + 1 ∧ (c.weierstrass.p + 1 - c.order) ^ 2 ≤ 4 * c.weierstrass.p := by
  cases c
  · refine ⟨by unfold Weierstrass.On; decide +kernel, ?_, by decide +kernel, by decide +kernel⟩
    rw [← Weierstrass.timesE_eq 256 _ (by decide +kernel) 256 _ _ (by decide +kernel)]
    exact p256_order
  · refine ⟨by unfold Weierstrass.On; decide +kernel, ?_, by decide +kernel, by decide +kernel⟩
    rw [← Weierstrass.timesE_eq 384 _ (by decide +kernel) 384 _ _ (by decide +kernel)]
    exact p384_order

/-- Three times the base point is a point (another number is not the order). -/
example : (p256Curve.times 3 (some (p256Curve.gx, p256Curve.gy))).isSome = true := by
  rw [← Weierstrass.timesE_eq 256 _ (by decide +kernel) 2 _ _ (by decide)]
  decide +kernel

end Nat20
