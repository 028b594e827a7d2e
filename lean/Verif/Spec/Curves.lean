import Verif.Model.Boringssl
/-!
# Specification: the elliptic curves of FIPS 186-4

The coefficients, base points and the group law of the curves P-256 and P-384 (FIPS 186-4 D.1.2.3 and D.1.2.4; SEC 1, 2.2.1).
-/

namespace Nat20

/-- `y² = x³ + a x + b` over the integers modulo `p`, with the base point `(gx, gy)`. -/
structure Weierstrass where
  p : Nat
  a : Nat
  b : Nat
  gx : Nat
  gy : Nat

def p256Curve : Weierstrass where
  p := 2 ^ 256 - 2 ^ 224 + 2 ^ 192 + 2 ^ 96 - 1
  a := 2 ^ 256 - 2 ^ 224 + 2 ^ 192 + 2 ^ 96 - 4
  b := 0x5ac635d8aa3a93e7b3ebbd55769886bc651d06b0cc53b0f63bce3c3e27d2604b
  gx := 0x6b17d1f2e12c4247f8bce6e563a440f277037d812deb33a0f4a13945d898c296
  gy := 0x4fe342e2fe1a7f9b8ee7eb4a7c0f9e162bce33576b315ececbb6406837bf51f5

def p384Curve : Weierstrass where
  p := 2 ^ 384 - 2 ^ 128 - 2 ^ 96 + 2 ^ 32 - 1
  a := 2 ^ 384 - 2 ^ 128 - 2 ^ 96 + 2 ^ 32 - 4
  b := 0xb3312fa7e23ee7e4988e056be3f82d19181d9c6efe8141120314088f5013875ac656398d8a2ed19d2a85c8edd3ec2aef
  gx := 0xaa87ca22be8b05378eb1c71ef320ad746e1d3b628ba79b9859f741e082542a385502f25dbf55296c3a545e3872760ab7
  gy := 0x3617de4a96262c6f5d9e98bf9292dc29f8f41dbd289a147ce9da3113b5f0b8c00a60b1ce1d7e819d7a431d7c90ea0e5f

/-- The curve a key type stands for. -/
def Curve.weierstrass : Curve → Weierstrass
  | .p256 => p256Curve
  | .p384 => p384Curve

namespace Weierstrass

/-- A point; `none` is the point at infinity. -/
abbrev Point := Option (Nat × Nat)

/-- The coordinates are reduced and fulfil the equation. -/
def On (c : Weierstrass) (x y : Nat) : Prop := x < c.p ∧ y < c.p ∧ y ^ 2 % c.p = (x ^ 3 + c.a * x + c.b) % c.p

/-- The inverse modulo a prime, by Fermat's theorem. -/
def inverse (c : Weierstrass) (x : Nat) : Nat := x ^ (c.p - 2) % c.p

/-- The slope of the line through two points, or of the tangent. -/
def slope (c : Weierstrass) (x₁ y₁ x₂ y₂ : Nat) : Nat :=
  if x₁ = x₂ then (3 * x₁ ^ 2 + c.a) * c.inverse (2 * y₁) % c.p else (y₂ + (c.p - y₁)) * c.inverse (x₂ + (c.p - x₁)) % c.p

/-- The group law. -/
def add (c : Weierstrass) : Point → Point → Point
  | none, q => q
  | some p, none => some p
  | some (x₁, y₁), some (x₂, y₂) =>
    if x₁ = x₂ ∧ (y₁ + y₂) % c.p = 0 then none
    else
      let l := c.slope x₁ y₁ x₂ y₂
      let x₃ := (l ^ 2 + (c.p - x₁) + (c.p - x₂)) % c.p
      some (x₃, (l * (x₁ + (c.p - x₃)) + (c.p - y₁)) % c.p)

/-- `n` times a point, by doubling and adding. -/
def times (c : Weierstrass) (n : Nat) (q : Point) : Point :=
  if n = 0 then none
  else if n % 2 = 1 then c.add q (c.times (n / 2) (c.add q q))
  else c.times (n / 2) (c.add q q)
termination_by n
decreasing_by all_goals omega

end Weierstrass

end Nat20
