import Verif.Model.Ed448
import Mathlib.Data.Nat.Prime.Defs
/-!
# Specification vocabulary for the Edwards curve
-/

namespace Otrr.Spec

/-- The base field is as Ed448 needs it: `p` is a prime that is 3 modulo 4 and fits 56 bytes, and `d` is
not a square modulo `p`. -/
structure GoodField (c : Curve) : Prop where
  prime : Nat.Prime c.p
  mod4 : c.p % 4 = 3
  small : c.p < 256 ^ 56
  nonsquare : ∀ r : Int, ¬ (c.p : Int) ∣ r ^ 2 - c.d

/-- `P` has reduced coordinates and satisfies x^2 + y^2 = 1 + d x^2 y^2 modulo `p`. -/
structure OnCurve (c : Curve) (P : Point) : Prop where
  x_lt : P.x < c.p
  y_lt : P.y < c.p
  eqn : (c.p : Int) ∣ ((P.x : Int) ^ 2 + (P.y : Int) ^ 2) - (1 + c.d * (P.x : Int) ^ 2 * (P.y : Int) ^ 2)

/-- A curve with a base point on it whose `q`-fold is the identity, `q` an odd number that fits a scalar. -/
structure GoodCurve (c : Curve) : Prop where
  field : GoodField c
  base : OnCurve c c.G
  order : Point.mul c c.G c.q = Point.identity
  odd : c.q % 2 = 1
  big : 1 < c.q
  fits : c.q < 256 ^ 57

/-- A public key that an honest client can hold or accept: a point of the curve, not the identity, killed
by `q`. -/
structure GoodKey (c : Curve) (P : Point) : Prop where
  on : OnCurve c P
  ne : P ≠ Point.identity
  order : Point.mul c P c.q = Point.identity

/-- Not all bytes are zero. -/
def NonZero (b : Bytes) : Prop := ∃ x ∈ b, x ≠ 0

end Otrr.Spec
