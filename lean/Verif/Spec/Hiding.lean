import Verif.Model.Ed448
import Verif.Spec.Curve
/-!
# Specification vocabulary for what a ring signature tells
-/

namespace Otrr.Spec
open Otrr

/-- The number may be drawn as a random scalar. -/
def RandomScalar (E : Env) (n : Nat) : Prop := ∃ b : Bytes, b.length = 57 ∧ randomInZq E b = n

/-- The holder of this key can make this signature, with some random numbers. -/
def CanMake (E : Env) (k : EdDSAKeyPair) (A1 A2 A3 : Point) (m : Bytes) (s : RingSignature) : Prop :=
  ∃ rnd, RingSignature.sign E k A1 A2 A3 m rnd = .ok s

/-- The keys of a ring, each with its two numbers of the signature: challenge and response. -/
def parts (A1 A2 A3 : Point) (s : RingSignature) : List (Point × Nat × Nat) := [(A1, s.c1, s.r1), (A2, s.c2, s.r2), (A3, s.c3, s.r3)]

/-- A number that tells: its second lowest bit is 0 (and it is not tiny: the bound is about `2 ^ 225`, of `2 ^ 446`). -/
def Telling (n : Nat) : Prop := n % 4 < 2 ∧ 2 ^ 448 - 4 * ed448.q ≤ n

end Otrr.Spec
