import Verif.Spec.Smp4
import Verif.Spec.Dake
/-!
# Specification vocabulary for the soundness of proofs

A proof consists of a commitment, a challenge and a response.  Its maker knows the secret: from responses to two different challenges for
one commitment, the secret can be computed.  As challenges are hashes, "two different challenges" means two different hash functions.
-/

namespace Otrr.Spec
open Otrr

/-- The secret, from the responses `d`, `d'` to the challenges `c`, `c'`: the quotient of `d - d'` and `c' - c` modulo the prime `q`. -/
def extract (q c d c' d' : Nat) : Nat := (d + (q - d' % q)) * (c' + (q - c % q)) ^ (q - 2) % q

/-- The three commitments that a ring signature belongs to. -/
def ringCommitments (c : Curve) (A1 A2 A3 : Point) (s : RingSignature) : List Point :=
  [lin2 c c.G s.r1 A1 s.c1, lin2 c c.G s.r2 A2 s.c2, lin2 c c.G s.r3 A3 s.c3]

/-- The safe prime of the Diffie-Hellman groups. -/
def SafePrime (G : DHGroup) : Prop := G.p = 2 * G.q + 1

end Otrr.Spec
