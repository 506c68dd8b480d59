import Verif.Spec.Ake
/-!
# Specification vocabulary for C117: which exchange a signature of OTRv3 is from
-/

namespace Otrr.Spec
open Otrr

/-- `Signed3 E key n kp other`: the owner of the DSA key `key`, with some history, signed in an exchange in which it used the D-H key pair `kp` and had received
the D-H public key `other`.  `n` is 2 if it had begun the exchange and signs in a Reveal Signature message, and 4 if it answers with a Signature message. -/
inductive Signed3 (E : Env) (key : DSAKeypair) : UInt8 → DH.Keypair → Nat → Prop
  | began {h kp r m reply s'} : AkeLife E h (.awaitingDHKey kp r) →
      AKE.handleDhKey E (some key) m (.awaitingDHKey kp r) = (.ok reply, s') → Signed3 E key 2 kp m.gy
  | answered {h s m mat reply s'} : AkeLife E h s →
      AKE.handleRevealSignature E (some key) m s = (.ok (mat, reply), s') → Signed3 E key 4 mat.ourDh mat.theirDh

/-- The shared secret of a D-H key pair and a D-H public key. -/
def secret3 (E : Env) (kp : DH.Keypair) (other : Nat) : Nat := other ^ kp.priv % E.dh.p

/-- The number that is signed: the MAC `hmac(k, text)`, modulo the order `q` of the DSA group. -/
def digest3 (E : Env) (q : Nat) (k text : Bytes) : Bytes := dsaPrehash (E.hmacSha256 k text) q

/-- Two different pairs of MAC key and text for which the same number is signed. -/
def DigestCollision (E : Env) (q : Nat) (k text k' text' : Bytes) : Prop :=
  (k, text) ≠ (k', text') ∧ digest3 E q k text = digest3 E q k' text'

end Otrr.Spec
