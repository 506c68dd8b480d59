import Verif.Spec.Agreement3
import Verif.Model.ClientProfile
/-!
# Specification vocabulary for C118: what the signature of an OTRv3 key in a profile stands for
-/

namespace Otrr.Spec
open Otrr

/-- The text in a payload that the OTRv3 key has to sign: all fields but the signature itself. -/
def vouchedText (p : ClientProfilePayload) : Bytes :=
  ((p.fields.filter fun f => match f with | .transitionalSignature _ => false | _ => true).map wField).flatten

/-- The payload names the OTRv3 key `k` and carries the signature `ts`. -/
def CarriesSignature (p : ClientProfilePayload) (k : DSAPublicKey) (ts : DSASignature) : Prop :=
  .legacyKey k ∈ p.fields ∧ .transitionalSignature ts ∈ p.fields

/-- The owner of `key` signed in an OTRv3 exchange, and `ts` is the signature it sent there. -/
def SentIn3 (E : Env) (key : DSAKeypair) (ts : DSASignature) : Prop :=
  ∃ n kp other, Signed3 E key n kp other ∧
    ts = E.dsaSign key (digest3 E key.pk.q (akeKey E n (secret3 E kp other)) (transcript3 kp.pub other key.pk 1))

end Otrr.Spec
