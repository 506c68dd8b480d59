import Verif.Spec.Hiding
import Verif.Spec.Smp
import Mathlib.Data.Finset.Range
import Mathlib.Data.Finset.Card
/-!
# Specification vocabulary for what the messages of SMP tell about a secret
-/

namespace Otrr.Spec
open Otrr

/-- Where the challenge of the proof about the secret is in a message of SMP in OTRv4: the ninth of 11 fields of message 2 (TLV 3), the
third field of message 3 (TLV 4).  Each field has 57 bytes.  The second answer is two fields later. -/
def place (m : TLV) : Nat := if m.typ = 3 then 8 * 57 else 2 * 57

/-- The challenge and the second answer, as anybody reads them from the message: numbers in little-endian format. -/
def challengeIn (m : TLV) : Nat := leNat ((m.value.drop (place m)).take 57)
def answerIn (m : TLV) : Nat := leNat ((m.value.drop (place m + 114)).take 57)

/-- What anybody who has the message computes to test a guess at the number of the secret. -/
def Excludes (m : TLV) (n : Nat) : Prop := Telling ((answerIn m + challengeIn m * n) % ed448.q)

/-- The numbers, modulo the order of the group, that the test excludes. -/
noncomputable def excluded (m : TLV) : Finset Nat :=
  open Classical in (Finset.range ed448.q).filter (Excludes m)

/-- OTRv3: the challenge and the second answer in message 2 (TLV 3) and in message 3 (TLV 4). -/
def Answers3 (m : TLV) (c d : Nat) : Prop :=
  ∃ v, numbers m = .ok v ∧ ((m.typ = 3 ∧ v[8]? = some c ∧ v[10]? = some d) ∨ (m.typ = 4 ∧ v[2]? = some c ∧ v[4]? = some d))

/-- OTRv3: how many of the `256 ^ 192` equally likely values of 192 random bytes give this answer `d` to the challenge `c`, if the number of
the secret is `n`: the answer is the random number minus `c * n`, modulo `q`. -/
def ways (q c d n : Nat) : Nat := ((Finset.range (256 ^ 192)).filter fun r => (d + c * n) % q = r % q).card

end Otrr.Spec
