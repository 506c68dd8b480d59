import Verif.Spec.SessionData
import Verif.Spec.SessionIsolation
import Verif.Spec.Fragment
/-!
# Specification vocabulary for what calls send on their own
-/

namespace Otrr.Spec
open Otrr

/-- A message of a key exchange. -/
def IsKeyExchange : EncodedMessageType → Prop
  | .dhCommit _ => True
  | .dhKey _ => True
  | .revealSignature _ => True
  | .signature _ => True
  | .identity _ => True
  | .authR _ => True
  | .authI _ => True
  | _ => False

/-- A TLV of the SMP: its messages and "abort". -/
def IsSmp (t : TLV) : Prop := 2 ≤ t.typ ∧ t.typ ≤ 7

/-- `m` is a data message, flagged "ignore unreadable", that carries no text and one TLV, of the SMP. -/
def CarriesTlv (E : Env) (c : Call) (t : TLV) (m : EncodedMessageType) : Prop :=
  IsSmp t ∧ t.value.length < 2 ^ 16 ∧ ∃ s s', Encrypts E c 1 (onlyTlv t) s s' m

/-- `?OTR Error:unreadable message`. -/
def UNREADABLE_ERROR : Bytes :=
  [0x3f, 0x4f, 0x54, 0x52, 0x20, 0x45, 0x72, 0x72, 0x6f, 0x72, 0x3a,
   0x75, 0x6e, 0x72, 0x65, 0x61, 0x64, 0x61, 0x62, 0x6c, 0x65, 0x20, 0x6d, 0x65, 0x73, 0x73, 0x61, 0x67, 0x65]

/-- The query for the highest version that the policy allows. -/
def OwnQuery (A : Account) (text : Bytes) : Prop :=
  AllowsV4 A ∧ text = ascii "?OTRv4? An Off-The-Record conversation has been requested." ∨
  ¬ AllowsV4 A ∧ AllowsV3 A ∧ text = ascii "?OTRv3? An Off-The-Record conversation has been requested."

/-- What a client sends on its own: nothing; or one message, whole or in fragments, from this client to an instance in
`K`, that belongs to a key exchange, or carries one TLV of the SMP and no text, or disconnects; or the error text; or a query. -/
inductive Injects (E : Env) (A : Account) (c : Call) (K : UInt32 → Prop) : List Bytes → Prop
  | nothing : Injects E A c K []
  | message {m out} : IsKeyExchange m.message ∨ (∃ t, CarriesTlv E c t m.message) ∨ (∃ s, Disconnects E c s m.message) →
      m.sender = A.tag → K m.receiver → InTransit A c m out → Injects E A c K out
  | error : Injects E A c K [UNREADABLE_ERROR]
  | query {text} : OwnQuery A text → Injects E A c K [text]

end Otrr.Spec
