import Verif.Spec.SessionIsolation
import Verif.Spec.SessionCrash
/-!
# Specification vocabulary for the list of instances of a contact
-/

namespace Otrr.Spec
open Otrr

/-- The policy allows this version of the protocol. -/
def Allows (A : Account) (v : Version) : Prop := v = .v3 ∧ AllowsV3 A ∨ v = .v4 ∧ AllowsV4 A

/-- The call makes the client keep an instance `k`: the user opens a conversation with it, or a sound fragment for this client
comes from it, or a message for this client of an allowed version comes from it. -/
inductive Makes (E : Env) (A : Account) (s : Session) (k : UInt32) : Op → Prop
  | initiate (v) : Makes E A s k (.initiate v k)
  | fragment {payload f} : SomeVersion A → matchFragment payload = true → parseFragment E.nd payload = .ok (some f) →
      verifyFragment f = true → f.receiver = 0 ∨ f.receiver = A.tag → f.sender = k → Makes E A s k (.receive payload)
  | message {payload m} : Delivers E A s payload m → Allows A m.version → Addressed A m → m.sender = k →
      Makes E A s k (.receive payload)

/-- The calls of the user that name an instance which must be known. -/
inductive On (k : UInt32) : Op → Prop
  | send (content) : On k (.send k content)
  | close : On k (.close k)
  | startSmp (secret question) : On k (.startSmp k secret question)
  | abortSmp : On k (.abortSmp k)

/-- All calls of the history are arrivals of texts of at most `n` bytes. -/
def OnlyReceives (n : Nat) (h : List Ev) : Prop := ∀ ev ∈ h, ∃ payload, ev.op = .receive payload ∧ payload.length ≤ n

/-- The calls that can make instances: a text arrives, or the user opens a conversation. -/
def Op.opens : Op → Bool
  | receive _ => true
  | initiate _ _ => true
  | _ => false

end Otrr.Spec
