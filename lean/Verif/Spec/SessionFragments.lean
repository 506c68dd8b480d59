import Verif.Spec.SessionExchange
/-!
# Specification vocabulary for messages that arrive in fragments
-/

namespace Otrr.Spec
open Otrr

/-- The OTRv3 key exchange of an instance. -/
def akeOf (s : Session) (k : UInt32) : AKEState :=
  match lookup s.instances k with
  | some i => i.ake
  | .none => .none

/-- Texts received one after the other, each in its own call: the effects of these calls. -/
def receiveAll (E : Env) (A : Account) : List (Call × Bytes) → Session → List Effect
  | [], _ => []
  | (c, text) :: r, s =>
    let e := (Op.receive text).run E A c s
    e :: receiveAll E A r e.after

/-- The sessions have the same conversations and key exchanges with every instance of the peer.  They may differ in
the fragments they hold. -/
structure SameConversations (s s' : Session) : Prop where
  tagged : s'.tagged = s.tagged
  state : ∀ k, stateOf s' k = stateOf s k
  ake : ∀ k, akeOf s' k = akeOf s k
  dake : ∀ k, dakeOf s' k = dakeOf s k

/-- The calls with these effects did together what one call with the effect `whole` does: all but the last give
nothing and send nothing, and the last does the same as that call. -/
structure AsOne (whole : Effect) (es : List Effect) : Prop where
  waits : ∀ e ∈ es.dropLast, e.result = .ok (.user .none) ∧ e.sent = [] 
  last : ∃ e, es.getLast? = some e ∧ e.result = whole.result ∧ e.sent = whole.sent ∧ SameConversations whole.after e.after

/-- The fragments that instance `k` of the peer has in store at this client: the identifiers of OTRv4 messages that are
not complete, and how many fragments were counted. -/
def storedFragments (s : Session) (k : UInt32) : Unordered :=
  match lookup s.instances k with
  | some i => i.assembler.unordered
  | .none => .new

end Otrr.Spec
