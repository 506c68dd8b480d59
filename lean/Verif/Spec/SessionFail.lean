import Verif.Spec.SessionInjects
/-!
# Specification vocabulary for calls that fail
-/

namespace Otrr.Spec
open Otrr

/-- What the user sees of an instance is as before: its status, and its ssid.  An instance that was not listed may be
listed now, as plaintext. -/
structure AsBefore (s s' : Session) (k : UInt32) : Prop where
  listed : ∀ st, s.status k = some st → s'.status k = some st
  unlisted : s.status k = none → s'.status k = none ∨ s'.status k = some .plaintext
  ssid : ∀ x, s'.ssid k = .ok x ↔ s.ssid k = .ok x

/-- What a call that fails sends: nothing; or, if `send` is refused because the policy requires encryption, a query; or, if
`receive` cannot read a message, the error text. -/
def FailSends (op : Op) (e : OTRError) (sent : List Bytes) : Prop :=
  sent = [] ∨
  (∃ k t q, op = .send k t ∧ e = .policyRestriction ∧ IsQuery q ∧ sent = [q]) ∨
  (∃ p k, op = .receive p ∧ e = .unreadableMessage k ∧ sent = [UNREADABLE_ERROR])

end Otrr.Spec
