import Verif.Spec.Deniable
/-! # The keys that are published by the end of a session -/

namespace Otrr.Spec
open Otrr

/-- The messages accepted in a history of OTRv3, in order, each with its authenticated header.  A message is accepted if it is not reported
unreadable. -/
def accepted3 (h : List Ev3) : List (DataMessage × Bytes) :=
  h.filterMap fun e => match e with
    | .got _ _ (.err (.unreadableMessage _)) => none
    | .got m ad _ => some (m, ad)
    | .sent _ => none

/-- The MAC key of an OTRv3 message with this authenticated header is among the keys that the messages sent in a history reveal. -/
def Published3 (E : Env) (h : List Ev3) (x : DataMessage × Bytes) : Prop :=
  ∃ mac, mac.length = 20 ∧ x.1.authenticator = E.hmacSha1 mac x.2 ∧ ∃ m, Ev3.sent m ∈ h ∧ KeyIn 20 mac m.revealed

/-- The MAC keys of the OTRv4 messages accepted in a history are, in order and each once, the keys that the messages sent in it and this last
message reveal. -/
def Published4 (E : Env) (h : List Ev4) (last : DataMessage4) : Prop :=
  ∃ ks : List Bytes, List.Forall₂ (Authentic E) (accepted4 h) ks ∧ revealed4 h ++ last.revealed = ks.flatten

end Otrr.Spec
