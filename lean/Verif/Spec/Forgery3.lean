import Verif.Spec.Deniable
/-! # A forgery with what is seen on the network -/

namespace Otrr.Spec
open Otrr

/-- What somebody does who sees a message and the reply to it on the network, and knows the text of the former: give the message another text,
and authenticate it with the key that the reply reveals. -/
def forgeFromWire (E : Env) (seen reply text text' : Bytes) : Option Bytes :=
  match parse E seen, parse E reply with
  | .ok (.encoded m), .ok (.encoded ⟨_, _, _, .data d⟩) =>
    match serialize (.encoded (forge E d.revealed m text text')) with
    | .ok t => some t
    | _ => none
  | _, _ => none

end Otrr.Spec
