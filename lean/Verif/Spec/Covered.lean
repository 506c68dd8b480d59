import Verif.Spec.SessionForged
/-! # What the authenticator of a data message covers -/

namespace Otrr.Spec
open Otrr

/-- The bytes of which the authenticator of a data message is computed, with a key that the two clients share. -/
def covered (m : EncodedMessage) : Option Bytes :=
  match m.message with
  | .data d => some (authenticatorData 3 m.sender m.receiver d)
  | .data4 d => some (authenticatorData4 4 m.sender m.receiver d)
  | _ => none

/-- The authenticator of a data message. -/
def authOf (m : EncodedMessage) : Option Bytes :=
  match m.message with
  | .data d => some d.authenticator
  | .data4 d => some d.authenticator
  | _ => none

/-- The message without its authenticator and without the list of old authentication keys that it publishes. -/
def bare (m : EncodedMessage) : EncodedMessage :=
  match m.message with
  | .data d => { m with message := .data { d with authenticator := [], revealed := [] } }
  | .data4 d => { m with message := .data4 { d with authenticator := [], revealed := [] } }
  | _ => m

/-- The authenticator that a key gives to these bytes. -/
def codeWith (E : Env) (m : EncodedMessage) (key b : Bytes) : Bytes :=
  match m.message with
  | .data _ => E.hmacSha1 key b
  | _ => kdf2 E 64 0x18 key b

/-- The key with which a client whose session is in this state checks the data message. -/
inductive ChecksWith (E : Env) (now : Nat) (m : EncodedMessage) : PState → Bytes → Prop
  | otr3 {x smp d sec} : m.message = .data d →
      dataSecrets E (x.keys.ours.keys.get d.receiverKeyid) (x.keys.theirs.keys.get d.senderKeyid) = .ok sec →
      ChecksWith E now m (.encrypted3 x smp) (sec.receiverMac E)
  | otr4 {x smp d d1} : m.message = .data4 d → TriesWith E d now x.ratchet d1 →
      ChecksWith E now m (.encrypted4 x smp)
        (kdf E 64 0x16 (kdf E 64 0x15 (chainFwd E (d.j.toNat - d1.receiver.id.toNat) d1.receiver.chain)))

end Otrr.Spec
