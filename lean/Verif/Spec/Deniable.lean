import Verif.Spec.SessionData
/-! # Forging a data message with its MAC key

What anyone who saw a data message, knows its text and learns its MAC key can write instead: another text of the same length.  No
encryption key, no private key and no state of a session goes into it. -/

namespace Otrr.Spec

/-- The encrypted text `c`, which begins with that of `text`, changed to begin with that of `text'`: there, byte by byte, the exclusive
or of the three. -/
def retext (c text text' : Bytes) : Bytes :=
  List.zipWith (· ^^^ ·) (c.take text.length) (List.zipWith (· ^^^ ·) text text') ++ c.drop text.length

/-- The OTRv3 message `d`, with text `text`, rewritten by someone who has its MAC key to have the text `text'`. -/
def forge3 (E : Env) (mac : Bytes) (sender receiver : UInt32) (d : DataMessage) (text text' : Bytes) : DataMessage :=
  let d' := { d with encrypted := retext d.encrypted text text' }
  { d' with authenticator := E.hmacSha1 mac (authenticatorData 3 sender receiver d') }

/-- The OTRv4 message `d`, with text `text`, rewritten by someone who has its MAC key to have the text `text'`. -/
def forge4 (E : Env) (mac : Bytes) (sender receiver : UInt32) (d : DataMessage4) (text text' : Bytes) : DataMessage4 :=
  let d' := { d with encrypted := retext d.encrypted text text' }
  { d' with authenticator := kdf2 E 64 0x18 mac (authenticatorData4 4 sender receiver d') }

/-- The message `m`, forged likewise. -/
def forge (E : Env) (mac : Bytes) (m : EncodedMessage) (text text' : Bytes) : EncodedMessage :=
  match m.message with
  | .data d => { m with message := .data (forge3 E mac m.sender m.receiver d text text') }
  | .data4 d => { m with message := .data4 (forge4 E mac m.sender m.receiver d text text') }
  | _ => m

/-- The authenticator of a data message. -/
def authenticatorOf (m : EncodedMessage) : Bytes :=
  match m.message with
  | .data d => d.authenticator
  | .data4 d => d.authenticator
  | _ => []

/-- `mac` is among the keys of `n` bytes each that make up `b`, or its end. -/
def KeyIn (n : Nat) (mac b : Bytes) : Prop := ∃ macs : List Bytes, macs.flatten <:+ b ∧ (∀ k ∈ macs, k.length = n) ∧ mac ∈ macs

/-- The client keeps the MAC key to reveal it: with OTRv3 it was used since the last rotation of keys, or goes with the next message; with
OTRv4 it goes with the next ratchet. -/
def KeepsToReveal (s : PState) (mac : Bytes) : Prop :=
  match s with
  | .encrypted3 x _ => mac ∈ x.keys.usedMacs ∨ KeyIn 20 mac x.keys.oldMacs
  | .encrypted4 x _ => KeyIn 64 mac x.ratchet.reveals
  | _ => False

end Otrr.Spec
