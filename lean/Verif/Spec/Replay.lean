import Verif.Spec.SessionExchange
import Verif.Spec.Data4
import Verif.Spec.SessionFragments
import Verif.Spec.SessionData
/-! # What somebody gains who delivers messages of a key exchange again -/

namespace Otrr.Spec
open Otrr Otrr.Session

/-- The encrypted part of a data message, as anybody on the network sees it. -/
def cipherOf (E : Env) (wire : Bytes) : Option Bytes :=
  match parse E wire with
  | .ok (.encoded ⟨_, _, _, .data d⟩) => some d.encrypted
  | .ok (.encoded ⟨_, _, _, .data4 d⟩) => some d.encrypted
  | _ => none

/-- The bitwise sum of two texts: who has it and one of the texts has the other. -/
def xorText (a b : Bytes) : Bytes := List.zipWith (· ^^^ ·) a b

/-- All that the network delivered in the history `h` of a client are messages that its peer put on the network in `h'`, possibly more than once,
and the query `q`. -/
def OnlyDelivers (q : Bytes) (h h' : List Ev) : Prop :=
  ∀ e ∈ h, ∀ p, e.op = .receive p → p = q ∨ ∃ e' ∈ h', p ∈ e'.sent ∨ e'.result = .ok (.texts [p])

/-- In the history `h` the client sent `a`, later `b`, to `k`, and the encrypted parts of the two messages, which anybody sees, add up to the sum of
the two texts. -/
def TellsSum (E : Env) (h : List Ev) (k : UInt32) (a b : Bytes) : Prop :=
  ∃ h₁ h₂ h₃ c c' w w' x x', h = h₁ ++ ⟨.send k a, c, .ok (.texts [w]), []⟩ :: h₂ ++ ⟨.send k b, c', .ok (.texts [w']), []⟩ :: h₃ ∧
    cipherOf E w = some x ∧ cipherOf E w' = some x' ∧ xorText x x' = xorText a b

/-- How many times the client sent the text to `k`. -/
def timesSent (k : UInt32) (text : Bytes) (h : List Ev) : Nat :=
  h.countP fun e => match e.op with | .send k' t => k' == k && t == text | _ => false

/-- How many times a text of `k` was reported to the user. -/
def timesReported (k : UInt32) (text : Bytes) (h : List Ev) : Nat :=
  h.countP fun e => match e.result with | .ok (.user (.confidential k' t _)) => k' == k && t == text | _ => false

/-- What a thief of the OTRv3 key pair that the client sent in its offer makes of a recorded message `d` of the client, with the public key that
the peer sent in its answer. -/
def openedBy (E : Env) (kp : DH.Keypair) (theirs : Nat) (d : DataMessage) : Option Bytes :=
  match dataSecrets E kp theirs with
  | .ok sec => some (aesCrypt E sec.sendkey (d.ctr ++ List.replicate 8 0) d.encrypted)
  | _ => none

/-- What a thief of the state of the OTRv4 offer makes of a recorded message `d` to the client, with the recorded answer `r` to the offer. -/
def openedByOffer (E : Env) (st : AwaitingAuthR) (r : AuthRMessage) (d : DataMessage4) : Option Bytes :=
  match Mixed.new E st.y st.b r.x r.a, Mixed.new E st.ecdh0 st.dh0 r.ecdh0 r.dh0 with
  | .ok shared, .ok first =>
    some (chachaCrypt E ((kdf E 64 0x15 (chainFwd E d.j.toNat
      (DoubleRatchet.init E .receiver first (kdf E 64 0x0b shared.k) 0).receiver.chain)).take 32) d.encrypted)
  | _, _ => none

end Otrr.Spec
