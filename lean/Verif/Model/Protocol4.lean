import Verif.Model.Protocol3
import Verif.Model.Ratchet
/-! # Model of the OTRv4 part of src/protocol.rs: encryption and decryption of data messages -/

namespace Otrr

/-- The part of `EncryptedOTR4State` that data messages use, src/protocol.rs 431-436 (all but the SMP
context). -/
structure Enc4 where
  our : UInt32
  their : UInt32
  ratchet : DoubleRatchet
  deriving DecidableEq, Repr

/-- `i().saturating_sub(1)`, src/protocol.rs 597, 657. -/
def predSat (i : UInt32) : UInt32 := if i = 0 then 0 else i - 1

/-- `extract_encryption_key`, src/protocol.rs 719-723. -/
def encKey (mk : Bytes) : Bytes := mk.take 32

/-- The rotation before sending, src/protocol.rs 590-594: the MAC keys to reveal and the new ratchet. -/
def ratchetForSend (E : Env) (d : DoubleRatchet) (reveals : Bytes) (r : Rand) (now : Nat) :
    Res (Bytes × DoubleRatchet) :=
  if d.next = .sender then do
    let d' ← ({ d with reveals := [] } : DoubleRatchet).rotateSender E r now
    return (reveals ++ d.reveals, d')
  else .ok (reveals, d)

/-- `EncryptedOTR4State::encrypt_message`, src/protocol.rs 578-629: the message and the new ratchet. -/
def encrypt4 (E : Env) (our their : UInt32) (flags : UInt8) (content reveals : Bytes) (r : Rand) (now : Nat)
    (d : DoubleRatchet) : Res (DataMessage4 × DoubleRatchet) := do
  let (reveals, d) ← ratchetForSend E d reveals r now
  let keys ← d.sender.keys E
  let i := predSat d.i
  let m : DataMessage4 :=
    { flags := flags
      pn := d.pn
      i := i
      j := d.sender.id
      ecdh := d.shared.ecdh.pub
      dh := if i % 3 = 0 then some d.shared.dh.pub else .none
      encrypted := chachaCrypt E (encKey keys.enc) content
      authenticator := List.replicate 64 0
      revealed := reveals }
  let m : DataMessage4 := { m with authenticator := kdf2 E 64 0x18 keys.mac (authenticatorData4 4 our their m) }
  Res.assert (m.validate E).isOk
  let d ← d.rotateSenderChain E
  return (m, d)

/-- The ratchet to try on a received message, src/protocol.rs 651-692. -/
def speculate4 (E : Env) (m : DataMessage4) (now : Nat) (d : DoubleRatchet) : Res DoubleRatchet :=
  if m.i > d.i then .err .protocolViolation
  else if m.i < predSat d.i ∨ (m.i = predSat d.i ∧ m.j < d.receiver.id) then .err .userError
  else if m.i = d.i then
    if d.next ≠ .receiver then .err .protocolViolation
    else do
      Res.assert ((m.i % 3 == 0) == m.dh.isSome)
      if m.dh = some d.shared.publicDh then .err .protocolViolation
      else d.rotateReceiver E m.ecdh (m.dh.getD d.shared.publicDh) now
  else .ok d

/-- `EncryptedOTR4State::decrypt_message`, src/protocol.rs 631-717: the content and the new ratchet;
`USAGE_AUTHENTICATOR` = 0x18. -/
def decrypt4 (E : Env) (m : DataMessage4) (authData : Bytes) (now : Nat) (d : DoubleRatchet) :
    Res (Bytes × DoubleRatchet) := do
  let s ← speculate4 E m now d
  let r ← s.receiver.forward E (m.j.toNat - s.receiver.id.toNat)
  let keys ← r.keys E
  compareBytes (kdf2 E 64 0x18 keys.mac authData) m.authenticator
  let content := chachaCrypt E (encKey keys.enc) m.encrypted
  let s ← ({ s with receiver := r } : DoubleRatchet).confirmReceiver E
  return (content, s)

/-- Put a computation on the ratchet into the state; nothing changes unless it succeeds. -/
def Enc4.onRatchet (f : DoubleRatchet → Res (α × DoubleRatchet)) : StM Enc4 α := fun s =>
  match f s.ratchet with
  | .ok (a, d) => (.ok a, { s with ratchet := d })
  | .err e => (.err e, s)
  | .panic => (.panic, s)

/-- `EncryptedOTR4State::prepare`, src/protocol.rs 544-554. -/
def Enc4.encrypt (E : Env) (flags : UInt8) (content : Bytes) (r : Rand) (now : Nat) : StM Enc4 DataMessage4 :=
  fun s => Enc4.onRatchet (encrypt4 E s.our s.their flags content [] r now) s

/-- The disconnect message of `finish` and `expire`, src/protocol.rs 511-542: the MAC keys to reveal are
collected first. -/
def Enc4.disconnect (E : Env) (r : Rand) (now : Nat) : StM Enc4 DataMessage4 := fun s =>
  Enc4.onRatchet (fun d => encrypt4 E s.our s.their IGNORE_UNREADABLE disconnectPlain d.reveals r now
    { d with reveals := [] }) s

/-- The condition of `expire`, src/protocol.rs 527-529, for a timeout in seconds and times in
nanoseconds. -/
def Enc4.expired (timeout now : Nat) (s : Enc4) : Bool := !((now - s.ratchet.created) / 1000000000 < timeout)

/-- `EncryptedOTR4State::handle4`, src/protocol.rs 456-481: the result and whether the state becomes
`Finished`. -/
def Enc4.handle (E : Env) (m : DataMessage4) (authData : Bytes) (now : Nat) : StM Enc4 (PMessage × Bool) := fun s =>
  match Enc4.onRatchet (decrypt4 E m authData now) s with
  | (.ok plain, s') =>
    match parseMessage plain with
    | .ok (.confidentialFinished c) => (.ok (.confidentialFinished c, true), s')
    | .ok msg => (.ok (msg, false), s')
    | .err e => (.err e, s')
    | .panic => (.panic, s')
  | (.err _, s') => (.err (.unreadableMessage s.their), s')
  | (.panic, s') => (.panic, s')

end Otrr
