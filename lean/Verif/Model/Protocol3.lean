import Verif.Model.KeyManager
import Verif.Model.Messages
/-! # Model of the OTRv3 part of src/protocol.rs: encryption and decryption of data messages -/

namespace Otrr

/-- The part of `EncryptedOTR3State` that data messages use, src/protocol.rs 181-186 (all but the SMP
context). -/
structure Enc3 where
  our : UInt32
  their : UInt32
  keys : KeyManager
  deriving DecidableEq, Repr

/-- `Message`, src/protocol.rs 871-874. -/
inductive PMessage
  | confidential (content : Bytes) (tlvs : List TLV)
  | confidentialFinished (content : Bytes)
  deriving DecidableEq, Repr

/-- `TLV_TYPE_0_PADDING`, src/protocol.rs 20. -/
def TLV_TYPE_0_PADDING : UInt16 := 0

/-- `TLV_TYPE_1_DISCONNECT`, src/protocol.rs 23. -/
def TLV_TYPE_1_DISCONNECT : UInt16 := 1

/-- The decoder of `parse_message`, src/protocol.rs 854-861. -/
def readPayloadParts : Dec (Bytes × List TLV) := do
  let content ← readNullTerminated
  let tlvs ← readTlvs
  decDone
  pure (content, tlvs.filter fun t => t.typ != TLV_TYPE_0_PADDING)

/-- `parse_message`, src/protocol.rs 853-869. -/
def parseMessage (raw : Bytes) : Res PMessage := do
  let (content, tlvs) ← runDec readPayloadParts raw
  if tlvs.any fun t => t.typ == TLV_TYPE_1_DISCONNECT then return .confidentialFinished content
  else return .confidential content tlvs

/-- The 16-byte nonce made of the 8-byte counter, src/protocol.rs 349-350, 414-415. -/
def ctrNonce (ctr : Bytes) : Bytes := ctr ++ List.replicate 8 0

/-- Keys for messages between our key pair and their public key: src/protocol.rs 346-348, 401-404,
src/keymanager.rs 77-81. -/
def dataSecrets (E : Env) (ours : DH.Keypair) (theirs : Nat) : Res DataSecrets :=
  DataSecrets.derive E ours.pub theirs (wMpi (ours.sharedSecret E.dh theirs))

/-- `EncryptedOTR3State::encrypt_message`, src/protocol.rs 341-388. -/
def encrypt3 (E : Env) (our their : UInt32) (flags : UInt8) (plain : Bytes) : StM KeyManager DataMessage := do
  let ctr ← KeyManager.takeCounter
  let (receiverKeyid, receiverKey) ← StM.gets fun k => k.theirs.current
  let (ourKeyid, ourDh) ← StM.gets fun k => k.ours.current
  let (_, nextDh) ← StM.query fun k => k.ours.next
  let secrets ← StM.lift (dataSecrets E ourDh receiverKey)
  let ciphertext := aesCrypt E secrets.sendkey (ctrNonce ctr) plain
  StM.lift (Res.assert (anyNonzero ciphertext))
  let old ← KeyManager.getRevealMacs
  StM.lift (Res.assert (old.length % 20 = 0))
  StM.lift (Res.assert (old.isEmpty || anyNonzero old))
  let m : DataMessage :=
    ⟨flags, ourKeyid, receiverKeyid, nextDh.pub, ctr, ciphertext, List.replicate 20 0, old⟩
  let auth := E.hmacSha1 (secrets.senderMac E) (authenticatorData 3 our their m)
  StM.lift (Res.assert (anyNonzero auth))
  return { m with authenticator := auth }

/-- `EncryptedOTR3State::decrypt_message`, src/protocol.rs 390-428; `fresh` are the random bytes of the key
pair that may be generated. -/
def decrypt3 (E : Env) (m : DataMessage) (authData fresh : Bytes) : StM KeyManager Bytes := do
  let theirKey ← StM.query fun k => k.theirs.select m.senderKeyid
  let ourDh ← StM.query fun k => k.ours.select m.receiverKeyid
  let secrets ← StM.lift (dataSecrets E ourDh theirKey)
  let auth := E.hmacSha1 (secrets.receiverMac E) authData
  StM.lift (compareBytes m.authenticator auth)
  KeyManager.registerUsedMac (secrets.receiverMac E)
  KeyManager.verifyCounter m.ctr
  StM.lift (verifyNonzero (ctrNonce m.ctr))
  KeyManager.acknowledgeOurs E.dh m.receiverKeyid fresh
  let nextId ← StM.lift (incId m.senderKeyid)
  KeyManager.registerTheirKey nextId m.dhY
  return aesCrypt E secrets.recvkey (ctrNonce m.ctr) m.encrypted

/-- `EncryptedOTR3State::new`, src/protocol.rs 324-339. -/
def Enc3.new (E : Env) (our their : UInt32) (ourDh : DH.Keypair) (theirDh : Nat) (r : Rand) : Res Enc3 := do
  let k ← KeyManager.new E.dh 1 ourDh 1 theirDh r
  return ⟨our, their, k⟩

/-- `EncryptedOTR3State::prepare`, src/protocol.rs 291-299, before wrapping in `EncodedMessageType`. -/
def Enc3.encrypt (E : Env) (flags : UInt8) (plain : Bytes) : StM Enc3 DataMessage := fun s =>
  let (r, k) := encrypt3 E s.our s.their flags plain s.keys
  (r, { s with keys := k })

/-- The plaintext of a disconnect message, src/protocol.rs 276-279, 512-515, 530-533. -/
def disconnectPlain : Bytes := wU8 0 ++ wTlv ⟨TLV_TYPE_1_DISCONNECT, []⟩

/-- `EncryptedOTR3State::handle`, src/protocol.rs 197-224: the result and whether the state becomes
`Finished`. -/
def Enc3.handle (E : Env) (m : DataMessage) (authData fresh : Bytes) : StM Enc3 (PMessage × Bool) := fun s =>
  match decrypt3 E m authData fresh s.keys with
  | (.ok plain, k) =>
    match parseMessage plain with
    | .ok (.confidentialFinished c) => (.ok (.confidentialFinished c, true), { s with keys := k })
    | .ok msg => (.ok (msg, false), { s with keys := k })
    | .err e => (.err e, { s with keys := k })
    | .panic => (.panic, { s with keys := k })
  | (.err _, k) => (.err (.unreadableMessage s.their), { s with keys := k })
  | (.panic, k) => (.panic, { s with keys := k })

end Otrr
