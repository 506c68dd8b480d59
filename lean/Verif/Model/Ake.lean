import Verif.Model.Protocol3
/-!
# Model of src/ake.rs: the OTRv3 authenticated key exchange

The methods return `AKEError`; every caller wraps it in `OTRError::AuthenticationError` (src/session.rs 693,
727-759), which is done here at once.  `host.keypair()` is an argument.  Simplification: `write_mpi` and
`write_data` cannot fail here, because all values written were read from a message, or are below the group's
modulus, or belong to the host's own key.
-/

namespace Otrr

/-- `CryptographicMaterial`, src/ake.rs 490-495. -/
structure AKEMaterial where
  ssid : Bytes
  ourDh : DH.Keypair
  theirDh : Nat
  theirDsa : DSAPublicKey
  deriving DecidableEq, Repr

/-- `AKEState` with its parts, src/ake.rs 498-530. -/
inductive AKEState
  | none
  | awaitingDHKey (ourDh : DH.Keypair) (r : Bytes)
  | awaitingRevealSignature (ourDh : DH.Keypair) (gxEncrypted gxHashed : Bytes)
  | awaitingSignature (ourDh : DH.Keypair) (gy s : Nat) (previous : RevealSignatureMessage)
  deriving DecidableEq, Repr

/-- Run a function that computes a result and the new state; nothing changes unless it succeeds. -/
def StM.transact (f : σ → Res (α × σ)) : StM σ α := fun s =>
  match f s with
  | .ok (a, s') => (.ok a, s')
  | .err e => (.err e, s)
  | .panic => (.panic, s)

/-- `.map_err(..)` or `.or(Err(..))`: any error becomes the given one. -/
def Res.orErr (x : Res α) (e : OTRError) : Res α :=
  match x with
  | .ok a => .ok a
  | .err _ => .err e
  | .panic => .panic

namespace AKE

/-- `AKEError::CryptographicViolation`. -/
abbrev eCrypto : OTRError := .authenticationError .cryptographicViolation

/-- `AKEError::MessageIgnored`. -/
abbrev eIgnored : OTRError := .authenticationError .messageIgnored

/-- `AKEError::DataProcessing`. -/
abbrev eData : OTRError := .authenticationError .dataProcessing

/-- The all-zero nonce `&[0; 16]`. -/
def zeroNonce : Bytes := List.replicate 16 0

/-- The D-H Commit message for a key pair and a key `r`, src/ake.rs 38-48 and 88-103. -/
def dhCommitOf (E : Env) (kp : DH.Keypair) (r : Bytes) : DHCommitMessage :=
  ⟨aesCrypt E r zeroNonce (wMpi kp.pub), E.sha256 (wMpi kp.pub)⟩

/-- `initiate`, src/ake.rs 34-49. -/
def initiate (E : Env) (rnd : Rand) : StM AKEState EncodedMessageType := .transact fun _ =>
  let kp := DH.Keypair.generate E.dh (rnd.bytes [0] 192)
  let r := rnd.bytes [1] 16
  .ok (.dhCommit (dhCommitOf E kp r), .awaitingDHKey kp r)

/-- `transfer`, src/ake.rs 55-69. -/
def transfer : AKEState → Res AKEState
  | .awaitingDHKey kp r => .ok (.awaitingDHKey kp r)
  | _ => .err (.authenticationError .incorrectState)

/-- `handle_dhcommit_from_initial`, src/ake.rs 153-173. -/
def dhCommitFromInitial (E : Env) (m : DHCommitMessage) (rnd : Rand) : EncodedMessageType × AKEState :=
  let kp := DH.Keypair.generate E.dh (rnd.bytes [0] 192)
  (.dhKey ⟨kp.pub⟩, .awaitingRevealSignature kp m.gxEncrypted m.gxHashed)

/-- `handle_dhcommit`, src/ake.rs 71-151. -/
def handleDhCommit (E : Env) (m : DHCommitMessage) (rnd : Rand) : StM AKEState EncodedMessageType :=
  .transact fun s =>
  match s with
  | .none => .ok (dhCommitFromInitial E m rnd)
  | .awaitingDHKey kp r =>
    if beNat (E.sha256 (wMpi kp.pub)) > beNat m.gxHashed then .ok (.dhCommit (dhCommitOf E kp r), s)
    else .ok (dhCommitFromInitial E m rnd)
  | .awaitingRevealSignature kp enc hashed => .ok (.dhKey ⟨kp.pub⟩, .awaitingRevealSignature kp enc hashed)
  | .awaitingSignature _ _ _ _ =>
    let kp := DH.Keypair.generate E.dh (rnd.bytes [0] 192)
    .ok (.dhKey ⟨kp.pub⟩, .awaitingRevealSignature kp m.gxEncrypted m.gxHashed)

/-- The data under the MAC that is signed, e.g. src/ake.rs 194-202. -/
def signedData (ourDh theirDh : Nat) (pk : DSAPublicKey) (keyid : UInt32) : Bytes :=
  wMpi ourDh ++ wMpi theirDh ++ wPublicKey pk ++ wU32 keyid

/-- The identity of a client, signed under `m1`: X_B in src/ake.rs 189-213, X_A in 343-360.  The key id is
always 1. -/
def identityOf (E : Env) (host : DSAKeypair) (m1 : Bytes) (ourDh theirDh : Nat) : Bytes :=
  wPublicKey host.pk ++ wU32 1 ++
    wDsaSignature (host.sign E (E.hmacSha256 m1 (signedData ourDh theirDh host.pk 1)))

/-- MAC over an encrypted identity, e.g. src/ake.rs 216-217; `hmac160` (src/crypto.rs 602-605) is `hmac`
cut to 20 bytes. -/
def identityMac (E : Env) (m2 enc : Bytes) : Bytes := (E.hmacSha256 m2 (wData enc)).take 20

/-- Read public key, key id and signature, src/ake.rs 297-315 and 413-428. -/
def readSigned (E : Env) : Dec (DSAPublicKey × UInt32 × DSASignature) := do
  let pk ← readPublicKey E
  let keyid ← readU32
  if keyid = 0 then Dec.fail .protocolViolation
  else do
    let sig ← readDsaSignature
    pure (pk, keyid, sig)

/-- `host.keypair().expect(..)`, src/ake.rs 189-192 and 337-340. -/
def hostKeypair (host : Option DSAKeypair) : Res DSAKeypair :=
  match host with
  | some k => .ok k
  | .none => .panic

/-- `handle_dhkey` in state `AwaitingDHKey`, src/ake.rs 181-232. -/
def answerDhKey (E : Env) (host : Option DSAKeypair) (gy : Nat) (kp : DH.Keypair) (r : Bytes) :
    Res (EncodedMessageType × AKEState) := do
  (DH.verifyPublicKey E.dh gy).orErr eCrypto
  let s := kp.sharedSecret E.dh gy
  let secrets := AKESecrets.derive E (wMpi s)
  let dsa ← hostKeypair host
  let enc := aesCrypt E secrets.c zeroNonce (identityOf E dsa secrets.m1 kp.pub gy)
  let m : RevealSignatureMessage := ⟨r, enc, identityMac E secrets.m2 enc⟩
  return (.revealSignature m, .awaitingSignature kp gy s m)

/-- `handle_dhkey`, src/ake.rs 175-253. -/
def handleDhKey (E : Env) (host : Option DSAKeypair) (m : DHKeyMessage) : StM AKEState EncodedMessageType :=
  .transact fun s =>
  match s with
  | .awaitingDHKey kp r => answerDhKey E host m.gy kp r
  | .awaitingSignature _ gy _ prev =>
    if gy ≠ m.gy then .err eIgnored else .ok (.revealSignature prev, s)
  | _ => .err eIgnored

/-- `handle_reveal_signature` in state `AwaitingRevealSignature`, src/ake.rs 269-382. -/
def answerRevealSignature (E : Env) (host : Option DSAKeypair) (m : RevealSignatureMessage) (kp : DH.Keypair)
    (enc hashed : Bytes) : Res (AKEMaterial × EncodedMessageType) := do
  let gxmpi := aesCrypt E m.key zeroNonce enc
  (compareBytes (E.sha256 gxmpi) hashed).orErr eCrypto
  let gx ← (runDec readMpi gxmpi).orErr eData
  (DH.verifyPublicKey E.dh gx).orErr eCrypto
  let secrets := AKESecrets.derive E (wMpi (kp.sharedSecret E.dh gx))
  (compareBytes (identityMac E secrets.m2 m.sigEncrypted) m.sigMac).orErr eCrypto
  let (pk, keyid, sig) ← (runDec (readSigned E) (aesCrypt E secrets.c zeroNonce m.sigEncrypted)).orErr eData
  (pk.validate E sig (E.hmacSha256 secrets.m1 (signedData gx kp.pub pk keyid))).orErr eCrypto
  let dsa ← hostKeypair host
  let encA := aesCrypt E secrets.cp zeroNonce (identityOf E dsa secrets.m1p kp.pub gx)
  return (⟨secrets.ssid, kp, gx, pk⟩, .signature ⟨encA, identityMac E secrets.m2p encA⟩)

/-- `handle_reveal_signature`, src/ake.rs 258-386. -/
def handleRevealSignature (E : Env) (host : Option DSAKeypair) (m : RevealSignatureMessage) :
    StM AKEState (AKEMaterial × EncodedMessageType) :=
  .transact fun s =>
  match s with
  | .awaitingRevealSignature kp enc hashed => do
    let r ← answerRevealSignature E host m kp enc hashed
    return (r, .none)
  | _ => .err eIgnored

/-- `handle_signature` in state `AwaitingSignature`, src/ake.rs 400-478. -/
def acceptSignature (E : Env) (m : SignatureMessage) (kp : DH.Keypair) (gy s : Nat) : Res AKEMaterial := do
  let secrets := AKESecrets.derive E (wMpi s)
  (compareBytes m.sigMac (identityMac E secrets.m2p m.sigEncrypted)).orErr eCrypto
  let (pk, keyid, sig) ← (runDec (do let x ← readSigned E; decDone; pure x)
    (aesCrypt E secrets.cp zeroNonce m.sigEncrypted)).orErr eData
  (pk.validate E sig (E.hmacSha256 secrets.m1p (signedData gy kp.pub pk keyid))).orErr eCrypto
  return ⟨secrets.ssid, kp, gy, pk⟩

/-- `handle_signature`, src/ake.rs 391-483. -/
def handleSignature (E : Env) (m : SignatureMessage) : StM AKEState AKEMaterial :=
  .transact fun s =>
  match s with
  | .awaitingSignature kp gy s _ => do
    let r ← acceptSignature E m kp gy s
    return (r, .none)
  | _ => .err eIgnored

end AKE

end Otrr
