import Verif.Model.Ake
import Verif.Model.Dake
import Verif.Model.Fragment
import Verif.Model.Protocol4
import Verif.Model.Smp4
/-!
# Model of src/session.rs, and of the state machine of src/protocol.rs

A call is a function from the state before it to its result, the state after it and the messages handed to
`Host::inject`, in order.  The answers of the host, the random bytes and the clock are arguments of each
call, so that they may differ from call to call.

Simplifications: log output is dropped; `HashMap`s are association lists in which no key occurs twice, and
iteration follows the list; when a message is sent as fragments, all of them are encoded before the first is
injected; what `Drop` does to discarded states is not modelled.
-/

namespace Otrr

/-- `Policy`, src/lib.rs 170-196: a set of bits. -/
abbrev Policy := UInt32

/-- `Policy::ALLOW_V3`, src/lib.rs 181. -/
def ALLOW_V3 : Policy := 0x4

/-- `Policy::REQUIRE_ENCRYPTION`, src/lib.rs 184. -/
def REQUIRE_ENCRYPTION : Policy := 0x8

/-- `Policy::SEND_WHITESPACE_TAG`, src/lib.rs 187. -/
def SEND_WHITESPACE_TAG : Policy := 0x10

/-- `Policy::WHITESPACE_START_AKE`, src/lib.rs 190. -/
def WHITESPACE_START_AKE : Policy := 0x20

/-- `Policy::ERROR_START_AKE`, src/lib.rs 193. -/
def ERROR_START_AKE : Policy := 0x40

/-- `Policy::ALLOW_V4`, src/lib.rs 194. -/
def ALLOW_V4 : Policy := 0x100

/-- `Policy::contains` (bitflags). -/
def Policy.has (p b : Policy) : Bool := p &&& b == b

/-- `ProtocolStatus`, src/lib.rs 151-155. -/
inductive Status
  | plaintext
  | encrypted
  | finished
  deriving DecidableEq, Repr

/-- `UserMessage`, src/lib.rs 84-107. -/
inductive UserMessage
  | none
  | plaintext (content : Bytes)
  | warningUnencrypted (content : Bytes)
  | error (content : Bytes)
  | reset (tag : UInt32)
  | sessionStarted (tag : UInt32)
  | confidential (tag : UInt32) (content : Bytes) (tlvs : List TLV)
  | sessionFinished (tag : UInt32) (content : Bytes)
  | smpSucceeded (tag : UInt32)
  | smpFailed (tag : UInt32)
  deriving DecidableEq, Repr

/-- What stays the same during the life of a session: `AccountDetails`, src/session.rs 1106-1111, and the
address of the peer, 135. -/
structure Account where
  policy : Policy
  tag : UInt32
  name : Bytes
  address : Bytes
  deriving DecidableEq, Repr

/-- What a call gets from outside: the answers of the host (`Host`, src/lib.rs 207-253), a source of
random bytes, and the time in nanoseconds.  `keypair_forging` and `update_client_profile` are used only
when an account is made. -/
structure Call where
  messageSize : Nat
  keypair : Option DSAKeypair
  identity : EdDSAKeyPair
  profile : Bytes
  secret : Bytes → Option Bytes
  rnd : Rand
  now : Nat

/-- The host as seen by an SMP context. -/
def Call.smp (c : Call) : SMPHost := ⟨c.keypair.map (·.pk), c.secret⟩

/-- The host as seen by a DAKE context. -/
def Call.dake (c : Call) (A : Account) : DAKEHost := ⟨c.profile, c.identity, A.name, A.address⟩

/-! ## src/protocol.rs: protocol states -/

/-- The implementations of `ProtocolState`, src/protocol.rs 74, 181-186, 431-436, 727. -/
inductive PState
  | plaintext
  | encrypted3 (s : Enc3) (smp : SMPContext)
  | encrypted4 (s : Enc4) (smp : SMP4Context)
  | finished
  deriving DecidableEq, Repr

namespace PState

/-- `status`, src/protocol.rs 77, 189, 439, 730. -/
def status : PState → Status
  | plaintext => .plaintext
  | encrypted3 _ _ => .encrypted
  | encrypted4 _ _ => .encrypted
  | finished => .finished

/-- `version`, src/protocol.rs 81, 193, 443, 734. -/
def version : PState → Version
  | plaintext => .none
  | encrypted3 _ _ => .v3
  | encrypted4 _ _ => .v4
  | finished => .none

/-- Put the result of a computation on the data part of an OTRv3 state back into the state. -/
def with3 (smp : SMPContext) : Res α × Enc3 → Res α × PState := fun (r, s) => (r, encrypted3 s smp)

/-- Put the result of a computation on the data part of an OTRv4 state back into the state. -/
def with4 (smp : SMP4Context) : Res α × Enc4 → Res α × PState := fun (r, s) => (r, encrypted4 s smp)

/-- `prepare`, src/protocol.rs 149-153, 291-299, 544-554, 805-807. -/
def prepare (E : Env) (flags : UInt8) (content : Bytes) (rnd : Rand) (now : Nat) : StM PState EncodedMessageType
  | plaintext => (.ok (.unencoded content), plaintext)
  | encrypted3 s smp => with3 smp ((do return .data (← Enc3.encrypt E flags content) : StM Enc3 _) s)
  | encrypted4 s smp => with4 smp ((do return .data4 (← Enc4.encrypt E flags content rnd now) : StM Enc4 _) s)
  | finished => (.err .incorrectState, finished)

/-- Apply the transition that goes with the result of `handle` or `handle4`, src/session.rs 764-766,
859-861. -/
def transition : Res (PMessage × Bool) × PState → Res PMessage × PState
  | (.ok (m, true), _) => (.ok m, finished)
  | (.ok (m, false), s) => (.ok m, s)
  | (.err e, s) => (.err e, s)
  | (.panic, s) => (.panic, s)

/-- `handle` with its transition, src/protocol.rs 85-92, 197-224, 447-454, 739-746. -/
def handle3 (E : Env) (m : DataMessage) (authData fresh : Bytes) : StM PState PMessage
  | plaintext => (.err (.unreadableMessage INSTANCE_ZERO), plaintext)
  | encrypted3 s smp => transition (with3 smp (Enc3.handle E m authData fresh s))
  | encrypted4 s smp => (.err (.unreadableMessage s.their), encrypted4 s smp)
  | finished => (.err (.unreadableMessage INSTANCE_ZERO), finished)

/-- `handle4` with its transition, src/protocol.rs 94-102, 226-234, 456-479, 748-756. -/
def handle4 (E : Env) (m : DataMessage4) (authData : Bytes) (now : Nat) : StM PState PMessage
  | plaintext => (.err (.unreadableMessage INSTANCE_ZERO), plaintext)
  | encrypted3 s smp => (.err (.unreadableMessage s.their), encrypted3 s smp)
  | encrypted4 s smp => transition (with4 smp (Enc4.handle E m authData now s))
  | finished => (.err (.unreadableMessage INSTANCE_ZERO), finished)

/-- `secure` with the material of an OTRv3 exchange, src/protocol.rs 112-125, 247-260, 489-496, 769-782:
panics in an encrypted OTRv4 session. -/
def secure3 (E : Env) (our their : UInt32) (m : AKEMaterial) (rnd : Rand) : PState → Res PState
  | encrypted4 _ _ => .panic
  | _ => do
    let s ← Enc3.new E our their m.ourDh m.theirDh rnd
    return encrypted3 s (SMP.new m.ssid (fingerprint3 E m.theirDsa))

/-- `secure` with the material of an OTRv4 exchange, src/protocol.rs 126-137, 261-272, 497-507, 783-794. -/
def secure4 (our their : UInt32) (m : MixedKeyMaterial) : PState :=
  encrypted4 ⟨our, their, m.ratchet⟩ (SMP4.new m.us m.them m.ssid)

/-- `finish`, src/protocol.rs 140-142, 275-284, 511-524, 797-799, with the state replaced by the caller,
src/session.rs 936-937. -/
def finish (E : Env) (rnd : Rand) (now : Nat) : StM PState (Option EncodedMessageType)
  | plaintext => (.ok .none, plaintext)
  | finished => (.ok .none, plaintext)
  | encrypted3 s smp =>
    match Enc3.encrypt E IGNORE_UNREADABLE disconnectPlain s with
    | (.ok m, _) => (.ok (some (.data m)), plaintext)
    | (.err e, s) => (.err e, encrypted3 s smp)
    | (.panic, s) => (.panic, encrypted3 s smp)
  | encrypted4 s smp =>
    match Enc4.disconnect E rnd now s with
    | (.ok m, _) => (.ok (some (.data4 m)), plaintext)
    | (.err e, s) => (.err e, encrypted4 s smp)
    | (.panic, s) => (.panic, encrypted4 s smp)

/-- `expire`, src/protocol.rs 144-147, 286-289, 526-542, 801-803, with the state replaced by the caller,
src/session.rs 672-676; the version is that of the previous state. -/
def expire (E : Env) (timeout : Nat) (rnd : Rand) (now : Nat) : StM PState (Option EncodedMessageType)
  | encrypted4 s smp =>
    if Enc4.expired timeout now s then
      match Enc4.disconnect E rnd now s with
      | (.ok m, _) => (.ok (some (.data4 m)), finished)
      | (.err e, s) => (.err e, encrypted4 s smp)
      | (.panic, s) => (.panic, encrypted4 s smp)
    else (.ok .none, encrypted4 s smp)
  | s => (.ok .none, s)

/-- Apply a step of the SMP to the context of an OTRv3 session. -/
def onSmp (f : StM SMPContext α) (e : OTRError) : StM PState α
  | encrypted3 s smp => let (r, smp) := f smp; (r, encrypted3 s smp)
  | s => (.err e, s)

/-- Apply a step of the SMP to the context of an OTRv4 session. -/
def onSmp4 (f : StM SMP4Context α) (e : OTRError) : StM PState α
  | encrypted4 s smp => let (r, smp) := f smp; (r, encrypted4 s smp)
  | s => (.err e, s)

end PState

/-- The versions that have encrypted sessions, as used to choose between the two SMP modules. -/
def isSmpTlv : Version → TLV → Bool
  | .v3 => SMP.isSmpTlv
  | _ => SMP4.isSmpTlv

/-! ## Instances -/

/-- `Instance`, src/session.rs 630-640. -/
structure Instance where
  receiver : UInt32
  assembler : Assembler
  state : PState
  ake : AKEState
  dake : DAKEState
  deriving DecidableEq, Repr

/-- A value of the modelled code together with the messages injected so far. -/
structure World (σ : Type) where
  st : σ
  sent : List Bytes

/-- Calls on an instance. -/
abbrev InstM := StM (World Instance)

namespace Instance

/-- `Instance::new`, src/session.rs 648-664. -/
def new (receiver : UInt32) : Instance := ⟨receiver, .new, .plaintext, .none, .initial⟩

/-- `Instance::status`, src/session.rs 666-668. -/
def status (i : Instance) : Status := i.state.status

/-- Run a method of the protocol state. -/
def onState (f : StM PState α) : InstM α := fun w =>
  let (r, s) := f w.st.state
  (r, { w with st := { w.st with state := s } })

/-- Run a method of the AKE context. -/
def onAke (f : StM AKEState α) : InstM α := fun w =>
  let (r, s) := f w.st.ake
  (r, { w with st := { w.st with ake := s } })

/-- Run a method of the DAKE context. -/
def onDake (f : StM DAKEState α) : InstM α := fun w =>
  let (r, s) := f w.st.dake
  (r, { w with st := { w.st with dake := s } })

/-- `Host::inject`. -/
def emit (ms : List Bytes) : StM (World σ) Unit := fun w => (.ok (), { w with sent := w.sent ++ ms })

/-- `prepare_payloads`, src/session.rs 1012-1024; the same code is in `inject`, 1090-1101.  `rnd` are the
four bytes of the OTRv4 identifier. -/
def payloads (A : Account) (c : Call) (v : Version) (receiver : UInt32) (rnd : Rand) (content : Bytes) :
    Res (List Bytes) :=
  if content.length ≤ c.messageSize then .ok [content]
  else do
    let fs ← fragmentContent (rnd.bytes [] 4) c.messageSize v A.tag receiver content
    fs.mapM encodeFragment

/-- `inject`, src/session.rs 1082-1102. -/
def inject (A : Account) (c : Call) (rnd : Rand) (v : Version) (receiver : UInt32) (m : EncodedMessageType) :
    InstM Unit := do
  let own ← StM.gets fun w => w.st.receiver
  StM.lift (Res.assert (receiver != 0 && own == 0 || own == receiver))
  let content ← StM.lift (encodeMessage v A.tag own m)
  emit (← StM.lift (payloads A c v own rnd content))

/-- `expire`, src/session.rs 670-679. -/
def expire (E : Env) (A : Account) (c : Call) (rnd : Rand) (timeout : Nat) : InstM Unit := do
  let v ← StM.gets fun w => w.st.state.version
  match ← onState (PState.expire E timeout (rnd.sub 0) c.now) with
  | some m => inject A c (rnd.sub 1) v (← StM.gets fun w => w.st.receiver) m
  | .none => pure ()

/-- `initiate`, src/session.rs 681-689. -/
def initiate (E : Env) (A : Account) (c : Call) (v : Version) : InstM UserMessage := do
  let m ← match v with
    | .v3 => onAke (AKE.initiate E (c.rnd.sub 0))
    | .v4 => onDake (DAKE.initiate E (c.dake A) (c.rnd.sub 0))
    | _ => StM.lift .panic
  inject A c (c.rnd.sub 1) v (← StM.gets fun w => w.st.receiver) m
  return .none

/-- The plaintext of a message that carries one TLV and no text, src/session.rs 794-797, 889-892, 1045,
1075, with the assertion of `write_tlv`. -/
def tlvPlain (t : TLV) : Res Bytes := do
  Res.assert (tlvOk t)
  return wU8 0 ++ wTlv t

/-- Send one TLV in an encrypted message: `prepare` followed by `inject`, src/session.rs 792-799, 887-894,
1043-1047, 1071-1078. -/
def sendTlv (E : Env) (A : Account) (c : Call) (rnd : Rand) (receiver : UInt32) (t : TLV) : InstM Unit := do
  let plain ← StM.lift (tlvPlain t)
  let m ← onState (PState.prepare E IGNORE_UNREADABLE plain (rnd.sub 0) c.now)
  inject A c (rnd.sub 1) (← StM.gets fun w => w.st.state.version) receiver m

/-- Hand a TLV to the SMP context of the session, src/session.rs 782-791, 877-886. -/
def smpHandle (E : Env) (c : Call) (rnd : Rand) (v : Version) (t : TLV) : StM PState (Option TLV) :=
  match v with
  | .v3 => PState.onSmp (SMP.handle E c.smp t rnd) .protocolViolation
  | _ => PState.onSmp4 (SMP4.handle E c.smp t rnd) .protocolViolation

/-- The status of the SMP, src/session.rs 801, 896: `unwrap` panics if there is no context. -/
def smpStatus (v : Version) (s : PState) : Res SMPStatus :=
  match v, s with
  | .v3, .encrypted3 _ smp => .ok smp.status
  | .v4, .encrypted4 _ smp => .ok smp.status
  | _, _ => .panic

/-- A message with an SMP TLV, src/session.rs 768-807, 863-902. -/
def handleSmp (E : Env) (A : Account) (c : Call) (v : Version) (sender : UInt32) (tlvs : List TLV) :
    InstM UserMessage := do
  if 1 < (tlvs.filter (isSmpTlv v)).length then StM.lift (.err .protocolViolation)
  else
    match tlvs.find? (isSmpTlv v) with
    | .none => StM.lift .panic
    | some t => do
      match ← onState (smpHandle E c (c.rnd.sub 1) v t) with
      | some reply => sendTlv E A c (c.rnd.sub 2) sender reply
      | .none => pure ()
      let own ← StM.gets fun w => w.st.receiver
      match ← StM.query fun w => smpStatus v w.st.state with
      | .inProgress => return .none
      | .completed => return .smpSucceeded own
      | .aborted => return .smpFailed own
      | .initial => StM.lift .panic

/-- The text of the error message for unreadable messages, src/session.rs 815: `unreadable message`. -/
def UNREADABLE : Bytes :=
  [0x75, 0x6e, 0x72, 0x65, 0x61, 0x64, 0x61, 0x62, 0x6c, 0x65, 0x20, 0x6d, 0x65, 0x73, 0x73, 0x61, 0x67, 0x65]

/-- What happens after a data message was decrypted, src/session.rs 767-830, 862-926. -/
def handleDecrypted (E : Env) (A : Account) (c : Call) (v : Version) (sender : UInt32) (flags : UInt8)
    (r : Res PMessage) : InstM UserMessage := do
  let own ← StM.gets fun w => w.st.receiver
  match r with
  | .ok (.confidential content tlvs) =>
    if tlvs.any (isSmpTlv v) then handleSmp E A c v sender tlvs
    else return .confidential own content tlvs
  | .ok (.confidentialFinished content) => return .sessionFinished own content
  | .err (.unreadableMessage _) => do
    emit [← StM.lift (serialize (.error UNREADABLE))]
    if flags &&& IGNORE_UNREADABLE = IGNORE_UNREADABLE then return .none
    else StM.lift (.err (.unreadableMessage own))
  | .err e => StM.lift (.err e)
  | .panic => StM.lift .panic

/-- Run a method and pass on its result, also when it is an error: `let (message, transition) = ..`. -/
def attempt (f : StM σ α) : StM σ (Res α) := fun s =>
  let (r, s) := f s
  match r with
  | .panic => (.panic, s)
  | r => (.ok r, s)

/-- The reset of the assembler, src/session.rs 721-723. -/
def clearAssembler (v : Version) : InstM Unit :=
  if v = .v3 then do
    let a ← StM.query fun w => w.st.assembler.cleanup .v3
    StM.modify fun w => { w with st := { w.st with assembler := a } }
  else pure ()

/-- `self.state = self.state.secure(..)` with the material of an OTRv3 exchange, src/session.rs 743-744,
753-754. -/
def secure (E : Env) (A : Account) (c : Call) (sender : UInt32) (mat : AKEMaterial) : InstM Unit :=
  onState fun s => match s.secure3 E A.tag sender mat (c.rnd.sub 1) with
    | .ok s' => (.ok (), s')
    | .err e => (.err e, s)
    | .panic => (.panic, s)

/-- The body of `handle`, src/session.rs 724-930. -/
def process (E : Env) (A : Account) (c : Call) (m : EncodedMessage) : InstM UserMessage := do
  let own ← StM.gets fun w => w.st.receiver
  match m.version, m.message with
  | .v3, .dhCommit msg => do
    let r ← onAke (AKE.handleDhCommit E msg (c.rnd.sub 0))
    inject A c (c.rnd.sub 3) .v3 m.sender r
    return .none
  | .v3, .dhKey msg => do
    let r ← onAke (AKE.handleDhKey E c.keypair msg)
    inject A c (c.rnd.sub 3) .v3 m.sender r
    return .none
  | .v3, .revealSignature msg => do
    let (mat, r) ← onAke (AKE.handleRevealSignature E c.keypair msg)
    secure E A c m.sender mat
    inject A c (c.rnd.sub 3) .v3 m.sender r
    return .sessionStarted own
  | .v3, .signature msg => do
    let mat ← onAke (AKE.handleSignature E msg)
    secure E A c m.sender mat
    return .sessionStarted own
  | .v3, .data msg => do
    let r ← attempt (onState (PState.handle3 E msg (authenticatorData 3 m.sender m.receiver msg) (c.rnd.bytes [0] 192)))
    handleDecrypted E A c .v3 m.sender msg.flags r
  | .v4, .identity msg => do
    let r ← onDake (DAKE.handleIdentity E (c.dake A) msg (c.rnd.sub 0))
    inject A c (c.rnd.sub 3) .v4 m.sender r
    return .none
  | .v4, .authR msg => do
    let (mat, r) ← onDake (DAKE.handleAuthR E (c.dake A) msg (c.rnd.sub 0) c.now)
    inject A c (c.rnd.sub 3) .v4 m.sender r
    onState fun _ => (.ok (), PState.secure4 A.tag own mat)
    return .sessionStarted own
  | .v4, .authI msg => do
    let mat ← onDake (DAKE.handleAuthI E (c.dake A) msg c.now)
    onState fun _ => (.ok (), PState.secure4 A.tag own mat)
    return .sessionStarted own
  | .v4, .data4 msg => do
    StM.lift (msg.validate E)
    let r ← attempt (onState (PState.handle4 E msg (authenticatorData4 4 m.sender m.receiver msg) c.now))
    handleDecrypted E A c .v4 m.sender msg.flags r
  | _, .unencoded _ => StM.lift .panic
  | _, _ => StM.lift (.err .protocolViolation)

/-- `handle`, src/session.rs 715-931. -/
def handle (E : Env) (A : Account) (c : Call) (m : EncodedMessage) : InstM UserMessage := do
  clearAssembler m.version
  process E A c m

/-- `reset`, src/session.rs 933-946. -/
def reset (E : Env) (A : Account) (c : Call) : InstM UserMessage := do
  let previous ← StM.gets fun w => w.st.status
  let v ← StM.gets fun w => w.st.state.version
  let own ← StM.gets fun w => w.st.receiver
  let abortmsg ← onState (PState.finish E (c.rnd.sub 0) c.now)
  let now ← StM.gets fun w => w.st.status
  if previous = now then
    StM.lift (Res.assert abortmsg.isNone)
    return .none
  else
    match abortmsg with
    | some m => inject A c (c.rnd.sub 1) v own m
    | .none => pure ()
    return .reset own

end Instance

/-- `select_version`, src/session.rs 1114-1122. -/
def selectVersion (p : Policy) (vs : List Version) : Option Version :=
  if Version.v4 ∈ vs ∧ p.has ALLOW_V4 then some .v4
  else if Version.v3 ∈ vs ∧ p.has ALLOW_V3 then some .v3
  else .none

/-- `filter_versions`, src/session.rs 1125-1133. -/
def filterVersions (p : Policy) (vs : List Version) : List Version :=
  if Version.v4 ∈ vs ∧ p.has ALLOW_V4 then [.v4]
  else if Version.v3 ∈ vs ∧ p.has ALLOW_V3 then [.v3]
  else []

/-- `SUPPORTED_VERSIONS`, src/lib.rs 157. -/
def SUPPORTED_VERSIONS : List Version := [.v3, .v4]

namespace Instance

/-- `send`, src/session.rs 948-1010: the payloads, and whether a whitespace tag was sent before or is now.
`prepare` never gives a key exchange message, for which the code has arms too (975-999). -/
def send (E : Env) (A : Account) (c : Call) (tagged : Bool) (plaintext : Bytes) : InstM (List Bytes × Bool) := do
  match ← onState (PState.prepare E 0 (dropByValue plaintext 0) (c.rnd.sub 0) c.now) with
  | .unencoded msg => do
    StM.lift (Res.assert ((← StM.gets fun w => w.st.status) == .plaintext))
    let versions := filterVersions A.policy SUPPORTED_VERSIONS
    if A.policy.has SEND_WHITESPACE_TAG ∧ tagged = false ∧ versions ≠ [] then
      return ([← StM.lift (serialize (.tagged versions msg))], true)
    else return ([← StM.lift (serialize (.plaintext msg))], tagged)
  | m => do
    let v ← StM.gets fun w => w.st.state.version
    let own ← StM.gets fun w => w.st.receiver
    let content ← StM.lift (encodeMessage v A.tag own m)
    return (← StM.lift (payloads A c v own (c.rnd.sub 1) content), tagged)

/-- `start_smp`, src/session.rs 1026-1049. -/
def startSmp (E : Env) (A : Account) (c : Call) (secret question : Bytes) : InstM Unit := do
  let v ← StM.gets fun w => w.st.state.version
  let tlv ← match v with
    | .v3 => onState (PState.onSmp (SMP.start E c.smp secret question (c.rnd.sub 0)) .incorrectState)
    | .v4 => onState (PState.onSmp4 (SMP4.start E secret question (c.rnd.sub 0)) .incorrectState)
    | _ => StM.lift (.err .incorrectState)
  sendTlv E A c (c.rnd.sub 1) (← StM.gets fun w => w.st.receiver) tlv

/-- `abort_smp`, src/session.rs 1061-1080.  The `unwrap` in 1077 cannot fail: in an encrypted session `prepare`
gives no error. -/
def abortSmp (E : Env) (A : Account) (c : Call) : InstM Unit := do
  let v ← StM.gets fun w => w.st.state.version
  let tlv ← match v with
    | .v3 => onState (PState.onSmp SMP.abort .incorrectState)
    | .v4 => onState (PState.onSmp4 SMP4.abort .incorrectState)
    | _ => StM.lift (.err .incorrectState)
  sendTlv E A c (c.rnd.sub 1) (← StM.gets fun w => w.st.receiver) tlv

/-- `ssid`, src/session.rs 1051-1059. -/
def ssid (i : Instance) : Res Bytes :=
  match i.state with
  | .encrypted3 _ smp => .ok smp.ssid
  | .encrypted4 _ smp => .ok smp.ssid
  | _ => .err .incorrectState

end Instance

/-! ## Sessions -/

/-- `Session`, src/session.rs 131-147 (without host, account details and address). -/
structure Session where
  instances : List (UInt32 × Instance)
  tagged : Bool
  deriving DecidableEq, Repr

/-- Calls on a session. -/
abbrev SessM := StM (World Session)

namespace Session
open Instance (emit)

/-- `Session::new`, src/session.rs 151-169. -/
def new : Session := ⟨[(INSTANCE_ZERO, .new INSTANCE_ZERO)], false⟩

/-- `instances`, src/session.rs 176-185. -/
def tags (s : Session) : List UInt32 := (s.instances.map (·.1)).filter (· ≠ INSTANCE_ZERO)

/-- `status`, src/session.rs 200-202. -/
def status (s : Session) (k : UInt32) : Option Status := (lookup s.instances k).map Instance.status

/-- Call a method of the instance in the map, made by `or_insert_with` if needed, src/session.rs 243-250,
349-356, 385-392, 408-418, 523-533. -/
def entry (k : UInt32) (f : InstM α) : SessM α := fun w =>
  let i := (lookup w.st.instances k).getD (.new k)
  let (r, v) := f ⟨i, w.sent⟩
  (r, ⟨{ w.st with instances := insertKey w.st.instances k v.st }, v.sent⟩)

/-- Call a method of an instance that must exist: `get_mut(..).ok_or(UnknownInstance)?`, src/session.rs
488-491, 550-554. -/
def existing (k : UInt32) (f : InstM α) : SessM α := fun w =>
  match lookup w.st.instances k with
  | .none => (.err (.unknownInstance k), w)
  | some _ => entry k f w

/-- `has_sessions`, src/session.rs 557-566. -/
def hasSessionsIn : List (UInt32 × Instance) → Res Bool
  | [] => .ok false
  | (k, i) :: r => do
    Res.assert (k == i.receiver)
    Res.assert (k != INSTANCE_ZERO || i.status == .plaintext)
    if i.status = .encrypted ∨ i.status = .finished then .ok true else hasSessionsIn r

/-- `query`, src/session.rs 589-599. -/
def query (A : Account) : SessM Unit := do
  let vs := filterVersions A.policy SUPPORTED_VERSIONS
  if vs = [] then StM.lift (.err .userError)
  else emit [← StM.lift (serialize (.query vs))]

/-- `initiate`, src/session.rs 518-534. -/
def initiate (E : Env) (A : Account) (c : Call) (v : Version) (receiver : UInt32) : SessM UserMessage :=
  entry receiver (Instance.initiate E A c v)

/-- `verify_encoded_message_header`, src/session.rs 423-456. -/
def verifyHeader (A : Account) (m : EncodedMessage) : Res Unit := do
  match m.version with
  | .none => .err .protocolViolation
  | .unsupported v => .err (.unsupportedVersion v)
  | _ => .ok ()
  let _ ← (verifyTag m.sender).mapErr .protocolViolation
  Res.guard (m.sender != INSTANCE_ZERO) .protocolViolation
  let _ ← (verifyTag m.receiver).mapErr .protocolViolation
  let first := match m.message with
    | .dhCommit _ => true
    | .identity _ => true
    | _ => false
  Res.guard (m.receiver != 0 || first) .protocolViolation
  Res.guard (!(decide (m.receiver > INSTANCE_ZERO) && m.receiver != A.tag)) .messageForOtherInstance

/-- Is the version of the message allowed?  src/session.rs 338, 374, 403-407. -/
def allowed (A : Account) : Version → Bool
  | .v3 => A.policy.has ALLOW_V3
  | .v4 => A.policy.has ALLOW_V4
  | _ => true

/-- The context waiting for an answer that instance 0 hands over, src/session.rs 344-348 and 357-359,
380-384 and 394-396: `expect` panics if there is no instance 0, and the methods assert the tags. -/
def handOver (m : EncodedMessage) : StM (World Session) (Option AKEState × Option DAKEState) := StM.query fun w =>
  let zero : Res Instance := match lookup w.st.instances INSTANCE_ZERO with
    | some i => if i.receiver = INSTANCE_ZERO then .ok i else .panic
    | .none => .panic
  match m.version, m.message with
  | .v3, .dhKey _ => do
    let i ← zero
    match AKE.transfer i.ake with
    | .ok s => .ok (some s, .none)
    | _ => .ok (.none, .none)
  | .v4, .authR _ => do
    let i ← zero
    match DAKE.transfer i.dake with
    | .ok s => .ok (.none, some s)
    | _ => .ok (.none, .none)
  | _, _ => .ok (.none, .none)

/-- `adopt_ake_context`, `adopt_dake_context`, src/session.rs 696-700, 707-711. -/
def adopt (h : Option AKEState × Option DAKEState) : InstM Unit := do
  match h with
  | (.none, .none) => pure ()
  | (a, d) => do
    StM.lift (Res.assert ((← StM.gets fun w => w.st.receiver) != 0))
    StM.modify fun w => { w with st := { w.st with ake := a.getD w.st.ake, dake := d.getD w.st.dake } }

/-- The three arms for encoded messages whose sender is not 0, src/session.rs 322-419. -/
def receiveEncoded (E : Env) (A : Account) (c : Call) (m : EncodedMessage) : SessM UserMessage := do
  StM.lift (verifyHeader A m)
  if !allowed A m.version then return .none
  else
    let h ← handOver m
    entry m.sender (do adopt h; Instance.handle E A c m)

/-- Report a text that was not encrypted, src/session.rs 286-290, 299-303. -/
def reportPlain (A : Account) (content : Bytes) : SessM UserMessage := do
  if (← StM.query fun w => hasSessionsIn w.st.instances) || A.policy.has REQUIRE_ENCRYPTION then
    return .warningUnencrypted content
  else return .plaintext content

/-- Answer an offer of versions, src/session.rs 295-297, 308-310. -/
def answerOffer (E : Env) (A : Account) (c : Call) (vs : List Version) : SessM Unit :=
  match selectVersion A.policy vs with
  | some v => do let _ ← initiate E A c v INSTANCE_ZERO
  | .none => pure ()

/-- `receive` for a text that is not a fragment, src/session.rs 276-420. -/
def receiveWhole (E : Env) (A : Account) (c : Call) (payload : Bytes) : SessM UserMessage := do
  match ← StM.lift (parse E payload) with
  | .error error => do
    if A.policy.has ERROR_START_AKE then query A
    return .error error
  | .plaintext content => reportPlain A content
  | .tagged vs content => do
    if A.policy.has WHITESPACE_START_AKE then answerOffer E A c vs
    reportPlain A content
  | .query vs => do
    answerOffer E A c vs
    return .none
  | .encoded m => if m.sender = 0 then return .none else receiveEncoded E A c m

/-- `instance.assembler.assemble(&fragment)`, src/session.rs 251. -/
def assemble (f : Fragment) : InstM AsmRes := fun w =>
  let (r, a) := w.st.assembler.assemble f
  (.ok r, { w with st := { w.st with assembler := a } })

/-- The branch of `receive` for fragments, src/session.rs 230-274.  The recursive call gets a text that is
not a fragment under the same policy. -/
def receiveFragment (E : Env) (A : Account) (c : Call) (payload : Bytes) : SessM UserMessage := do
  match ← StM.lift (parseFragment E.nd payload) with
  | .none => return .none
  | some f => do
    StM.lift (Res.guard (verifyFragment f) .protocolViolation)
    StM.lift (Res.guard (f.receiver == INSTANCE_ZERO || f.receiver == A.tag) .messageForOtherInstance)
    match ← entry f.sender (assemble f) with
    | .ok content =>
      if matchFragment content then StM.lift (.err .protocolViolation) else receiveWhole E A c content
    | .err .invalidData => StM.lift (.err .protocolViolation)
    | .err _ => return .none
    | .panic => StM.lift .panic

/-- Is OTR switched off?  src/session.rs 224-225, 482-483. -/
def disabled (A : Account) : Bool := !A.policy.has ALLOW_V3 && !A.policy.has ALLOW_V4

/-- `receive`, src/session.rs 222-421. -/
def receive (E : Env) (A : Account) (c : Call) (payload : Bytes) : SessM UserMessage :=
  if disabled A then pure (.plaintext payload)
  else if matchFragment payload then receiveFragment E A c payload
  else receiveWhole E A c payload

/-- `send` on an instance, src/session.rs 510, with the shared flag. -/
def sendOn (E : Env) (A : Account) (c : Call) (k : UInt32) (content : Bytes) : SessM (List Bytes) := do
  let t ← StM.gets fun w => w.st.tagged
  let (out, t) ← existing k (Instance.send E A c t content)
  StM.modify fun w => { w with st := { w.st with tagged := t } }
  return out

/-- `send`, src/session.rs 477-511. -/
def send (E : Env) (A : Account) (c : Call) (k : UInt32) (content : Bytes) : SessM (List Bytes) :=
  if disabled A then pure [content]
  else do
    match ← StM.gets fun w => w.st.status k with
    | .none => StM.lift (.err (.unknownInstance k))
    | some st =>
      if A.policy.has REQUIRE_ENCRYPTION ∧ st = .plaintext then do
        query A
        StM.lift (.err .policyRestriction)
      else sendOn E A c k content

/-- `end`, src/session.rs 579-581. -/
def close (E : Env) (A : Account) (c : Call) (k : UInt32) : SessM UserMessage := existing k (Instance.reset E A c)

/-- `start_smp`, src/session.rs 609-616. -/
def startSmp (E : Env) (A : Account) (c : Call) (k : UInt32) (secret question : Bytes) : SessM Unit :=
  existing k (Instance.startSmp E A c secret question)

/-- `abort_smp`, src/session.rs 624-626. -/
def abortSmp (E : Env) (A : Account) (c : Call) (k : UInt32) : SessM Unit := existing k (Instance.abortSmp E A c)

/-- `ssid`, src/session.rs 543-548. -/
def ssid (s : Session) (k : UInt32) : Res Bytes :=
  match lookup s.instances k with
  | .none => .err (.unknownInstance k)
  | some i => i.ssid

/-- The loop of `expire`, src/session.rs 193-195. -/
def expireAll (E : Env) (A : Account) (c : Call) (timeout : Nat) : Nat → List UInt32 → SessM Unit
  | _, [] => pure ()
  | n, k :: ks => do
    existing k (Instance.expire E A c (c.rnd.sub n) timeout)
    expireAll E A c timeout (n + 1) ks

/-- `expire`, src/session.rs 191-196. -/
def expire (E : Env) (A : Account) (c : Call) (timeout : Nat) : SessM Unit := do
  let ks ← StM.gets fun w => w.st.instances.map (·.1)
  expireAll E A c timeout 0 ks

end Session

end Otrr
