import Verif.Spec.Session
/-!
# Specification vocabulary for data messages in sessions
-/

namespace Otrr.Spec
open Otrr

/-- The state of the session with an instance; an instance that is not known has none. -/
def stateOf (s : Session) (k : UInt32) : PState :=
  match lookup s.instances k with
  | some i => i.state
  | .none => .plaintext

/-- The flags of a data message. -/
def dataFlags : EncodedMessageType → UInt8
  | .data d => d.flags
  | .data4 d => d.flags
  | _ => 0

/-- A client whose session is in state `s` cannot read the data message `m`: it has no encrypted session of that version, or
the keys of the session do not authenticate the message.  (An OTRv4 message must carry a valid key; others are refused.) -/
def Unreadable (E : Env) (c : Call) (m : EncodedMessage) (s : PState) : Prop :=
  (∃ d, m.version = .v3 ∧ m.message = .data d ∧ ∀ x smp, s = .encrypted3 x smp → ∃ t,
    (Enc3.handle E d (authenticatorData 3 m.sender m.receiver d) (c.rnd.bytes [0] 192) x).1 = .err (.unreadableMessage t)) ∨
  (∃ d, m.version = .v4 ∧ m.message = .data4 d ∧ d.validate E = .ok () ∧ ∀ x smp, s = .encrypted4 x smp → ∃ t,
    (Enc4.handle E d (authenticatorData4 4 m.sender m.receiver d) c.now x).1 = .err (.unreadableMessage t))

/-- The text `?OTR Error:unreadable message`. -/
def unreadableText : Bytes :=
  [0x3f, 0x4f, 0x54, 0x52, 0x20, 0x45, 0x72, 0x72, 0x6f, 0x72, 0x3a, 0x75, 0x6e, 0x72, 0x65, 0x61, 0x64, 0x61, 0x62, 0x6c, 0x65,
    0x20, 0x6d, 0x65, 0x73, 0x73, 0x61, 0x67, 0x65]

/-- The types of TLV of the SMP: 2 to 6 (messages 1 to 4, and abort), and in OTRv3 also 7 (message 1 with a question). -/
def SmpType (v : Version) (t : TLV) : Prop := t.typ ∈ [2, 3, 4, 5, 6] ∨ v = .v3 ∧ t.typ = 7

/-- A client whose session is in state `s` authenticates the data message `m` and decrypts it to `msg`; the state becomes `s'`. -/
def DecryptsTo (E : Env) (c : Call) (m : EncodedMessage) (s : PState) (msg : PMessage) (s' : PState) : Prop :=
  (∃ x smp d x' last, s = .encrypted3 x smp ∧ m.version = .v3 ∧ m.message = .data d ∧
    Enc3.handle E d (authenticatorData 3 m.sender m.receiver d) (c.rnd.bytes [0] 192) x = (.ok (msg, last), x') ∧
    s' = if last then .finished else .encrypted3 x' smp) ∨
  (∃ x smp d x' last, s = .encrypted4 x smp ∧ m.version = .v4 ∧ m.message = .data4 d ∧ d.validate E = .ok () ∧
    Enc4.handle E d (authenticatorData4 4 m.sender m.receiver d) c.now x = (.ok (msg, last), x') ∧
    s' = if last then .finished else .encrypted4 x' smp)

/-- The SMP of the session in state `s`, given the TLV `t` and random numbers of the call, answers with a reply, or none; the state
becomes `s'`. -/
def SmpAnswers (E : Env) (c : Call) (s : PState) (t : TLV) (reply : Option TLV) (s' : PState) : Prop :=
  (∃ x smp smp', s = .encrypted3 x smp ∧ s' = .encrypted3 x smp' ∧ SMP.handle E c.smp t (c.rnd.sub 1) smp = (.ok reply, smp')) ∨
  (∃ x smp smp', s = .encrypted4 x smp ∧ s' = .encrypted4 x smp' ∧ SMP4.handle E c.smp t (c.rnd.sub 1) smp = (.ok reply, smp'))

/-- The SMP of the session in state `s` is started with this secret and question and gives the TLV `t`; the state becomes `s'`. -/
def SmpStarts (E : Env) (c : Call) (secret question : Bytes) (s : PState) (t : TLV) (s' : PState) : Prop :=
  (∃ x smp smp', s = .encrypted3 x smp ∧ s' = .encrypted3 x smp' ∧
    SMP.start E c.smp secret question (c.rnd.sub 0) smp = (.ok t, smp')) ∨
  (∃ x smp smp', s = .encrypted4 x smp ∧ s' = .encrypted4 x smp' ∧ SMP4.start E secret question (c.rnd.sub 0) smp = (.ok t, smp'))

/-- The SMP of the session is in progress: it waits for an answer. -/
def SmpBusy : PState → Prop
  | .encrypted3 _ smp => smp.state ≠ .expect1
  | .encrypted4 _ smp => smp.status = .inProgress
  | _ => False

/-- The SMP of the session in state `s` is aborted; the state becomes `s'`. -/
def SmpAborts (s s' : PState) : Prop :=
  (∃ x smp, s = .encrypted3 x smp ∧ s' = .encrypted3 x { smp with status := .aborted, state := .expect1 }) ∨
  (∃ x smp, s = .encrypted4 x smp ∧ s' = .encrypted4 x { smp with status := .aborted, state := .expect1 })

/-- The status of the SMP of a session. -/
def smpStatusOf : PState → Option SMPStatus
  | .encrypted3 _ smp => some smp.status
  | .encrypted4 _ smp => some smp.status
  | _ => .none

/-- How the progress of the SMP with the instance `k` is reported. -/
inductive SmpReported (k : UInt32) : SMPStatus → UserMessage → Prop
  | running : SmpReported k .inProgress .none
  | success : SmpReported k .completed (.smpSucceeded k)
  | failure : SmpReported k .aborted (.smpFailed k)

/-- The plaintext that carries one TLV and no text: NUL, type, length, value. -/
def onlyTlv (t : TLV) : Bytes := 0 :: (wU16 t.typ ++ wU16 (UInt16.ofNat t.value.length) ++ t.value)

/-- `sent` is one data message from this client to the instance `k`, whole or in fragments, flagged "ignore unreadable", that
carries the TLV `t` and no text, encrypted with the keys of the session in state `s`, whose state becomes `s'`. -/
def SendsTlv (E : Env) (A : Account) (c : Call) (k : UInt32) (t : TLV) (s s' : PState) (sent : List Bytes) : Prop :=
  t.value.length < 2 ^ 16 ∧ ∃ m, Encrypts E c 1 (onlyTlv t) s s' m ∧ InTransit A c ⟨s.version, A.tag, k, m⟩ sent

end Otrr.Spec
