import Verif.Model.Session
import Verif.Spec.Ake
import Verif.Spec.Dake
/-!
# Specification vocabulary for sessions
-/

namespace Otrr.Spec
open Otrr

/-- The calls of the API of a session that may change it. -/
inductive Op
  | receive (payload : Bytes)
  | send (k : UInt32) (content : Bytes)
  | initiate (v : Version) (k : UInt32)
  | close (k : UInt32)
  | query
  | startSmp (k : UInt32) (secret question : Bytes)
  | abortSmp (k : UInt32)
  | expire (timeout : Nat)

/-- What these calls return. -/
inductive Answer
  | user (m : UserMessage)
  | texts (out : List Bytes)
  | done
  deriving DecidableEq

/-- What a call does: its result, the session after it, and the messages it injects. -/
structure Effect where
  result : Res Answer
  after : Session
  sent : List Bytes

/-- The effect of a computation of the model. -/
def perform (f : SessM α) (g : α → Answer) (s : Session) : Effect :=
  match f ⟨s, []⟩ with
  | (.ok a, w) => ⟨.ok (g a), w.st, w.sent⟩
  | (.err e, w) => ⟨.err e, w.st, w.sent⟩
  | (.panic, w) => ⟨.panic, w.st, w.sent⟩

/-- The effect of a call of the API. -/
def Op.run (E : Env) (A : Account) (c : Call) (s : Session) : Op → Effect
  | receive payload => perform (Session.receive E A c payload) .user s
  | send k content => perform (Session.send E A c k content) .texts s
  | initiate v k => perform (Session.initiate E A c v k) .user s
  | close k => perform (Session.close E A c k) .user s
  | query => perform (Session.query A) (fun _ => .done) s
  | startSmp k secret question => perform (Session.startSmp E A c k secret question) (fun _ => .done) s
  | abortSmp k => perform (Session.abortSmp E A c k) (fun _ => .done) s
  | expire timeout => perform (Session.expire E A c timeout) (fun _ => .done) s

/-- A call in the history of a session, with what it returned and injected. -/
structure Ev where
  op : Op
  call : Call
  result : Res Answer
  sent : List Bytes

/-- `Hist E A h s`: a new session went through the calls `h`, in this order, and is `s` now.  Any calls may be
made, the network may deliver anything, and the host may answer differently each time.  No call panicked. -/
inductive Hist (E : Env) (A : Account) : List Ev → Session → Prop
  | new : Hist E A [] .new
  | step {h s op c e} : Hist E A h s → op.run E A c s = e → e.result ≠ .panic →
      Hist E A (h ++ [⟨op, c, e.result, e.sent⟩]) e.after

/-- The policy bits of the API. -/
def PolicyBit (A : Account) (n : Nat) : Prop := A.policy.toNat.testBit n = true

def AllowsV3 (A : Account) : Prop := PolicyBit A 2
def RequiresEncryption (A : Account) : Prop := PolicyBit A 3
def SendsTags (A : Account) : Prop := PolicyBit A 4
def AnswersTags (A : Account) : Prop := PolicyBit A 5
def AnswersErrors (A : Account) : Prop := PolicyBit A 6
def AllowsV4 (A : Account) : Prop := PolicyBit A 8

/-- The policy allows at least one version of the protocol. -/
def SomeVersion (A : Account) : Prop := AllowsV3 A ∨ AllowsV4 A

/-- The content without NUL bytes. -/
def noNul (content : Bytes) : Bytes := content.filter (· ≠ 0)

/-- `out` is the message in transit: the whole text, or the fragments of the text when it is larger than the
host's maximum size. -/
def InTransit (A : Account) (c : Call) (m : EncodedMessage) (out : List Bytes) : Prop :=
  ∃ text, serialize (.encoded m) = .ok text ∧
    (text.length ≤ c.messageSize ∧ out = [text] ∨
      c.messageSize < text.length ∧ ∃ ident fs, ident.length = 4 ∧
        fragmentContent ident c.messageSize m.version A.tag m.receiver text = .ok fs ∧ fs.mapM encodeFragment = .ok out)

/-- `m` is a data message that carries `content` encrypted with the keys of the session in state `s`, whose state
becomes `s'`. -/
def Encrypts (E : Env) (c : Call) (flags : UInt8) (content : Bytes) (s s' : PState) (m : EncodedMessageType) : Prop :=
  (∃ x x' smp d, s = .encrypted3 x smp ∧ s' = .encrypted3 x' smp ∧ m = .data d ∧
    Enc3.encrypt E flags content x = (.ok d, x')) ∨
  (∃ x x' smp d rnd, s = .encrypted4 x smp ∧ s' = .encrypted4 x' smp ∧ m = .data4 d ∧
    Enc4.encrypt E flags content rnd c.now x = (.ok d, x'))

/-- `m` is a data message of the session in state `s`, flagged "ignore unreadable", that carries no text and the one
empty TLV "disconnected" (type 1). -/
def Disconnects (E : Env) (c : Call) (s : PState) (m : EncodedMessageType) : Prop :=
  (∃ x x' smp d, s = .encrypted3 x smp ∧ m = .data d ∧ Enc3.encrypt E 1 [0, 0, 1, 0, 0] x = (.ok d, x')) ∨
  (∃ x smp d d' rnd, s = .encrypted4 x smp ∧ m = .data4 d ∧
    encrypt4 E x.our x.their 1 [0, 0, 1, 0, 0] x.ratchet.reveals rnd c.now { x.ratchet with reveals := [] } = .ok (d, d'))

/-- The instance has an OTRv4 session that did not advance for `timeout` seconds (times are in nanoseconds). -/
def Old (timeout now : Nat) (i : Instance) : Prop :=
  ∃ x smp, i.state = .encrypted4 x smp ∧ timeout * 1000000000 ≤ now - x.ratchet.created

/-- What is sent for the instances that expire, in order: one disconnect message, whole or in fragments, for each
instance with an old session. -/
inductive Farewells (E : Env) (A : Account) (c : Call) (timeout : Nat) : List (UInt32 × Instance) → List Bytes → Prop
  | nil : Farewells E A c timeout [] []
  | young {k i l out} : ¬ Old timeout c.now i → Farewells E A c timeout l out → Farewells E A c timeout ((k, i) :: l) out
  | old {k i l m o out} : Old timeout c.now i → Disconnects E c i.state m → InTransit A c ⟨.v4, A.tag, k, m⟩ o →
      Farewells E A c timeout l out → Farewells E A c timeout ((k, i) :: l) (o ++ out)

/-- `text` is a query message. -/
def IsQuery (text : Bytes) : Prop := ∃ vs, serialize (.query vs) = .ok text

/-- Some instance has an encrypted session, or one that the peer finished. -/
def HasSessions (s : Session) : Prop := ∃ k, s.status k = some .encrypted ∨ s.status k = some .finished

/-- Receiving `payload` amounts to receiving the encoded message `m`: either it is one, or it is a sound fragment for
this client that completes one. -/
def Delivers (E : Env) (A : Account) (s : Session) (payload : Bytes) (m : EncodedMessage) : Prop :=
  matchFragment payload = false ∧ parse E payload = .ok (.encoded m) ∨
  matchFragment payload = true ∧ ∃ f i content a, parseFragment E.nd payload = .ok (some f) ∧
    verifyFragment f = true ∧ (f.receiver = 0 ∨ f.receiver = A.tag) ∧
    (lookup s.instances f.sender = some i ∨ lookup s.instances f.sender = .none ∧ i = .new f.sender) ∧
    i.assembler.assemble f = (.ok content, a) ∧ matchFragment content = false ∧
    parse E content = .ok (.encoded m)

/-- A client whose session is in state `s` authenticates the data message `m` and decrypts it to `msg`. -/
def Decrypts (E : Env) (c : Call) (m : EncodedMessage) (s : PState) (msg : PMessage) : Prop :=
  (∃ x smp d x' last, s = .encrypted3 x smp ∧ m.version = .v3 ∧ m.message = .data d ∧
    Enc3.handle E d (authenticatorData 3 m.sender m.receiver d) (c.rnd.bytes [0] 192) x = (.ok (msg, last), x')) ∨
  (∃ x smp d x' last, s = .encrypted4 x smp ∧ m.version = .v4 ∧ m.message = .data4 d ∧ d.validate E = .ok () ∧
    Enc4.handle E d (authenticatorData4 4 m.sender m.receiver d) c.now x = (.ok (msg, last), x'))

/-- The last message of a key exchange for this client, with everything in it verified, leading to a session
with this SSID. -/
def Completes (E : Env) (A : Account) (m : EncodedMessage) (ssid : Bytes) : Prop :=
  match m.version, m.message with
  | .v3, .revealSignature r => ∃ x theirDh theirDsa, InRange E.dh theirDh ∧
      (let sec := theirDh ^ x % E.dh.p
      ssid = (akeKey E 0 sec).take 8 ∧
      Authenticated E ((akeKey E 1 sec).take 16) 2 3 sec theirDh (E.dh.g ^ x % E.dh.p) theirDsa r.sigEncrypted r.sigMac)
  | .v3, .signature r => ∃ x theirDh theirDsa, InRange E.dh theirDh ∧
      (let sec := theirDh ^ x % E.dh.p
      ssid = (akeKey E 0 sec).take 8 ∧
      Authenticated E ((akeKey E 1 sec).drop 16) 4 5 sec theirDh (E.dh.g ^ x % E.dh.p) theirDsa r.sigEncrypted r.sigMac)
  | .v4, .authR r => ∃ i bob alice, i.profile.validate E = .ok bob ∧ r.profile.validate E = .ok alice ∧
      RingVerifies E r.sigma bob.forgingKey alice.identityKey i.y
        ((exchangeOf i r bob alice A.name A.address).transcriptR E)
  | .v4, .authI r => ∃ i mr bob alice, i.profile.validate E = .ok bob ∧ mr.profile.validate E = .ok alice ∧
      RingVerifies E r.sigma bob.identityKey alice.forgingKey mr.x
        ((exchangeOf i mr bob alice A.address A.name).transcriptI E)
  | _, _ => False

end Otrr.Spec
