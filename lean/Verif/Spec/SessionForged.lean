import Verif.Spec.SessionIsolation
import Verif.Spec.SessionData
import Verif.Spec.Data3
import Verif.Spec.Data4
/-!
# Specification vocabulary for forged messages
-/

namespace Otrr.Spec
open Otrr

/-- The data message has the authenticator that the keys of the encrypted session in this state give it. -/
inductive Genuine (E : Env) (c : Call) (m : EncodedMessage) : PState → Prop
  /-- OTRv3: it names a key of the peer and an own key that are known, and was authenticated with the secret that these share. -/
  | otr3 {x smp d sec} : m.version = .v3 → m.message = .data d →
      x.keys.theirs.id = d.senderKeyid ∨ x.keys.theirs.id.toNat = d.senderKeyid.toNat + 1 →
      x.keys.ours.acknowledged = d.receiverKeyid ∨ d.receiverKeyid.toNat = x.keys.ours.acknowledged.toNat + 1 →
      dataSecrets E (x.keys.ours.keys.get d.receiverKeyid) (x.keys.theirs.keys.get d.senderKeyid) = .ok sec →
      d.authenticator = E.hmacSha1 (sec.receiverMac E) (authenticatorData 3 m.sender m.receiver d) → Genuine E c m (.encrypted3 x smp)
  /-- OTRv4: it belongs to the ratchet with which the client reads, or to the next one, and was authenticated with the key for its
  message id. -/
  | otr4 {x smp d d1} : m.version = .v4 → m.message = .data4 d → Valid4 E d → TriesWith E d c.now x.ratchet d1 →
      d.authenticator = kdf2 E 64 0x18
        (kdf E 64 0x16 (kdf E 64 0x15 (chainFwd E (d.j.toNat - d1.receiver.id.toNat) d1.receiver.chain)))
        (authenticatorData4 4 m.sender m.receiver d) → Genuine E c m (.encrypted4 x smp)

/-- The text brings a message of client `k` with an authenticator of the session with that client. -/
def BringsGenuine (E : Env) (A : Account) (c : Call) (s : Session) (payload : Bytes) (k : UInt32) : Prop :=
  ∃ m, Delivers E A s payload m ∧ m.sender = k ∧ m.receiver = A.tag ∧ Genuine E c m (stateOf s k)

/-- Texts are received, one by one: any texts, but none that brings a genuine message of client `k`, that completes a key exchange
with `k`, or that makes the client crash. -/
inductive Noise (E : Env) (A : Account) (k : UInt32) : Session → List (Call × Bytes) → Session → Prop
  | none {s} : Noise E A k s [] s
  | next {s c payload l s' e} : (Op.receive payload).run E A c s = e → ¬ BringsGenuine E A c s payload k →
      e.result ≠ .panic → e.result ≠ .ok (.user (.sessionStarted k)) → Noise E A k e.after l s' →
      Noise E A k s ((c, payload) :: l) s'

/-- The call is about the session with client `k`: it sends, ends the session, starts or aborts the SMP, or receives a text that is a
data message of `k`, not in fragments. -/
inductive About (E : Env) (k : UInt32) : Op → Prop
  | send {content} : About E k (.send k content)
  | close : About E k (.close k)
  | startSmp {secret question} : About E k (.startSmp k secret question)
  | abortSmp : About E k (.abortSmp k)
  | receive {payload m} : matchFragment payload = false → parse E payload = .ok (.encoded m) → m.sender = k →
      (∃ d, m.message = .data d) ∨ (∃ d, m.message = .data4 d) → About E k (.receive payload)

/-- Calls about the encrypted session with client `k` are made, of which the list tells the results and what was sent, and between
them noise is received. -/
inductive AmidNoise (E : Env) (A : Account) (k : UInt32) : Session → List Ev → Session → Prop
  | done {s} : AmidNoise E A k s [] s
  | noise {s l s1 l' s'} : Noise E A k s l s1 → AmidNoise E A k s1 l' s' → AmidNoise E A k s l' s'
  | call {s op c e l s'} : s.status k = some .encrypted → About E k op → op.run E A c s = e → e.result ≠ .panic →
      AmidNoise E A k e.after l s' → AmidNoise E A k s (⟨op, c, e.result, e.sent⟩ :: l) s'

end Otrr.Spec
