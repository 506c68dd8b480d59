import Verif.Spec.SessionIsolation
import Verif.Spec.SessionData
import Verif.Spec.Data3
import Verif.Spec.Data4
import Verif.Spec.Dake
import Verif.Spec.Smp4
import Verif.Spec.SessionExchange
import Verif.Spec.Ake
import Verif.Spec.SessionFragments
import Verif.Spec.Fragment
import Verif.Spec.Regex
/-!
# Specification vocabulary for crashes

The causes for which a received text can crash a client.
-/

namespace Otrr.Spec
open Otrr

/-- The call, with a host that allows messages of `n` bytes. -/
def _root_.Otrr.Call.sized (c : Call) (n : Nat) : Call := { c with messageSize := n }

/-- A text that a host with messages of `size` bytes takes whole, or in at most 65535 fragments, of which 45 bytes are not used
for the text. -/
def Sendable (size : Nat) (t : Bytes) : Prop := t.length ≤ size ∨ 45 < size ∧ t.length ≤ 65535 * (size - 45)

/-- A pattern of fragments finds one whose part or total is more than 65535 or has a digit outside ASCII. -/
def BadFragment (nd : Nat → Bool) (payload : Bytes) : Prop :=
  ∃ v m, Regex.FragmentFound nd payload v m ∧
    (Regex.BadNumber m (if v = .v4 then 4 else 3) ∨ Regex.BadNumber m (if v = .v4 then 5 else 4))

/-- The assembler has counted to its end: part 65535 was the last fragment of an OTRv3 message that it accepted, and this fragment is
not the first one of another message, but one of a message of as many parts; or 2^32 - 1 OTRv4 fragments have arrived. -/
def Full (a : Assembler) (f : Fragment) : Prop :=
  if f.version = .v3 then a.inorder.last = 65535 ∧ f.part ≠ 1 ∧ f.total = a.inorder.total else a.unordered.tick = 0xffffffff

/-- A text, other than an error, in which the pattern of queries finds one without versions, or in which it finds none and the pattern
of tags finds one without versions; or an encoded message in which 57 bytes in a row are zero. -/
inductive BadText (nd : Nat → Bool) (s : Bytes) : Prop
  | query {m} : ¬ ascii "?OTR Error:" <+: s → Regex.Found nd Regex.QUERY_PATTERN s m → Regex.cap m 1 = none → BadText nd s
  | tag {m} : ¬ ascii "?OTR Error:" <+: s → Regex.NotFound nd Regex.QUERY_PATTERN s → Regex.Found nd Regex.WHITESPACE_PATTERN s m →
      Regex.cap m 1 = none → BadText nd s
  | zeros {t d} : s = OTR_ENCODED_PREFIX ++ t ++ [0x2e] → b64Decode t = some d → Occurs (List.replicate 57 0) d → BadText nd s

/-- The own D-H key of the exchange that the instance is in. -/
def OwnDh (s : AKEState) (kp : DH.Keypair) : Prop :=
  (∃ enc hashed, s = .awaitingRevealSignature kp enc hashed) ∨ (∃ gy secret prev, s = .awaitingSignature kp gy secret prev)

/-- Why an OTRv3 message crashes an instance in a given state. -/
inductive Crash3 (E : Env) (c : Call) (ake : AKEState) (m : EncodedMessage) : PState → Prop
  /-- The client has no DSA key, and the message is a D-H Key Message or a Reveal Signature Message. -/
  | noKey {st} : c.keypair = .none → (∃ d, m.message = .dhKey d) ∨ (∃ d, m.message = .revealSignature d) → Crash3 E c ake m st
  /-- The message ends an OTRv3 exchange, and the instance has an OTRv4 session. -/
  | downgrade {x smp} : (∃ d, m.message = .revealSignature d) ∨ (∃ d, m.message = .signature d) → Crash3 E c ake m (.encrypted4 x smp)
  /-- The message ends an exchange for which this client drew a D-H key that is out of range. -/
  | badKey {st kp} : (∃ d, m.message = .revealSignature d) ∨ (∃ d, m.message = .signature d) → OwnDh ake kp → ¬ InRange E.dh kp.pub →
      Crash3 E c ake m st
  /-- A data message for which a counter is at its end, or two keys are equal, or the next key is 0. -/
  | data {x smp d} : m.message = .data d → Fatal3 E d (authenticatorData 3 m.sender m.receiver d) x → Crash3 E c ake m (.encrypted3 x smp)
  /-- The message is authentic and continues the SMP, and the client has no DSA key. -/
  | smpKey {x smp content tlvs st} : DecryptsTo E c m (.encrypted3 x smp) (.confidential content tlvs) st → tlvs.any (isSmpTlv .v3) = true →
      c.keypair = .none → Crash3 E c ake m (.encrypted3 x smp)
  /-- The message is authentic and continues the SMP, and the answer is too long or cannot be encrypted. -/
  | smpAnswer {x smp content tlvs x' t answer smp'} : DecryptsTo E c m (.encrypted3 x smp) (.confidential content tlvs) (.encrypted3 x' smp) →
      t ∈ tlvs → SMP.handle E c.smp t (c.rnd.sub 1) smp = (.ok (some answer), smp') →
      65535 < answer.value.length ∨ Stuck3 E x' 1 (0 :: wTlv answer) → Crash3 E c ake m (.encrypted3 x smp)

/-- Why an OTRv4 message crashes an instance in a given state. -/
inductive Crash4 (E : Env) (A : Account) (c : Call) (dake : DAKEState) (m : EncodedMessage) : PState → Prop
  /-- An Identity message with the identity key of this client as ephemeral key or as forging key. -/
  | identity {st d} : m.message = .identity d →
      d.y = c.identity.pub ∨ (∃ bob, d.profile.validate E = .ok bob ∧ bob.forgingKey = c.identity.pub) → Crash4 E A c dake m st
  /-- An Auth-R message with the identity key of this client as ephemeral key or as forging key. -/
  | authRKey {st d} : m.message = .authR d →
      d.x = c.identity.pub ∨ (∃ alice, d.profile.validate E = .ok alice ∧ alice.forgingKey = c.identity.pub) → Crash4 E A c dake m st
  /-- An Auth-R message for which exactly one side of the equation of the ring signature is zero. -/
  | authR {st d w bob alice} : m.message = .authR d → dake = .awaitingAuthR w → w.message.profile.validate E = .ok bob →
      d.profile.validate E = .ok alice → OneZero E d.sigma bob.forgingKey alice.identityKey w.message.y
        ((exchangeOf w.message d bob alice A.name A.address).transcriptR E) → Crash4 E A c dake m st
  /-- An Auth-I message for which exactly one side of the equation of the ring signature is zero. -/
  | authI {st d w bob alice} : m.message = .authI d → dake = .awaitingAuthI w → w.profileBob.validate E = .ok bob →
      w.profileAlice.validate E = .ok alice → OneZero E d.sigma bob.identityKey alice.forgingKey w.x (Exchange.transcriptI E
        ⟨w.profileBob, w.profileAlice, bob, alice, w.y, w.x, w.b, w.a, w.ecdh0Other, w.dh0Other, w.ecdh0.pub, w.dh0.pub, A.address, A.name⟩) →
      Crash4 E A c dake m st
  /-- A well-formed data message, authentic or not, with an authenticator that is all zero. -/
  | zero {st d} : m.message = .data4 d → Valid4 E d → ¬ NonZero d.authenticator → Crash4 E A c dake m st
  /-- A data message for which a counter is at its end, or a secret is all zero. -/
  | data {x smp d} : m.message = .data4 d → Fatal4 E d (authenticatorData4 4 m.sender m.receiver d) c.now x.ratchet →
      Crash4 E A c dake m (.encrypted4 x smp)
  /-- The message is authentic, and its SMP message has a field of zeros, or exactly one of a challenge and its recomputed value is zero. -/
  | smp {x smp content tlvs st t} : DecryptsTo E c m (.encrypted4 x smp) (.confidential content tlvs) st → t ∈ tlvs →
      t.typ = awaited4 smp.state → Crashing E t smp.state → Crash4 E A c dake m (.encrypted4 x smp)
  /-- The message is authentic and continues the SMP, and the answer is too long or cannot be encrypted. -/
  | smpAnswer {x smp content tlvs x' t answer smp'} : DecryptsTo E c m (.encrypted4 x smp) (.confidential content tlvs) (.encrypted4 x' smp) →
      t ∈ tlvs → SMP4.handle E c.smp t (c.rnd.sub 1) smp = (.ok (some answer), smp') →
      65535 < answer.value.length ∨ Stuck4 E x'.our x'.their 1 (0 :: wTlv answer) ((c.rnd.sub 2).sub 0) c.now x'.ratchet →
      Crash4 E A c dake m (.encrypted4 x smp)

/-- The message names its sender and this client; the first message of an exchange need not name a receiver. -/
def Addressed (A : Account) (m : EncodedMessage) : Prop :=
  m.sender ≠ 0 ∧ (m.receiver ≠ 0 ∧ m.receiver = A.tag ∨ m.receiver = 0 ∧ ((∃ d, m.message = .dhCommit d) ∨ ∃ d, m.message = .identity d))

/-- Why `receive` crashes. -/
inductive Crash (E : Env) (A : Account) (c : Call) (s : Session) (payload : Bytes) : Prop
  /-- With a host that takes longer messages it would send a text that this host does not take, not even in fragments. -/
  | size {n t} : t ∈ ((Op.receive payload).run E A (c.sized n) s).sent → ¬ Sendable c.messageSize t → Crash E A c s payload
  | fragment : matchFragment payload = true → BadFragment E.nd payload → Crash E A c s payload
  /-- A fragment of a known client, which is well-formed and for this client. -/
  | assembler {f i} : matchFragment payload = true → parseFragment E.nd payload = .ok (some f) → verifyFragment f = true →
      f.receiver = 0 ∨ f.receiver = A.tag → lookup s.instances f.sender = some i → Full i.assembler f → Crash E A c s payload
  | text {text} : Reads E A s payload text → BadText E.nd text → Crash E A c s payload
  | otr3 {text m} : Reads E A s payload text → parse E text = .ok (.encoded m) → m.version = .v3 → AllowsV3 A → Addressed A m →
      Crash3 E c (akeOf s m.sender) m (stateOf s m.sender) → Crash E A c s payload
  /-- The exchange that is continued is that of the instance, or that of the instance without a tag. -/
  | otr4 {text m k} : Reads E A s payload text → parse E text = .ok (.encoded m) → m.version = .v4 → AllowsV4 A → Addressed A m → k = m.sender ∨ k = 0 →
      Crash4 E A c (dakeOf s k) m (stateOf s m.sender) → Crash E A c s payload

end Otrr.Spec
