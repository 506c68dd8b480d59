import Verif.Model.Protocol4
import Verif.Spec.Data3
import Verif.Spec.Curve
/-!
# Specification vocabulary for OTRv4 data messages
-/

namespace Otrr.Spec
open Otrr

/-- The state of a session right after the key exchange, which gave the secret `k`: a first secret is mixed from first key pairs;
one client starts as the sender of the first ratchet; the other as its receiver, and rotates its own keys at once. -/
def FreshFrom (E : Env) (k : Bytes) (s : Enc4) : Prop :=
  ∃ ecdh dh pe pd shared now, Mixed.new E ecdh dh pe pd = .ok shared ∧
    (s.ratchet = DoubleRatchet.init E .sender shared (kdf E 64 0x0b k) now ∨
    ∃ rnd now', (DoubleRatchet.init E .receiver shared (kdf E 64 0x0b k) now).rotateSender E rnd now' = .ok s.ratchet)

/-- The state of a session right after the key exchange. -/
def Fresh4 (E : Env) (s : Enc4) : Prop := ∃ k, FreshFrom E k s

/-- One event in the life of an OTRv4 session: a message was sent, or a message with the given
authenticated header was received with the given result. -/
inductive Ev4
  | sent (m : DataMessage4)
  | got (m : DataMessage4) (authData : Bytes) (r : Res (PMessage × Bool))

/-- `Life4 E s₀ h s`: from the session state `s₀`, the events `h` happened, in this order, and led to `s`.
Whatever the network delivers may be received, any number of times. -/
inductive Life4 (E : Env) (s₀ : Enc4) : List Ev4 → Enc4 → Prop
  | start : Life4 E s₀ [] s₀
  | send {h s s' flags plain rnd now m} : Life4 E s₀ h s →
      Enc4.encrypt E flags plain rnd now s = (.ok m, s') → Life4 E s₀ (h ++ [.sent m]) s'
  | bye {h s s' rnd now m} : Life4 E s₀ h s → Enc4.disconnect E rnd now s = (.ok m, s') →
      Life4 E s₀ (h ++ [.sent m]) s'
  | recv {h s s' m ad now r} : Life4 E s₀ h s → Enc4.handle E m ad now s = (r, s') → r ≠ .panic →
      Life4 E s₀ (h ++ [.got m ad r]) s'

/-- The (ratchet id, message id) of a message. -/
def id4 (m : DataMessage4) : Nat × Nat := (m.i.toNat, m.j.toNat)

/-- Lexicographic order of message ids. -/
def idLt (x y : Nat × Nat) : Prop := x.1 < y.1 ∨ (x.1 = y.1 ∧ x.2 < y.2)

/-- The messages sent in a history, in order. -/
def sent4 (h : List Ev4) : List DataMessage4 :=
  h.filterMap fun e => match e with
    | .sent m => some m
    | .got _ _ _ => none

/-- The messages accepted in a history, in order, each with its authenticated header.  A message is accepted
if it is not reported unreadable. -/
def accepted4 (h : List Ev4) : List (DataMessage4 × Bytes) :=
  h.filterMap fun e => match e with
    | .got _ _ (.err (.unreadableMessage _)) => none
    | .got m ad _ => some (m, ad)
    | .sent _ => none

/-- All MAC keys revealed in a history, in order. -/
def revealed4 (h : List Ev4) : Bytes := ((sent4 h).map fun m => m.revealed).flatten

/-- `k` is a MAC key under which the message with this authenticated header verifies. -/
def Authentic (E : Env) (x : DataMessage4 × Bytes) (k : Bytes) : Prop :=
  k.length = 64 ∧ x.1.authenticator = kdf2 E 64 0x18 k x.2

/-- What a well-formed data message looks like: it carries a D-H public key exactly when its ratchet id is
a multiple of three, its keys are in the groups, and the revealed MAC keys are a whole number of keys, not
none in the first message of a later ratchet. -/
structure Valid4 (E : Env) (m : DataMessage4) : Prop where
  dh : m.i.toNat % 3 = 0 ↔ ∃ v, m.dh = some v
  dhKey : ∀ v, m.dh = some v → E.dh3.g ≤ v ∧ v ≤ E.dh3.p - E.dh3.g ∧ v ^ E.dh3.q % E.dh3.p = 1
  ecdh : m.ecdh ≠ Point.identity ∧ m.ecdh.x < E.curve.p ∧ m.ecdh.y < E.curve.p ∧
    Point.mul E.curve m.ecdh E.curve.q = Point.identity
  reveals : m.revealed.length % 64 = 0
  first : 0 < m.i.toNat → m.j = 0 → m.revealed ≠ []

/-- Two clients that completed a key exchange with each other, and the messages under way in each
direction, oldest first, each with the plaintext that its sender put in. -/
structure Pair4 where
  a : Enc4
  b : Enc4
  ab : List (DataMessage4 × Bytes)
  ba : List (DataMessage4 × Bytes)

/-- The two clients with their roles exchanged. -/
def Pair4.swap (s : Pair4) : Pair4 := ⟨s.b, s.a, s.ba, s.ab⟩

/-- If the client had to generate a new D-H key pair before sending, that is in every third ratchet, then
the new public key differs from the old one. -/
def FreshKey (d d' : DoubleRatchet) : Prop :=
  d.next = .sender → d.i.toNat % 3 = 0 → d'.shared.dh.pub ≠ d.shared.dh.pub

/-- Two clients right after the key exchange: the first-ratchet key pairs of each, their public keys known
to the other, the same root key. -/
structure Start4 (E : Env) (a b : Enc4) : Prop where
  ex : ∃ xa xb ya yb sa sb root t1 t2 t3 rnd,
    Mixed.new E ⟨xa, Point.mul E.curve E.curve.G xa⟩ (DH.Keypair.new E.dh3 ya)
      (Point.mul E.curve E.curve.G xb) (DH.Keypair.new E.dh3 yb).pub = .ok sa ∧
    Mixed.new E ⟨xb, Point.mul E.curve E.curve.G xb⟩ (DH.Keypair.new E.dh3 yb)
      (Point.mul E.curve E.curve.G xa) (DH.Keypair.new E.dh3 ya).pub = .ok sb ∧
    a.ratchet = DoubleRatchet.init E .sender sa root t1 ∧
    (DoubleRatchet.init E .receiver sb root t2).rotateSender E rnd t3 = .ok b.ratchet ∧
    b.ratchet.shared.dh.pub ≠ (DH.Keypair.new E.dh3 yb).pub
  tags : a.their = b.our ∧ b.their = a.our

/-- The states two clients can reach when the network delivers messages unmodified and in order, or
loses them.  Either may send at any time. -/
inductive Reach4 (E : Env) : Pair4 → Prop
  | start {a b} : Start4 E a b → Reach4 E ⟨a, b, [], []⟩
  | sendA {s flags plain rnd now m a'} : Reach4 E s → Enc4.encrypt E flags plain rnd now s.a = (.ok m, a') →
      FreshKey s.a.ratchet a'.ratchet → Reach4 E { s with a := a', ab := s.ab ++ [(m, plain)] }
  | sendB {s flags plain rnd now m b'} : Reach4 E s → Enc4.encrypt E flags plain rnd now s.b = (.ok m, b') →
      FreshKey s.b.ratchet b'.ratchet → Reach4 E { s with b := b', ba := s.ba ++ [(m, plain)] }
  | recvB {s m plain rest now r b'} : Reach4 E s → s.ab = (m, plain) :: rest →
      Enc4.handle E m (authenticatorData4 4 s.a.our s.b.our m) now s.b = (r, b') → r ≠ .panic →
      Reach4 E { s with b := b', ab := rest }
  | recvA {s m plain rest now r a'} : Reach4 E s → s.ba = (m, plain) :: rest →
      Enc4.handle E m (authenticatorData4 4 s.b.our s.a.our m) now s.a = (r, a') → r ≠ .panic →
      Reach4 E { s with a := a', ba := rest }
  | loseB {s x rest} : Reach4 E s → s.ab = x :: rest → Reach4 E { s with ab := rest }
  | loseA {s x rest} : Reach4 E s → s.ba = x :: rest → Reach4 E { s with ba := rest }

/-- The states two clients reach if no message is lost and each sends only when no message to it is under
way. -/
inductive Calm4 (E : Env) : Pair4 → Prop
  | start {a b} : Start4 E a b → Calm4 E ⟨a, b, [], []⟩
  | sendA {s flags plain rnd now m a'} : Calm4 E s → s.ba = [] →
      Enc4.encrypt E flags plain rnd now s.a = (.ok m, a') →
      FreshKey s.a.ratchet a'.ratchet → Calm4 E { s with a := a', ab := s.ab ++ [(m, plain)] }
  | sendB {s flags plain rnd now m b'} : Calm4 E s → s.ab = [] →
      Enc4.encrypt E flags plain rnd now s.b = (.ok m, b') →
      FreshKey s.b.ratchet b'.ratchet → Calm4 E { s with b := b', ba := s.ba ++ [(m, plain)] }
  | recvB {s m plain rest now r b'} : Calm4 E s → s.ab = (m, plain) :: rest →
      Enc4.handle E m (authenticatorData4 4 s.a.our s.b.our m) now s.b = (r, b') → r ≠ .panic →
      Calm4 E { s with b := b', ab := rest }
  | recvA {s m plain rest now r a'} : Calm4 E s → s.ba = (m, plain) :: rest →
      Enc4.handle E m (authenticatorData4 4 s.b.our s.a.our m) now s.a = (r, a') → r ≠ .panic →
      Calm4 E { s with a := a', ba := rest }

/-- A D-H public key that passes the checks: within the range, and in the subgroup. -/
def GoodDh (E : Env) (v : Nat) : Prop := E.dh3.g ≤ v ∧ v ≤ E.dh3.p - E.dh3.g ∧ v ^ E.dh3.q % E.dh3.p = 1

/-- The random source gives secret keys whose public keys pass the checks that the peer applies; with the
real groups all but a negligible part of the numbers do. -/
def GoodDraw (E : Env) (rnd : Rand) : Prop :=
  GoodKey E.curve (ECDHKeyPair.generate E (rnd.bytes [1] 57)).pub ∧
    GoodDh E (DH.Keypair.generate3 E.dh3 (rnd.bytes [0] 80)).pub

/-- A session right after a completed key exchange: the shared secret was made from key pairs of the client
with proper public keys, and from the public keys of the peer, the first a point of the curve as every
decoded point is. -/
def Begun4 (E : Env) (s : Enc4) : Prop :=
  ∃ ecdh dh pe pd shared root now, Mixed.new E ecdh dh pe pd = .ok shared ∧
    GoodKey E.curve ecdh.pub ∧ GoodDh E dh.pub ∧ OnCurve E.curve pe ∧
    (s.ratchet = DoubleRatchet.init E .sender shared root now ∨
      ∃ rnd now', GoodDraw E rnd ∧
        (DoubleRatchet.init E .receiver shared root now).rotateSender E rnd now' = .ok s.ratchet)

/-- Every message received in a history carries a point of the curve, as every decoded message does. -/
def GotPoints (E : Env) (h : List Ev4) : Prop := ∀ m ad r, Ev4.got m ad r ∈ h → OnCurve E.curve m.ecdh

/-- The hash function does not return 32 or more zero bytes. -/
def NoZeroHash (E : Env) : Prop := ∀ n x, 32 ≤ n → NonZero (E.shake n x)

/-- An acceptable Ed448 public key. -/
def Valid448 (E : Env) (P : Point) : Prop :=
  P ≠ Point.identity ∧ P.x < E.curve.p ∧ P.y < E.curve.p ∧ Point.mul E.curve P E.curve.q = Point.identity

/-- An acceptable D-H public key. -/
def Valid3072 (E : Env) (v : Nat) : Prop :=
  E.dh3.g ≤ v ∧ v ≤ E.dh3.p - E.dh3.g ∧ v ^ E.dh3.q % E.dh3.p = 1

/-- The ratchet from which the next message is sent: a client that has accepted a message since it last sent one draws new
keys first. -/
def SendsWith (E : Env) (rnd : Rand) (now : Nat) (d d1 : DoubleRatchet) : Prop :=
  (d.next = .receiver ∧ d1 = d) ∨
  (d.next = .sender ∧ ({ d with reveals := [] } : DoubleRatchet).rotateSender E rnd now = .ok d1)

/-- The authenticator of a message with this text sent from the ratchet. -/
def authenticator4 (E : Env) (our their : UInt32) (flags : UInt8) (plain : Bytes) (d : DoubleRatchet) : Bytes :=
  let key := kdf E 64 0x15 d.sender.chain
  kdf2 E 64 0x18 (kdf E 64 0x16 key) (authenticatorData4 4 our their ⟨flags, d.pn, predSat d.i, d.sender.id, d.shared.ecdh.pub,
    if predSat d.i % 3 = 0 then some d.shared.dh.pub else .none, chachaCrypt E (key.take 32) plain, [], []⟩)

/-- The text cannot be sent from the ratchet. -/
inductive Stuck4 (E : Env) (our their : UInt32) (flags : UInt8) (plain : Bytes) (rnd : Rand) (now : Nat) (d : DoubleRatchet) : Prop
  /-- There is no id for the next ratchet. -/
  | ratchets : d.next = .sender → d.i.toNat = 2 ^ 32 - 1 → Stuck4 E our their flags plain rnd now d
  /-- The brace key from which the next one is derived is all zero. -/
  | brace : d.next = .sender → d.i % 3 ≠ 0 → ¬ NonZero d.shared.brace → Stuck4 E our their flags plain rnd now d
  /-- There is no id for the next message. -/
  | ids : d.next = .receiver → d.sender.id.toNat = 2 ^ 32 - 1 → Stuck4 E our their flags plain rnd now d
  /-- An own public key in the message is not acceptable. -/
  | keys {d1} : SendsWith E rnd now d d1 →
      ¬ Valid448 E d1.shared.ecdh.pub ∨ (predSat d1.i % 3 = 0 ∧ ¬ Valid3072 E d1.shared.dh.pub) → Stuck4 E our their flags plain rnd now d
  /-- The chain key is all zero. -/
  | chain {d1} : SendsWith E rnd now d d1 → ¬ NonZero d1.sender.chain → Stuck4 E our their flags plain rnd now d
  /-- The authenticator is all zero. -/
  | authenticator {d1} : SendsWith E rnd now d d1 → ¬ NonZero (authenticator4 E our their flags plain d1) →
      Stuck4 E our their flags plain rnd now d

/-- The chain key `n` messages later. -/
def _root_.Otrr.chainFwd (E : Env) : Nat → Bytes → Bytes
  | 0, c => c
  | n + 1, c => chainFwd E n (kdf E 64 0x14 c)

/-- The ratchet with which a received message is tried: the current one, or the next one if the message brings the new keys of
the peer. -/
def TriesWith (E : Env) (m : DataMessage4) (now : Nat) (d d1 : DoubleRatchet) : Prop :=
  (m.i.toNat + 1 = d.i.toNat ∧ d.receiver.id.toNat ≤ m.j.toNat ∧ d1 = d) ∨
  (m.i = d.i ∧ d.next = .receiver ∧ m.dh ≠ some d.shared.publicDh ∧
    d.rotateReceiver E m.ecdh (m.dh.getD d.shared.publicDh) now = .ok d1)

/-- The message, which is valid, cannot be handled. -/
inductive Fatal4 (E : Env) (m : DataMessage4) (ad : Bytes) (now : Nat) (d : DoubleRatchet) : Prop
  /-- It brings new keys, and there is no id for the next ratchet. -/
  | ratchets : m.i = d.i → d.next = .receiver → m.dh ≠ some d.shared.publicDh → d.i.toNat = 2 ^ 32 - 1 → Fatal4 E m ad now d
  /-- It brings new keys, and the brace key from which the next one is derived is all zero. -/
  | brace : m.i = d.i → d.next = .receiver → m.dh ≠ some d.shared.publicDh → d.i % 3 ≠ 0 → ¬ NonZero d.shared.brace → Fatal4 E m ad now d
  /-- The chain key for it is all zero. -/
  | chain {d1} : TriesWith E m now d d1 → ¬ NonZero (chainFwd E (m.j.toNat - d1.receiver.id.toNat) d1.receiver.chain) →
      Fatal4 E m ad now d
  /-- It is authentic, and has the last message id. -/
  | last {d1} : TriesWith E m now d d1 → m.j.toNat = 2 ^ 32 - 1 →
      m.authenticator = kdf2 E 64 0x18
        (kdf E 64 0x16 (kdf E 64 0x15 (chainFwd E (m.j.toNat - d1.receiver.id.toNat) d1.receiver.chain))) ad → Fatal4 E m ad now d

end Otrr.Spec
