import Verif.Spec.SessionData
/-!
# Specification vocabulary for two clients that talk to each other
-/

namespace Otrr.Spec
open Otrr

/-- The context of the OTRv4 key exchange with an instance. -/
def dakeOf (s : Session) (k : UInt32) : DAKEState :=
  match lookup s.instances k with
  | some i => i.dake
  | .none => .initial

/-- The host passes on texts that are large enough for the messages of an OTRv4 key exchange, which contain the profile of
the client and at most two numbers modulo `p`. -/
def Roomy (E : Env) (c : Call) : Prop := 2 * c.profile.length + 3 * (natToBE E.dh3.p).length + 700 ≤ c.messageSize

/-- A ring signature that the peer can read and that does not have the challenge 0.  Signatures are drawn at random; this fails
with probability at most 7/q. -/
def GoodProof (E : Env) (s : RingSignature) : Prop := WfRing E.curve s ∧ NonzeroChallenge E s

/-- Two clients that can run the OTRv4 key exchange with each other: the policies allow OTRv4, the tags are valid, each knows
the other by name, and both have valid profiles with different keys.  `cB` is the call in which Bob begins, `cA` that in which Alice
answers: the key pairs that they generate are acceptable, and their messages need no fragments. -/
structure CanMeet4 (E : Env) (A B : Account) (cA cB : Call) : Prop where
  curve : GoodCurve E.curve
  group : FitsMpi E.dh3.p
  allow : AllowsV4 A ∧ AllowsV4 B
  tags : 0x100 ≤ A.tag ∧ 0x100 ≤ B.tag
  names : A.name = B.address ∧ A.address = B.name
  profiles : ∃ PA PB pa pb, Party E (cA.dake A) PA pa ∧ Party E (cB.dake B) PB pb ∧
    pb.forgingKey ≠ pa.identityKey ∧ pa.forgingKey ≠ pb.identityKey ∧
    (ECDHKeyPair.generate E ((cB.rnd.sub 0).bytes [0] 57)).pub ≠ pa.identityKey ∧
    (ECDHKeyPair.generate E ((cA.rnd.sub 0).bytes [0] 57)).pub ≠ pb.identityKey
  keysA : GoodEphemeral E (cA.rnd.sub 0)
  keysB : GoodEphemeral E (cB.rnd.sub 0)
  room : Roomy E cA ∧ Roomy E cB

/-- The call injects exactly this message, as one text. -/
def Sends (e : Effect) (m : EncodedMessage) (text : Bytes) : Prop :=
  serialize (.encoded m) = .ok text ∧ e.sent = [text]

/-- Alice (session `sA`) and Bob (session `sB`) have an OTRv4 session with each other, with the same SSID, and every data message so
far was delivered. -/
def Connected4 (E : Env) (A B : Account) (sA sB : Session) : Prop :=
  ∃ xA mA xB mB ssid, stateOf sA B.tag = .encrypted4 xA mA ∧ stateOf sB A.tag = .encrypted4 xB mB ∧
    Session.ssid sA B.tag = .ok ssid ∧ Session.ssid sB A.tag = .ok ssid ∧
    xA.our = A.tag ∧ xA.their = B.tag ∧ xB.our = B.tag ∧ xB.their = A.tag ∧ Calm4 E ⟨xA, xB, [], []⟩

/-- If the client generated a new D-H key pair for its session with `k`, then the new public key differs from the old one. -/
def FreshSend (k : UInt32) (s s' : Session) : Prop :=
  ∀ x m x' m', stateOf s k = .encrypted4 x m → stateOf s' k = .encrypted4 x' m' → FreshKey x.ratchet x'.ratchet

/-- One text of a conversation: whether Alice sent it (and not Bob), what the user wrote, and the effect of receiving it. -/
structure Turn where
  alice : Bool
  content : Bytes
  effect : Effect

/-- A conversation, from the sessions `sA` and `sB` of Alice and Bob to the sessions that they have at the end: one of them calls
`send`, which returns one text of less than 4 GiB, the other calls `receive` with that text, and so on. -/
inductive Talk (E : Env) (A B : Account) : Session → Session → List Turn → Session → Session → Prop
  | nil {sA sB} : Talk E A B sA sB [] sA sB
  | alice {sA sB content text c c' ts sA' sB'} :
      ((Op.send B.tag content).run E A c sA).result = .ok (.texts [text]) → text.length < 2 ^ 32 →
      FreshSend B.tag sA ((Op.send B.tag content).run E A c sA).after →
      Talk E A B ((Op.send B.tag content).run E A c sA).after ((Op.receive text).run E B c' sB).after ts sA' sB' →
      Talk E A B sA sB (⟨true, content, (Op.receive text).run E B c' sB⟩ :: ts) sA' sB'
  | bob {sA sB content text c c' ts sA' sB'} :
      ((Op.send A.tag content).run E B c sB).result = .ok (.texts [text]) → text.length < 2 ^ 32 →
      FreshSend A.tag sB ((Op.send A.tag content).run E B c sB).after →
      Talk E A B ((Op.receive text).run E A c' sA).after ((Op.send A.tag content).run E B c sB).after ts sA' sB' →
      Talk E A B sA sB (⟨false, content, (Op.receive text).run E A c' sA⟩ :: ts) sA' sB'

end Otrr.Spec
