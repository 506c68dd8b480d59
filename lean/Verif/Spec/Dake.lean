import Verif.Model.Dake
import Verif.Spec.Messages
import Verif.Spec.Data4
/-!
# Specification vocabulary for the OTRv4 key exchange

Bob sends the Identity message, Alice answers with Auth-R, Bob answers with Auth-I.
-/

namespace Otrr.Spec
open Otrr

/-- One event in the life of a key exchange context: an Identity message was sent to begin an exchange, or a
message was received with the given result. -/
inductive DakeEv
  | began (m : IdentityMessage)
  | identity (m : IdentityMessage) (r : Res EncodedMessageType)
  | authR (m : AuthRMessage) (r : Res (MixedKeyMaterial × EncodedMessageType))
  | authI (m : AuthIMessage) (r : Res MixedKeyMaterial)

/-- `DakeLife E h s`: starting without an exchange, the events `h` happened in this order and led to `s`.
Whatever the network delivers may be received, any number of times, and the host's profile may change. -/
inductive DakeLife (E : Env) : List DakeEv → DAKEState → Prop
  | start : DakeLife E [] .initial
  | began {h s s' host rnd m} : DakeLife E h s → DAKE.initiate E host rnd s = (.ok (.identity m), s') →
      DakeLife E (h ++ [.began m]) s'
  | identity {h s s' host m rnd r} : DakeLife E h s → DAKE.handleIdentity E host m rnd s = (r, s') → r ≠ .panic →
      DakeLife E (h ++ [.identity m r]) s'
  | authR {h s s' host m rnd now r} : DakeLife E h s → DAKE.handleAuthR E host m rnd now s = (r, s') → r ≠ .panic →
      DakeLife E (h ++ [.authR m r]) s'
  | authI {h s s' host m now r} : DakeLife E h s → DAKE.handleAuthI E host m now s = (r, s') → r ≠ .panic →
      DakeLife E (h ++ [.authI m r]) s'

/-- The challenge that follows from the responses of a ring signature by one of the owners of `A1`, `A2`, `A3`
over `m`. -/
def ringHash (E : Env) (s : RingSignature) (A1 A2 A3 : Point) (m : Bytes) : Nat :=
  let T (r c : Nat) (A : Point) := Point.add E.curve (Point.mul E.curve E.curve.G r) (Point.mul E.curve A c)
  leNat (kdf E 57 0x1a (E.curve.G.encode ++ leBytes 57 E.curve.q ++ A1.encode ++ A2.encode ++ A3.encode ++
      (T s.r1 s.c1 A1).encode ++ (T s.r2 s.c2 A2).encode ++ (T s.r3 s.c3 A3).encode ++ wData m)) % E.curve.q

/-- The equation of a ring signature by one of the owners of `A1`, `A2`, `A3` over `m`. -/
def RingVerifies (E : Env) (s : RingSignature) (A1 A2 A3 : Point) (m : Bytes) : Prop :=
  ringHash E s A1 A2 A3 m = (s.c1 + s.c2 + s.c3) % E.curve.q

/-- Exactly one of the two sides of the equation of a ring signature is zero. -/
def OneZero (E : Env) (s : RingSignature) (A1 A2 A3 : Point) (m : Bytes) : Prop :=
  ¬ (ringHash E s A1 A2 A3 m = 0 ↔ (s.c1 + s.c2 + s.c3) % E.curve.q = 0)

/-- The two sides of an exchange as both see it: everything but the signatures in the messages, the
profiles as accepted, and the names of the accounts. -/
structure Exchange where
  bobPayload : ClientProfilePayload
  alicePayload : ClientProfilePayload
  bob : ClientProfile
  alice : ClientProfile
  y : Point
  x : Point
  b : Nat
  a : Nat
  bobEcdh : Point
  bobDh : Nat
  aliceEcdh : Point
  aliceDh : Nat
  bobName : Bytes
  aliceName : Bytes

/-- What Alice signs: a zero byte, hashes of both profiles, the ephemeral keys, and a hash of the owner
tags, first-ratchet keys and account names. -/
def Exchange.transcriptR (E : Env) (e : Exchange) : Bytes :=
  [0x00] ++ kdf E 64 0x05 (wPayload e.bobPayload) ++ kdf E 64 0x06 (wPayload e.alicePayload) ++
    e.y.encode ++ e.x.encode ++ wMpi e.b ++ wMpi e.a ++
    kdf E 64 0x07 (wU32 e.alice.ownerTag ++ wU32 e.bob.ownerTag ++ e.aliceEcdh.encode ++ wMpi e.aliceDh ++
      e.bobEcdh.encode ++ wMpi e.bobDh ++ wData e.aliceName ++ wData e.bobName)

/-- What Bob signs: the same with a one byte, other hashes, and Bob first. -/
def Exchange.transcriptI (E : Env) (e : Exchange) : Bytes :=
  [0x01] ++ kdf E 64 0x08 (wPayload e.bobPayload) ++ kdf E 64 0x09 (wPayload e.alicePayload) ++
    e.y.encode ++ e.x.encode ++ wMpi e.b ++ wMpi e.a ++
    kdf E 64 0x0a (wU32 e.bob.ownerTag ++ wU32 e.alice.ownerTag ++ e.bobEcdh.encode ++ wMpi e.bobDh ++
      e.aliceEcdh.encode ++ wMpi e.aliceDh ++ wData e.bobName ++ wData e.aliceName)

/-- The exchange of an Identity message and an Auth-R message. -/
def exchangeOf (i : IdentityMessage) (r : AuthRMessage) (bob alice : ClientProfile) (bobName aliceName : Bytes) :
    Exchange :=
  ⟨i.profile, r.profile, bob, alice, i.y, r.x, i.b, r.a, i.ecdh0, i.dh0, r.ecdh0, r.dh0, bobName, aliceName⟩

/-- A client that can take part: its host serves the bytes of a well-formed, accepted profile, and the
identity key pair belongs to the profile. -/
structure Party (E : Env) (host : DAKEHost) (payload : ClientProfilePayload) (p : ClientProfile) : Prop where
  bytes : host.profile = wPayload payload
  wf : WfPayload E payload
  valid : payload.validate E = .ok p
  key : p.identityKey = host.identity.pub
  pair : host.identity.pub = Point.mul E.curve E.curve.G host.identity.sk
  identity : GoodKey E.curve p.identityKey
  forging : GoodKey E.curve p.forgingKey

/-- The four key pairs generated from this source are acceptable: no public key is the neutral element. -/
structure GoodEphemeral (E : Env) (rnd : Rand) : Prop where
  ecdh : (ECDHKeyPair.generate E (rnd.bytes [0] 57)).pub ≠ Point.identity
  dh : Valid3072 E (DH.Keypair.generate3 E.dh3 (rnd.bytes [1] 80)).pub
  ecdh0 : (ECDHKeyPair.generate E (rnd.bytes [2] 57)).pub ≠ Point.identity
  dh0 : Valid3072 E (DH.Keypair.generate3 E.dh3 (rnd.bytes [3] 80)).pub

/-- Messages as they come out of the decoder. -/
def DecodedIdentity (E : Env) (m : IdentityMessage) : Prop := ∃ b rest, readIdentity E b = .ok (m, rest)
def DecodedAuthR (E : Env) (m : AuthRMessage) : Prop := ∃ b rest, readAuthR E b = .ok (m, rest)

/-- The challenge of the signature is not 0, which the validation rejects. -/
def NonzeroChallenge (E : Env) (s : RingSignature) : Prop := (s.c1 + s.c2 + s.c3) % E.curve.q ≠ 0

/-- Both clients hold the same session: the same SSID, each the other's fingerprint, and ratchets in
mirrored roles with the same keys. `dh0` is the first-ratchet D-H public key of Bob. -/
structure Agree4 (E : Env) (alice bob : MixedKeyMaterial) (dh0 : Nat) : Prop where
  ssid : alice.ssid = bob.ssid
  them : alice.them = bob.us ∧ bob.them = alice.us
  ratchet : bob.ratchet.shared.dh.pub ≠ dh0 →
    ∀ tagA tagB, Start4 E ⟨tagA, tagB, alice.ratchet⟩ ⟨tagB, tagA, bob.ratchet⟩

end Otrr.Spec
