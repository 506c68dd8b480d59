import Verif.Model.Ake
import Verif.Model.Messages
import Verif.Model.Ratchet
/-!
# Model of src/dake.rs: the OTRv4 interactive key exchange

`host.client_profile()`, `host.keypair_identity()` and the names of the accounts are arguments.
Simplification: `write_mpi` and `write_data` cannot fail here, because all values written were read from a
message or are below the group's modulus; the names of the accounts are assumed to be shorter than 4 GiB.
-/

namespace Otrr

/-- What a context asks of the host, and the names passed to its methods by src/session.rs 829-876:
`client_profile()`, `keypair_identity()`, `account`, `contact`. -/
structure DAKEHost where
  profile : Bytes
  identity : EdDSAKeyPair
  account : Bytes
  contact : Bytes
  deriving DecidableEq, Repr

/-- `MixedKeyMaterial`, src/dake.rs 490-497. -/
structure MixedKeyMaterial where
  ssid : Bytes
  ratchet : DoubleRatchet
  us : Bytes
  them : Bytes
  deriving DecidableEq, Repr

/-- `State::AwaitingAuthR`, src/dake.rs 506-514. -/
structure AwaitingAuthR where
  y : ECDHKeyPair
  b : DH.Keypair
  payload : ClientProfilePayload
  ecdh0 : ECDHKeyPair
  dh0 : DH.Keypair
  message : IdentityMessage
  deriving DecidableEq, Repr

/-- `State::AwaitingAuthI`, src/dake.rs 515-527. -/
structure AwaitingAuthI where
  profileAlice : ClientProfilePayload
  profileBob : ClientProfilePayload
  x : Point
  y : Point
  a : Nat
  b : Nat
  k : Bytes
  ecdh0 : ECDHKeyPair
  dh0 : DH.Keypair
  ecdh0Other : Point
  dh0Other : Nat
  deriving DecidableEq, Repr

/-- `State`, src/dake.rs 500-528. -/
inductive DAKEState
  | initial
  | awaitingAuthR (s : AwaitingAuthR)
  | awaitingAuthI (s : AwaitingAuthI)
  deriving DecidableEq, Repr

namespace DAKE

/-- Decode the host's own profile, src/dake.rs 48-51 and 173-176. -/
def ownPayload (E : Env) (host : DAKEHost) : Res ClientProfilePayload :=
  runDec (do let p ← readPayload E; decDone; pure p) host.profile

/-- `initiate`, src/dake.rs 40-72. -/
def initiate (E : Env) (host : DAKEHost) (rnd : Rand) : StM DAKEState EncodedMessageType := .transact fun s =>
  match s with
  | .initial => do
    let payload ← ownPayload E host
    let y := ECDHKeyPair.generate E (rnd.bytes [0] 57)
    let b := DH.Keypair.generate3 E.dh3 (rnd.bytes [1] 80)
    let ecdh0 := ECDHKeyPair.generate E (rnd.bytes [2] 57)
    let dh0 := DH.Keypair.generate3 E.dh3 (rnd.bytes [3] 80)
    let m : IdentityMessage := ⟨payload, y.pub, b.pub, ecdh0.pub, dh0.pub⟩
    return (.identity m, .awaitingAuthR ⟨y, b, payload, ecdh0, dh0, m⟩)
  | _ => .err .incorrectState

/-- `transfer`, src/dake.rs 76-107. -/
def transfer : DAKEState → Res DAKEState
  | .awaitingAuthR s => .ok (.awaitingAuthR s)
  | _ => .err .incorrectState

/-- The checks on the four public keys of an Identity or Auth-R message. -/
def verifyKeys (E : Env) (e1 : Point) (d1 : Nat) (e2 : Point) (d2 : Nat) : Res Unit := do
  Point.verify E.curve e1
  DH.verify3 E.dh3 d1
  Point.verify E.curve e2
  DH.verify3 E.dh3 d2

/-- `IdentityMessage::validate`, src/dake.rs 567-574. -/
def validateIdentity (E : Env) (m : IdentityMessage) : Res ClientProfile := do
  let p ← m.profile.validate E
  verifyKeys E m.y m.b m.ecdh0 m.dh0
  return p

/-- `AuthRMessage::validate`, src/dake.rs 621-628. -/
def validateAuthR (E : Env) (m : AuthRMessage) : Res ClientProfile := do
  let p ← m.profile.validate E
  verifyKeys E m.x m.a m.ecdh0 m.dh0
  return p

/-- The number compared when both clients sent an Identity message, src/dake.rs 160-165. -/
def hashedB (E : Env) (b : Nat) : Nat := beNat (E.shake 32 (wMpi b))

/-- The data signed in an Auth-R message, src/dake.rs 179-214 and 281-315: hashes of the profiles and of
`phi`, and the ephemeral keys.  `USAGE_AUTH_R_BOB_CLIENT_PROFILE` = 5, `USAGE_AUTH_R_ALICE_CLIENT_PROFILE` = 6,
`USAGE_AUTH_R_PHI` = 7. -/
def tbytesR (E : Env) (bob alice : Bytes) (y x : Point) (b a : Nat) (phi : Bytes) : Bytes :=
  wU8 0x00 ++ kdf E 64 0x05 bob ++ kdf E 64 0x06 alice ++ wPoint y ++ wPoint x ++ wMpi b ++ wMpi a ++
    kdf E 64 0x07 phi

/-- The data signed in an Auth-I message, src/dake.rs 328-358 and 424-455.  `USAGE_AUTH_I_BOB_CLIENT_PROFILE`
= 8, `USAGE_AUTH_I_ALICE_CLIENT_PROFILE` = 9, `USAGE_AUTH_I_PHI` = 10. -/
def tbytesI (E : Env) (bob alice : Bytes) (y x : Point) (b a : Nat) (phi : Bytes) : Bytes :=
  wU8 0x01 ++ kdf E 64 0x08 bob ++ kdf E 64 0x09 alice ++ wPoint y ++ wPoint x ++ wMpi b ++ wMpi a ++
    kdf E 64 0x0a phi

/-- `phi`, src/dake.rs 201-213, 303-314, 347-357, 443-454: owner tags, first-ratchet public keys and
account names, one party before the other. -/
def phi (tag1 tag2 : UInt32) (ecdh1 : Point) (dh1 : Nat) (ecdh2 : Point) (dh2 : Nat) (name1 name2 : Bytes) : Bytes :=
  wU32 tag1 ++ wU32 tag2 ++ wPoint ecdh1 ++ wMpi dh1 ++ wPoint ecdh2 ++ wMpi dh2 ++ wData name1 ++ wData name2

/-- The answer to an Identity message, src/dake.rs 172-249. -/
def answerIdentity (E : Env) (host : DAKEHost) (m : IdentityMessage) (bob : ClientProfile) (rnd : Rand) :
    Res (EncodedMessageType × DAKEState) := do
  let payload ← ownPayload E host
  let x := ECDHKeyPair.generate E (rnd.bytes [0] 57)
  let a := DH.Keypair.generate3 E.dh3 (rnd.bytes [1] 80)
  let own ← payload.validate E
  let ecdh0 := ECDHKeyPair.generate E (rnd.bytes [2] 57)
  let dh0 := DH.Keypair.generate3 E.dh3 (rnd.bytes [3] 80)
  let t := tbytesR E (wPayload m.profile) host.profile m.y x.pub m.b a.pub
    (phi own.ownerTag bob.ownerTag ecdh0.pub dh0.pub m.ecdh0 m.dh0 host.account host.contact)
  let sigma ← RingSignature.sign E host.identity bob.forgingKey host.identity.pub m.y t (rnd.sub 4)
  let shared ← Mixed.new E x a m.y m.b
  return (.authR ⟨payload, x.pub, a.pub, sigma, ecdh0.pub, dh0.pub⟩,
    .awaitingAuthI ⟨payload, m.profile, x.pub, m.y, a.pub, m.b, shared.k, ecdh0, dh0, m.ecdh0, m.dh0⟩)

/-- `handle_identity`, src/dake.rs 123-250. -/
def handleIdentity (E : Env) (host : DAKEHost) (m : IdentityMessage) (rnd : Rand) : StM DAKEState EncodedMessageType :=
  .transact fun s => do
  let bob ← validateIdentity E m
  match s with
  | .awaitingAuthR own =>
    if hashedB E own.message.b > hashedB E m.b then .ok (.identity own.message, s)
    else answerIdentity E host m bob rnd
  | _ => answerIdentity E host m bob rnd

/-- `handle_auth_r` in state `AwaitingAuthR`, src/dake.rs 278-387; `USAGE_SSID` = 4,
`USAGE_FIRST_ROOT_KEY` = 11. -/
def answerAuthR (E : Env) (host : DAKEHost) (m : AuthRMessage) (s : AwaitingAuthR) (rnd : Rand) (now : Nat) :
    Res (MixedKeyMaterial × EncodedMessageType) := do
  let alice ← validateAuthR E m
  let bob ← s.payload.validate E
  let tR := tbytesR E (wPayload s.payload) (wPayload m.profile) s.y.pub m.x s.b.pub m.a
    (phi alice.ownerTag bob.ownerTag m.ecdh0 m.dh0 s.ecdh0.pub s.dh0.pub host.contact host.account)
  m.sigma.validate E bob.forgingKey alice.identityKey s.y.pub tR
  let tI := tbytesI E (wPayload s.payload) (wPayload m.profile) s.y.pub m.x s.b.pub m.a
    (phi bob.ownerTag alice.ownerTag s.ecdh0.pub s.dh0.pub m.ecdh0 m.dh0 host.account host.contact)
  let sigma ← RingSignature.sign E host.identity host.identity.pub alice.forgingKey m.x tI (rnd.sub 0)
  let shared ← Mixed.new E s.y s.b m.x m.a
  let ssid := kdf E 8 0x04 shared.k
  let root := kdf E 64 0x0b shared.k
  let first ← Mixed.new E s.ecdh0 s.dh0 m.ecdh0 m.dh0
  let ratchet ← (DoubleRatchet.init E .receiver first root now).rotateSender E (rnd.sub 1) now
  return (⟨ssid, ratchet, fingerprint4 E bob.identityKey bob.forgingKey,
    fingerprint4 E alice.identityKey alice.forgingKey⟩, .authI ⟨sigma⟩)

/-- `handle_auth_r`, src/dake.rs 259-388. -/
def handleAuthR (E : Env) (host : DAKEHost) (m : AuthRMessage) (rnd : Rand) (now : Nat) :
    StM DAKEState (MixedKeyMaterial × EncodedMessageType) := .transact fun s =>
  match s with
  | .awaitingAuthR st => do
    let r ← answerAuthR E host m st rnd now
    return (r, .initial)
  | _ => .err .incorrectState

/-- `handle_auth_i` in state `AwaitingAuthI`, src/dake.rs 423-486. -/
def acceptAuthI (E : Env) (host : DAKEHost) (m : AuthIMessage) (s : AwaitingAuthI) (now : Nat) :
    Res MixedKeyMaterial := do
  let alice ← s.profileAlice.validate E
  let bob ← s.profileBob.validate E
  let t := tbytesI E (wPayload s.profileBob) (wPayload s.profileAlice) s.y s.x s.b s.a
    (phi bob.ownerTag alice.ownerTag s.ecdh0Other s.dh0Other s.ecdh0.pub s.dh0.pub host.contact host.account)
  m.sigma.validate E bob.identityKey alice.forgingKey s.x t
  let ssid := kdf E 8 0x04 s.k
  let root := kdf E 64 0x0b s.k
  let first ← Mixed.new E s.ecdh0 s.dh0 s.ecdh0Other s.dh0Other
  let ratchet := DoubleRatchet.init E .sender first root now
  return ⟨ssid, ratchet, fingerprint4 E alice.identityKey alice.forgingKey,
    fingerprint4 E bob.identityKey bob.forgingKey⟩

/-- `handle_auth_i`, src/dake.rs 400-487.  The state is not changed. -/
def handleAuthI (E : Env) (host : DAKEHost) (m : AuthIMessage) (now : Nat) : StM DAKEState MixedKeyMaterial :=
  .transact fun s =>
  match s with
  | .awaitingAuthI st => do
    let r ← acceptAuthI E host m st now
    return (r, s)
  | _ => .err .incorrectState

end DAKE

end Otrr
