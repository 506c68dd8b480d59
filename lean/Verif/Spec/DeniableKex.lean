import Verif.Spec.Dake
/-! # Making up the other side of an OTRv4 key exchange

What a client can write in the name of a peer who takes no part: it has the peer's published profile, makes up all ephemeral keys, and signs
with a key of its own. -/

namespace Otrr.Spec

/-- A published profile: accepted, with good keys.  Nothing here is secret. -/
structure Published (E : Env) (P : ClientProfilePayload) (p : ClientProfile) : Prop where
  valid : P.validate E = .ok p
  identity : GoodKey E.curve p.identityKey
  forging : GoodKey E.curve p.forgingKey

/-- An Identity message with the profile of someone else, and made-up keys. -/
def fakeIdentity (E : Env) (P : ClientProfilePayload) (rnd : Rand) : IdentityMessage :=
  ⟨P, (ECDHKeyPair.generate E (rnd.bytes [0] 57)).pub, (DH.Keypair.generate3 E.dh3 (rnd.bytes [1] 80)).pub,
    (ECDHKeyPair.generate E (rnd.bytes [2] 57)).pub, (DH.Keypair.generate3 E.dh3 (rnd.bytes [3] 80)).pub⟩

/-- An Auth-R message in answer to `i`, with the profile `P` (containing `alice`) of someone else and made-up keys, signed with `k`. -/
def fakeAuthR (E : Env) (k : EdDSAKeyPair) (i : IdentityMessage) (bob : ClientProfile) (P : ClientProfilePayload) (alice : ClientProfile)
    (bobName aliceName : Bytes) (rnd rnd' : Rand) : Res AuthRMessage :=
  let r : AuthRMessage := ⟨P, (ECDHKeyPair.generate E (rnd.bytes [0] 57)).pub, (DH.Keypair.generate3 E.dh3 (rnd.bytes [1] 80)).pub, default,
    (ECDHKeyPair.generate E (rnd.bytes [2] 57)).pub, (DH.Keypair.generate3 E.dh3 (rnd.bytes [3] 80)).pub⟩
  match RingSignature.sign E k bob.forgingKey alice.identityKey i.y ((exchangeOf i r bob alice bobName aliceName).transcriptR E) rnd' with
  | .ok s => .ok { r with sigma := s }
  | .err e => .err e
  | .panic => .panic

/-- An Auth-I message that completes the exchange of `i` and `r`, signed with `k`. -/
def fakeAuthI (E : Env) (k : EdDSAKeyPair) (i : IdentityMessage) (bob : ClientProfile) (r : AuthRMessage) (alice : ClientProfile)
    (bobName aliceName : Bytes) (rnd : Rand) : Res AuthIMessage :=
  match RingSignature.sign E k bob.identityKey alice.forgingKey r.x ((exchangeOf i r bob alice bobName aliceName).transcriptI E) rnd with
  | .ok s => .ok ⟨s⟩
  | .err e => .err e
  | .panic => .panic

/-- The ephemeral key as a key pair to sign with. -/
def asSigner (k : ECDHKeyPair) : EdDSAKeyPair := ⟨[], k.priv, k.pub⟩

end Otrr.Spec
