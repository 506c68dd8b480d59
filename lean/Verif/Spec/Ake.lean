import Verif.Model.Ake
import Verif.Spec.Messages
import Verif.Spec.Data3
/-!
# Specification vocabulary for the OTRv3 key exchange
-/

namespace Otrr.Spec
open Otrr

/-- One event in the life of a key exchange context: a D-H Commit message was sent to begin an exchange, or
a message was received with the given result. -/
inductive AkeEv
  | began (m : DHCommitMessage)
  | commit (m : DHCommitMessage) (r : Res EncodedMessageType)
  | key (m : DHKeyMessage) (r : Res EncodedMessageType)
  | reveal (m : RevealSignatureMessage) (r : Res (AKEMaterial × EncodedMessageType))
  | sig (m : SignatureMessage) (r : Res AKEMaterial)

/-- `AkeLife E h s`: starting without an exchange, the events `h` happened in this order and led to `s`.
Whatever the network delivers may be received, any number of times, and the host's key may change. -/
inductive AkeLife (E : Env) : List AkeEv → AKEState → Prop
  | start : AkeLife E [] .none
  | began {h s s' rnd m} : AkeLife E h s → AKE.initiate E rnd s = (.ok (.dhCommit m), s') →
      AkeLife E (h ++ [.began m]) s'
  | commit {h s s' m rnd r} : AkeLife E h s → AKE.handleDhCommit E m rnd s = (r, s') →
      AkeLife E (h ++ [.commit m r]) s'
  | key {h s s' host m r} : AkeLife E h s → AKE.handleDhKey E host m s = (r, s') → r ≠ .panic →
      AkeLife E (h ++ [.key m r]) s'
  | reveal {h s s' host m r} : AkeLife E h s → AKE.handleRevealSignature E host m s = (r, s') → r ≠ .panic →
      AkeLife E (h ++ [.reveal m r]) s'
  | sig {h s s' m r} : AkeLife E h s → AKE.handleSignature E m s = (r, s') → r ≠ .panic →
      AkeLife E (h ++ [.sig m r]) s'

/-- What a client signs (under a MAC): the two D-H public keys, its own first, its long-term public key and
key id. -/
def transcript3 (own other : Nat) (pk : DSAPublicKey) (keyid : UInt32) : Bytes :=
  wMpi own ++ wMpi other ++ wPublicKey pk ++ wU32 keyid

/-- The keys of an exchange: hashes of the shared secret prefixed by one byte. -/
def akeKey (E : Env) (n : UInt8) (s : Nat) : Bytes := E.sha256 (n :: wMpi s)

/-- A D-H public key in the permitted range. -/
def InRange (G : DHGroup) (v : Nat) : Prop := G.g ≤ v ∧ v ≤ G.p - 2

/-- `bytes` begins with an MPI of value `v`. -/
def StartsWithMpi (bytes : Bytes) (v : Nat) : Prop :=
  ∃ digits rest, bytes = beBytes 4 digits.length ++ digits ++ rest ∧ digits.length < 2 ^ 32 ∧ beNat digits = v

/-- `enc` with MAC `mac` is the encrypted, signed identity of the owner of `pk` in an exchange with shared
secret `s`, who has D-H public key `own` and believes to talk to the owner of D-H public key `other`.  `c`
is the encryption key, and `m1`, `m2` number the MAC keys. -/
def Authenticated (E : Env) (c : Bytes) (m1 m2 : UInt8) (s own other : Nat) (pk : DSAPublicKey) (enc mac : Bytes) :
    Prop :=
  mac = (E.hmacSha256 (akeKey E m2 s) (wData enc)).take 20 ∧
  ∃ keyid sig, keyid ≠ 0 ∧ runDec (AKE.readSigned E) (aesCrypt E c (List.replicate 16 0) enc) = .ok (pk, keyid, sig) ∧
    E.dsaVerify pk (dsaPrehash (E.hmacSha256 (akeKey E m1 s) (transcript3 own other pk keyid)) pk.q) sig = true

/-- A DSA key pair that works: the key fits the wire format, signatures fit too, and they verify. -/
structure GoodDsa (E : Env) (k : DSAKeypair) : Prop where
  key : WfDsaKey E k.pk
  sig : ∀ d, WfDsaSig (k.sign E d)
  correct : ∀ d, E.dsaVerify k.pk (dsaPrehash d k.pk.q) (k.sign E d) = true

/-- Both clients hold the same session: the same SSID, each the other's long-term key and D-H public key,
and data-message keys in mirrored roles. -/
structure Agree3 (E : Env) (alice bob : DSAKeypair) (a b : AKEMaterial) : Prop where
  ssid : a.ssid = b.ssid
  dsa : a.theirDsa = bob.pk ∧ b.theirDsa = alice.pk
  dh : a.theirDh = b.ourDh.pub ∧ b.theirDh = a.ourDh.pub
  keys : ∀ x y, dataSecrets E a.ourDh a.theirDh = .ok ⟨x, y⟩ ↔ dataSecrets E b.ourDh b.theirDh = .ok ⟨y, x⟩

/-- The context does not wait for a Reveal Signature message. -/
def NotAwaitingReveal (s : AKEState) : Prop := ∀ kp e h, s ≠ .awaitingRevealSignature kp e h

end Otrr.Spec
