import Verif.Spec.Data3
/-!
# The keys of OTRv3 messages, and what a session did with them

The key pairs of a client and the public keys of its peer are numbered, from 0, in the order in which they came up.  The keys of a message
follow from a key pair of the client and a public key of the peer.
-/

namespace Otrr.Spec
open Otrr

/-- The secret of a key pair and a public key of the peer, as it is hashed. -/
def pairSecret (E : Env) (own : DH.Keypair) (peer : Nat) : Bytes := wMpi (peer ^ own.priv % E.dh.p)

/-- The encryption key for sending: the first half of a hash of the secret; the client with the larger public key is the "high" end. -/
def sendKey3 (E : Env) (own : DH.Keypair) (peer : Nat) : Bytes :=
  (E.sha1 ((if peer < own.pub then 1 else 2) :: pairSecret E own peer)).take 16

/-- The encryption key for receiving. -/
def recvKey3 (E : Env) (own : DH.Keypair) (peer : Nat) : Bytes :=
  (E.sha1 ((if peer < own.pub then 2 else 1) :: pairSecret E own peer)).take 16

/-- What a session did: it sent a message with this plaintext; or it accepted a message with this authenticated header, with this result. -/
inductive Use3
  | sent (m : DataMessage) (plain : Bytes)
  | read (m : DataMessage) (authData : Bytes) (r : Res (PMessage × Bool))

/-- `Log3 E s₀ us draws s`: from the session state `s₀`, messages were sent and accepted in this order, which led to `s`.  Whatever the
network delivers may be received, any number of times; a message that is reported as unreadable is not accepted.  `draws` are the random
bytes that were at hand for new key pairs. -/
inductive Log3 (E : Env) (s₀ : Enc3) : List Use3 → List Bytes → Enc3 → Prop
  | start : Log3 E s₀ [] [] s₀
  | send {us ds s s' flags plain m} : Log3 E s₀ us ds s → Enc3.encrypt E flags plain s = (.ok m, s') →
      Log3 E s₀ (us ++ [.sent m plain]) ds s'
  | refuse {us ds s s' m ad fresh t} : Log3 E s₀ us ds s → Decoded m →
      Enc3.handle E m ad fresh s = (.err (.unreadableMessage t), s') → Log3 E s₀ us (ds ++ [fresh]) s'
  | accept {us ds s s' m ad fresh r} : Log3 E s₀ us ds s → Decoded m → Enc3.handle E m ad fresh s = (r, s') → r ≠ .panic →
      (∀ t, r ≠ .err (.unreadableMessage t)) → Log3 E s₀ (us ++ [.read m ad r]) (ds ++ [fresh]) s'

/-- The message was encrypted and authenticated, or verified and decrypted, with the keys of the key pair `p.1` of the client and the public
key `p.2` of the peer; and its key ids say so. -/
def KeyedAt3 (E : Env) (own : List DH.Keypair) (peer : List Nat) (s₀ : Enc3) (u : Use3) (p : Nat × Nat) : Prop :=
  ∃ k y, own[p.1]? = some k ∧ peer[p.2]? = some y ∧ match u with
    | .sent m plain => m.senderKeyid.toNat = p.1 + 1 ∧ m.receiverKeyid.toNat = p.2 + 1 ∧
      m.encrypted = aesCrypt E (sendKey3 E k y) (ctrNonce m.ctr) plain ∧
      m.authenticator = E.hmacSha1 (E.sha1 (sendKey3 E k y)) (authenticatorData 3 s₀.our s₀.their m)
    | .read m ad r => m.receiverKeyid.toNat = p.1 + 1 ∧ m.senderKeyid.toNat = p.2 + 1 ∧
      m.authenticator = E.hmacSha1 (E.sha1 (recvKey3 E k y)) ad ∧
      match parseMessage (aesCrypt E (recvKey3 E k y) (ctrNonce m.ctr) m.encrypted) with
      | .ok (.confidential c t) => r = .ok (.confidential c t, false)
      | .ok (.confidentialFinished c) => r = .ok (.confidentialFinished c, true)
      | .err e => r = .err e
      | .panic => False

/-- The new public key that an accepted message brings. -/
def nextKeyOf : Use3 → Option Nat
  | .sent _ _ => none
  | .read m _ _ => some m.dhY

/-- The key pairs that a session holds. -/
def heldPairs (s : Enc3) : List DH.Keypair := [s.keys.ours.keys.even, s.keys.ours.keys.odd]

end Otrr.Spec
