import Verif.Model.Protocol3
/-!
# Specification vocabulary for OTRv3 data messages
-/

namespace Otrr.Spec
open Otrr

/-- What the decoder guarantees of a received data message. -/
def Decoded (m : DataMessage) : Prop :=
  m.senderKeyid ≠ 0 ∧ m.receiverKeyid ≠ 0 ∧ m.ctr.length = 8

/-- One event in the life of an OTRv3 session: a message was sent, or a message with the given
authenticated header was received with the given result. -/
inductive Ev3
  | sent (m : DataMessage)
  | got (m : DataMessage) (authData : Bytes) (r : Res (PMessage × Bool))

/-- `Life3 E s₀ h s`: from the session state `s₀`, the events `h` happened, in this order, and led to `s`.
Whatever the network delivers may be received, any number of times. -/
inductive Life3 (E : Env) (s₀ : Enc3) : List Ev3 → Enc3 → Prop
  | start : Life3 E s₀ [] s₀
  | send {h s s' flags plain m} : Life3 E s₀ h s → Enc3.encrypt E flags plain s = (.ok m, s') →
      Life3 E s₀ (h ++ [.sent m]) s'
  | recv {h s s' m ad fresh r} : Life3 E s₀ h s → Decoded m → Enc3.handle E m ad fresh s = (r, s') →
      r ≠ .panic → Life3 E s₀ (h ++ [.got m ad r]) s'

/-- The state of a session right after the key exchange. -/
def Fresh3 (E : Env) (s : Enc3) : Prop :=
  ∃ our their ourDh theirDh rnd, Enc3.new E our their ourDh theirDh rnd = .ok s

/-- The (sender key, receiver key, counter) of the messages sent in a history. -/
def sentCounters (h : List Ev3) : List (UInt32 × UInt32 × Bytes) :=
  h.filterMap fun e => match e with
    | .sent m => some (m.senderKeyid, m.receiverKeyid, m.ctr)
    | .got _ _ _ => none

/-- The event is the acceptance of a message with the keys and counter of `m`. -/
def Accepts (m : DataMessage) : Ev3 → Prop
  | .got m' _ (.ok _) => m'.senderKeyid = m.senderKeyid ∧ m'.receiverKeyid = m.receiverKeyid ∧ m'.ctr = m.ctr
  | _ => False

instance (m : DataMessage) : DecidablePred (Accepts m) := fun e => by
  unfold Accepts
  split <;> infer_instance

/-- How a client composes the plaintext of a data message: text without NUL bytes, alone or followed by a
NUL byte and TLVs. -/
def Composed (text : Bytes) (tlvs : List TLV) (plain : Bytes) : Prop :=
  (∀ b ∈ text, b ≠ 0) ∧ (∀ t ∈ tlvs, t.value.length < 2 ^ 16) ∧
  (plain = text ++ 0 :: (tlvs.map fun t => wU16 t.typ ++ wU16 (UInt16.ofNat t.value.length) ++ t.value).flatten ∨
    (tlvs = [] ∧ plain = text))

/-- Two clients that completed a key exchange with each other, and the messages under way in each
direction, oldest first, each with the plaintext that its sender put in. -/
structure Pair3 where
  a : Enc3
  b : Enc3
  ab : List (DataMessage × Bytes)
  ba : List (DataMessage × Bytes)

/-- The states two clients can reach when the network delivers messages unmodified and in order, or
loses them.  Either may send at any time. -/
inductive Reach3 (E : Env) : Pair3 → Prop
  | start {ta tb xa xb ra rb a b} :
      Enc3.new E ta tb (DH.Keypair.new E.dh xa) (DH.Keypair.new E.dh xb).pub ra = .ok a →
      Enc3.new E tb ta (DH.Keypair.new E.dh xb) (DH.Keypair.new E.dh xa).pub rb = .ok b →
      Reach3 E ⟨a, b, [], []⟩
  | sendA {s flags plain m a'} : Reach3 E s → Enc3.encrypt E flags plain s.a = (.ok m, a') →
      Reach3 E { s with a := a', ab := s.ab ++ [(m, plain)] }
  | sendB {s flags plain m b'} : Reach3 E s → Enc3.encrypt E flags plain s.b = (.ok m, b') →
      Reach3 E { s with b := b', ba := s.ba ++ [(m, plain)] }
  | recvB {s m plain rest fresh r b'} : Reach3 E s → s.ab = (m, plain) :: rest →
      Enc3.handle E m (authenticatorData 3 s.a.our s.b.our m) fresh s.b = (r, b') → r ≠ .panic →
      Reach3 E { s with b := b', ab := rest }
  | recvA {s m plain rest fresh r a'} : Reach3 E s → s.ba = (m, plain) :: rest →
      Enc3.handle E m (authenticatorData 3 s.b.our s.a.our m) fresh s.a = (r, a') → r ≠ .panic →
      Reach3 E { s with a := a', ba := rest }
  | loseB {s x rest} : Reach3 E s → s.ab = x :: rest → Reach3 E { s with ab := rest }
  | loseA {s x rest} : Reach3 E s → s.ba = x :: rest → Reach3 E { s with ba := rest }

/-- The two clients with their roles exchanged. -/
def Pair3.swap (s : Pair3) : Pair3 := ⟨s.b, s.a, s.ba, s.ab⟩

/-- What the receiver of text and TLVs is told: the text and the TLVs without padding, or, if a disconnect
TLV is present, that the session finished. -/
def received (text : Bytes) (tlvs : List TLV) : PMessage × Bool :=
  if ∃ t ∈ tlvs, t.typ = 1 then (.confidentialFinished text, true)
  else (.confidential text (tlvs.filter fun t => t.typ != 0), false)

/-- `Turns3 E a b`: the clients took turns, each sending one message that the other received, and now it
is the turn of `a` to send to `b`. -/
inductive Turns3 (E : Env) : Enc3 → Enc3 → Prop
  | start {ta tb xa xb ra rb a b} :
      Enc3.new E ta tb (DH.Keypair.new E.dh xa) (DH.Keypair.new E.dh xb).pub ra = .ok a →
      Enc3.new E tb ta (DH.Keypair.new E.dh xb) (DH.Keypair.new E.dh xa).pub rb = .ok b → Turns3 E a b
  | turn {a b flags plain m a' fresh r b'} : Turns3 E a b → Enc3.encrypt E flags plain a = (.ok m, a') →
      Enc3.handle E m (authenticatorData 3 a.our b.our m) fresh b = (r, b') → r ≠ .panic → Turns3 E b' a'

/-- The states that two clients reach without the first receiving anything yet; otherwise as `Reach3`. -/
inductive Early3 (E : Env) : Pair3 → Prop
  | start {ta tb xa xb ra rb a b} :
      Enc3.new E ta tb (DH.Keypair.new E.dh xa) (DH.Keypair.new E.dh xb).pub ra = .ok a →
      Enc3.new E tb ta (DH.Keypair.new E.dh xb) (DH.Keypair.new E.dh xa).pub rb = .ok b →
      Early3 E ⟨a, b, [], []⟩
  | sendA {s flags plain m a'} : Early3 E s → Enc3.encrypt E flags plain s.a = (.ok m, a') →
      Early3 E { s with a := a', ab := s.ab ++ [(m, plain)] }
  | sendB {s flags plain m b'} : Early3 E s → Enc3.encrypt E flags plain s.b = (.ok m, b') →
      Early3 E { s with b := b', ba := s.ba ++ [(m, plain)] }
  | recvB {s m plain rest fresh r b'} : Early3 E s → s.ab = (m, plain) :: rest →
      Enc3.handle E m (authenticatorData 3 s.a.our s.b.our m) fresh s.b = (r, b') → r ≠ .panic →
      Early3 E { s with b := b', ab := rest }
  | loseB {s x rest} : Early3 E s → s.ab = x :: rest → Early3 E { s with ab := rest }
  | loseA {s x rest} : Early3 E s → s.ba = x :: rest → Early3 E { s with ba := rest }

/-- The text cannot be sent. -/
inductive Stuck3 (E : Env) (s : Enc3) (flags : UInt8) (plain : Bytes) : Prop
  /-- There is no id for the next own key. -/
  | ids : s.keys.ours.acknowledged.toNat = 2 ^ 32 - 1 → Stuck3 E s flags plain
  /-- The counter has come to its end. -/
  | counter : beNat s.keys.ourCtr = 2 ^ 64 - 1 → Stuck3 E s flags plain
  /-- The two clients have the same D-H key. -/
  | sameKey : s.keys.ours.current.2.pub = s.keys.theirs.current.2 → Stuck3 E s flags plain
  /-- The MAC keys to reveal are all zero. -/
  | macs : s.keys.oldMacs ≠ [] → (∀ b ∈ s.keys.oldMacs, b = 0) → Stuck3 E s flags plain
  /-- The ciphertext is all zero, or empty. -/
  | ciphertext {sec ctr} : dataSecrets E s.keys.ours.current.2 s.keys.theirs.current.2 = .ok sec → ctr.length = 8 →
      beNat ctr = beNat s.keys.ourCtr + 1 → (∀ b ∈ aesCrypt E sec.sendkey (ctrNonce ctr) plain, b = 0) → Stuck3 E s flags plain
  /-- The authenticator is all zero. -/
  | authenticator {sec ctr id next} : dataSecrets E s.keys.ours.current.2 s.keys.theirs.current.2 = .ok sec → ctr.length = 8 →
      beNat ctr = beNat s.keys.ourCtr + 1 → s.keys.ours.next = .ok (id, next) →
      (∀ b ∈ E.hmacSha1 (sec.senderMac E) (authenticatorData 3 s.our s.their ⟨flags, s.keys.ours.current.1, s.keys.theirs.current.1,
        next.pub, ctr, aesCrypt E sec.sendkey (ctrNonce ctr) plain, [], []⟩), b = 0) → Stuck3 E s flags plain

/-- The message, which was decoded, cannot be handled. -/
inductive Fatal3 (E : Env) (m : DataMessage) (ad : Bytes) (s : Enc3) : Prop
  /-- It names a key of the peer that is known and an own key that is not the last one, while the own key ids have come to their end. -/
  | ids : s.keys.theirs.id = m.senderKeyid ∨ s.keys.theirs.id.toNat = m.senderKeyid.toNat + 1 →
      s.keys.ours.acknowledged.toNat = 2 ^ 32 - 1 → m.receiverKeyid ≠ s.keys.ours.acknowledged → Fatal3 E m ad s
  /-- It names a key of the peer and an own key that are known and equal. -/
  | sameKey : s.keys.theirs.id = m.senderKeyid ∨ s.keys.theirs.id.toNat = m.senderKeyid.toNat + 1 →
      s.keys.ours.acknowledged = m.receiverKeyid ∨ m.receiverKeyid.toNat = s.keys.ours.acknowledged.toNat + 1 →
      (s.keys.ours.keys.get m.receiverKeyid).pub = s.keys.theirs.keys.get m.senderKeyid → Fatal3 E m ad s
  /-- It is authentic and not a repetition, and has the last key id or announces 0 as the next key. -/
  | next {sec} : s.keys.theirs.id = m.senderKeyid ∨ s.keys.theirs.id.toNat = m.senderKeyid.toNat + 1 →
      s.keys.ours.acknowledged = m.receiverKeyid ∨ m.receiverKeyid.toNat = s.keys.ours.acknowledged.toNat + 1 →
      dataSecrets E (s.keys.ours.keys.get m.receiverKeyid) (s.keys.theirs.keys.get m.senderKeyid) = .ok sec →
      m.authenticator = E.hmacSha1 (sec.receiverMac E) ad → (∃ b ∈ m.authenticator, b ≠ 0) → beNat s.keys.theirCtr < beNat m.ctr →
      m.senderKeyid.toNat = 2 ^ 32 - 1 ∨ m.dhY = 0 → Fatal3 E m ad s

/-- The generator and modulus have no common factor. -/
def GoodGroup (G : DHGroup) : Prop := 1 < G.p ∧ Nat.gcd G.g G.p = 1

end Otrr.Spec
