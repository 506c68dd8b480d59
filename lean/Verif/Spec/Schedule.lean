import Verif.Spec.Data4
/-!
# The key schedule of OTRv4, and what a session did with the keys

The double ratchet of the OTRv4 specification, as a function of the secret of the key exchange and of the list of secrets that were
mixed in, one for each ratchet.  A key is known by its position: the number of its ratchet, and the number of the message in it.
-/

namespace Otrr.Spec
open Otrr

/-- What is hashed to derive a key of the given usage. -/
def kdfInput (usage : UInt8) (d : Bytes) : Bytes := [0x4f, 0x54, 0x52, 0x76, 0x34] ++ [usage] ++ d

/-- The root key after the secrets `ks`; `k` is the secret of the key exchange. -/
def rootKey (E : Env) (k : Bytes) (ks : List Bytes) : Bytes :=
  ks.foldl (fun root s => E.shake 64 (kdfInput 0x12 (root ++ s))) (E.shake 64 (kdfInput 0x0b k))

/-- The chain keys of ratchet `n`. -/
def chainKey (E : Env) (k : Bytes) (ks : List Bytes) (n : Nat) : Nat → Bytes
  | 0 => E.shake 64 (kdfInput 0x13 (rootKey E k (ks.take n) ++ ks.getD n []))
  | j + 1 => E.shake 64 (kdfInput 0x14 (chainKey E k ks n j))

/-- The key of the message at a position. -/
def messageKey (E : Env) (k : Bytes) (ks : List Bytes) (p : Nat × Nat) : Bytes := E.shake 64 (kdfInput 0x15 (chainKey E k ks p.1 p.2))

/-- The MAC key of the message at a position. -/
def macKey (E : Env) (k : Bytes) (ks : List Bytes) (p : Nat × Nat) : Bytes := E.shake 64 (kdfInput 0x16 (messageKey E k ks p))

/-- All that is hashed for these keys, for messages with numbers up to `J`. -/
def hashed (E : Env) (k : Bytes) (ks : List Bytes) (J : Nat) : List Bytes :=
  kdfInput 0x0b k :: (List.range ks.length).flatMap fun n =>
    let d := rootKey E k (ks.take n) ++ ks.getD n []
    kdfInput 0x12 d :: kdfInput 0x13 d :: (List.range (J + 1)).flatMap fun j =>
      [kdfInput 0x14 (chainKey E k ks n j), kdfInput 0x15 (chainKey E k ks n j), kdfInput 0x16 (messageKey E k ks (n, j))]

/-- The hash function maps no two of these inputs to values that agree in the first 32 bytes. -/
def NoCollision (E : Env) (xs : List Bytes) : Prop := ∀ x ∈ xs, ∀ y ∈ xs, (E.shake 64 x).take 32 = (E.shake 64 y).take 32 → x = y

/-- What a session did with a key: it sent a message with this plaintext; or it accepted a message with this authenticated header, with
this result. -/
inductive Use4
  | sent (m : DataMessage4) (plain : Bytes)
  | read (m : DataMessage4) (authData : Bytes) (r : Res (PMessage × Bool))

/-- `Log4 E s₀ us s`: from the session state `s₀`, messages were sent and accepted in this order, which led to `s`.  Whatever the network
delivers may be received, any number of times; a message that is reported as unreadable is not accepted. -/
inductive Log4 (E : Env) (s₀ : Enc4) : List Use4 → Enc4 → Prop
  | start : Log4 E s₀ [] s₀
  | send {us s s' flags plain rnd now m} : Log4 E s₀ us s → Enc4.encrypt E flags plain rnd now s = (.ok m, s') →
      Log4 E s₀ (us ++ [.sent m plain]) s'
  | bye {us s s' rnd now m} : Log4 E s₀ us s → Enc4.disconnect E rnd now s = (.ok m, s') →
      Log4 E s₀ (us ++ [.sent m disconnectPlain]) s'
  | refuse {us s s' m ad now t} : Log4 E s₀ us s → Enc4.handle E m ad now s = (.err (.unreadableMessage t), s') → Log4 E s₀ us s'
  | accept {us s s' m ad now r} : Log4 E s₀ us s → Enc4.handle E m ad now s = (r, s') → r ≠ .panic →
      (∀ t, r ≠ .err (.unreadableMessage t)) → Log4 E s₀ (us ++ [.read m ad r]) s'

/-- The message was encrypted and authenticated, or verified and decrypted, with the keys at this position. -/
def KeyedAt (E : Env) (k : Bytes) (ks : List Bytes) (s₀ : Enc4) : Use4 → Nat × Nat → Prop
  | .sent m plain, p => m.i.toNat = p.1 - 1 ∧ m.j.toNat = p.2 ∧
      m.encrypted = chachaCrypt E ((messageKey E k ks p).take 32) plain ∧
      m.authenticator = kdf2 E 64 0x18 (macKey E k ks p) (authenticatorData4 4 s₀.our s₀.their m)
  | .read m ad r, p => m.j.toNat = p.2 ∧ m.authenticator = kdf2 E 64 0x18 (macKey E k ks p) ad ∧
      match parseMessage (chachaCrypt E ((messageKey E k ks p).take 32) m.encrypted) with
      | .ok (.confidential c t) => r = .ok (.confidential c t, false)
      | .ok (.confidentialFinished c) => r = .ok (.confidentialFinished c, true)
      | .err e => r = .err e
      | .panic => False

/-- The message that was accepted, with its authenticated header. -/
def readOf : Use4 → Option (DataMessage4 × Bytes)
  | .sent _ _ => none
  | .read m ad _ => some (m, ad)

/-- The message that was sent. -/
def sentOf : Use4 → Option DataMessage4
  | .sent m _ => some m
  | .read _ _ _ => none

/-- Of the positions those of the messages that were accepted. -/
def readAt (us : List Use4) (ps : List (Nat × Nat)) : List (Nat × Nat) :=
  (us.zip ps).filterMap fun x => match x.1 with
    | .sent _ _ => none
    | .read _ _ _ => some x.2

/-- The MAC keys that were revealed. -/
def revealedBy (us : List Use4) : Bytes := (us.map fun u => match u with | .sent m _ => m.revealed | .read _ _ _ => []).flatten

end Otrr.Spec
