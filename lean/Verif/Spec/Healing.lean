import Verif.Spec.ForwardSecrecy
/-! # How a session recovers from a theft of its keys -/

namespace Otrr.Spec
open Otrr

/-- As `Log4`: from the session state `s₁`, messages were sent and accepted, which led to `s`; `rs` are the sources from which random bytes
were drawn for the messages that were sent. -/
inductive LogDrawn (E : Env) (s₁ : Enc4) : List Use4 → List Rand → Enc4 → Prop
  | start : LogDrawn E s₁ [] [] s₁
  | send {us rs s s' flags plain rnd now m} : LogDrawn E s₁ us rs s → Enc4.encrypt E flags plain rnd now s = (.ok m, s') →
      LogDrawn E s₁ (us ++ [.sent m plain]) (rs ++ [rnd]) s'
  | bye {us rs s s' rnd now m} : LogDrawn E s₁ us rs s → Enc4.disconnect E rnd now s = (.ok m, s') →
      LogDrawn E s₁ (us ++ [.sent m disconnectPlain]) (rs ++ [rnd]) s'
  | refuse {us rs s s' m ad now t} : LogDrawn E s₁ us rs s → Enc4.handle E m ad now s = (.err (.unreadableMessage t), s') →
      LogDrawn E s₁ us rs s'
  | accept {us rs s s' m ad now r} : LogDrawn E s₁ us rs s → Enc4.handle E m ad now s = (r, s') → r ≠ .panic →
      (∀ t, r ≠ .err (.unreadableMessage t)) → LogDrawn E s₁ (us ++ [.read m ad r]) rs s'

/-- The next ratchet that the client itself begins: now, if it accepted a message of the newest ratchet; otherwise after the next ratchet of
the peer. -/
def nextOwn (d : DoubleRatchet) : Nat := if d.next = .sender then d.i.toNat + 1 else d.i.toNat + 2

/-- The secret that is mixed in with ratchet `n` comes from a key agreement with a key pair that the client generated from random bytes drawn
from one of these sources. -/
def Renewed (E : Env) (rs : List Rand) (ks : List Bytes) (n : Nat) : Prop :=
  ∃ r ∈ rs, ∃ (theirs : Point) (brace : Bytes),
    ks[n]? = some (kdf2 E 64 0x03 ((ECDHKeyPair.generate E (r.bytes [1] 57)).sharedSecret E theirs).encode brace)

end Otrr.Spec
