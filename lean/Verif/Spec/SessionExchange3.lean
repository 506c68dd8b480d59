import Verif.Spec.SessionFragments
import Verif.Spec.SessionExchange
import Verif.Spec.Ake
import Verif.Spec.Data3
/-!
# Specification vocabulary for two clients that talk to each other with OTRv3
-/

namespace Otrr.Spec
open Otrr

/-- The host passes on texts that are large enough for the messages of an OTRv3 key exchange, which contain at most one number
modulo `p`, or the long-term public key of the client. -/
def Roomy3 (E : Env) (key : DSAKeypair) (c : Call) : Prop :=
  2 * (natToBE E.dh.p).length + 2 * (wPublicKey key.pk).length + 300 ≤ c.messageSize

/-- The D-H key pair generated from these bytes is acceptable, and the hash of its public key is not zero. -/
def GoodDraw3 (E : Env) (bytes : Bytes) : Prop :=
  InRange E.dh (DH.Keypair.generate E.dh bytes).pub ∧ ∃ b ∈ E.sha256 (wMpi (DH.Keypair.generate E.dh bytes).pub), b ≠ 0

/-- Two clients that can run the OTRv3 key exchange with each other: the policies allow OTRv3, the tags are valid, and both have
long-term keys that work.  `cB` is the call in which Bob begins, `cA` that in which Alice answers: the key pairs that they generate
are acceptable, and their messages need no fragments. -/
structure CanMeet3 (E : Env) (A B : Account) (keyA keyB : DSAKeypair) (cA cB : Call) : Prop where
  curve : GoodCurve E.curve
  group : GoodGroup E.dh
  small : (natToBE E.dh.p).length < 2 ^ 31 ∧ (wPublicKey keyA.pk).length < 2 ^ 31 ∧ (wPublicKey keyB.pk).length < 2 ^ 31
  allow : AllowsV3 A ∧ AllowsV3 B
  tags : 0x100 ≤ A.tag ∧ 0x100 ≤ B.tag
  keys : GoodDsa E keyA ∧ GoodDsa E keyB
  drawA : GoodDraw3 E ((cA.rnd.sub 0).bytes [0] 192)
  drawB : GoodDraw3 E ((cB.rnd.sub 0).bytes [0] 192)
  room : Roomy3 E keyA cA ∧ Roomy3 E keyB cB

/-- In this call the host provides this long-term key, and passes on texts that are large enough. -/
def Ready3 (E : Env) (key : DSAKeypair) (c : Call) : Prop := c.keypair = some key ∧ Roomy3 E key c

/-- The session with this instance is not an encrypted OTRv4 session.  (In such a session, the OTRv3 key exchange makes the client
crash, see C27.) -/
def NotV4 (s : Session) (k : UInt32) : Prop := ∀ x m, stateOf s k ≠ .encrypted4 x m

/-- Alice (session `sA`) and Bob (session `sB`) have an OTRv3 session with each other, with the same SSID, and every data message so
far was delivered or lost; and the states of the two sessions are related by `P`. -/
def Connected3 (E : Env) (A B : Account) (P : Enc3 → Enc3 → Prop) (sA sB : Session) : Prop :=
  ∃ xA mA xB mB ssid, stateOf sA B.tag = .encrypted3 xA mA ∧ stateOf sB A.tag = .encrypted3 xB mB ∧
    Session.ssid sA B.tag = .ok ssid ∧ Session.ssid sB A.tag = .ok ssid ∧
    xA.our = A.tag ∧ xA.their = B.tag ∧ xB.our = B.tag ∧ xB.their = A.tag ∧ Reach3 E ⟨xA, xB, [], []⟩ ∧ P xA xB

/-- Whoever sends first: the key exchange was just completed, or both took turns since. -/
def Either3 (E : Env) (a b : Enc3) : Prop := Turns3 E a b ∧ Turns3 E b a

/-- The users take turns. -/
def Alternate : List Turn → Prop
  | t :: u :: ts => t.alice ≠ u.alice ∧ Alternate (u :: ts)
  | _ => True

end Otrr.Spec
