import Verif.Spec.SessionCrash
/-!
# Specification vocabulary for crashes of the calls of the user
-/

namespace Otrr.Spec
open Otrr

/-- The bytes of a fragment that are not used for the text. -/
def overhead : Version → Nat
  | .v3 => 36
  | _ => 45

/-- A text that a host with messages of `size` bytes takes whole, or in at most 65535 fragments of this version. -/
def Fits (v : Version) (size : Nat) (t : Bytes) : Prop :=
  t.length ≤ size ∨ overhead v < size ∧ t.length ≤ 65535 * (size - overhead v)

/-- A session in a given state cannot send this plaintext to the instance `k`: it cannot be encrypted, or the host does not take the
data message, not even in fragments. -/
inductive Unsent (E : Env) (A : Account) (c : Call) (k : UInt32) (flags : UInt8) (plain : Bytes) (rnd : Rand) : PState → Prop
  | stuck3 {x smp} : Stuck3 E x flags plain → Unsent E A c k flags plain rnd (.encrypted3 x smp)
  | stuck4 {x smp} : Stuck4 E x.our x.their flags plain rnd c.now x.ratchet → Unsent E A c k flags plain rnd (.encrypted4 x smp)
  | long3 {x smp d x' text} : Enc3.encrypt E flags plain x = (.ok d, x') → serialize (.encoded ⟨.v3, A.tag, k, .data d⟩) = .ok text →
      ¬ Fits .v3 c.messageSize text → Unsent E A c k flags plain rnd (.encrypted3 x smp)
  | long4 {x smp d x' text} : Enc4.encrypt E flags plain rnd c.now x = (.ok d, x') → serialize (.encoded ⟨.v4, A.tag, k, .data4 d⟩) = .ok text →
      ¬ Fits .v4 c.messageSize text → Unsent E A c k flags plain rnd (.encrypted4 x smp)

/-- A session in a given state cannot tell the instance `k` that it ends: the empty TLV "disconnected" (type 1) cannot be encrypted, or the
host does not take the data message, not even in fragments. -/
inductive NoFarewell (E : Env) (A : Account) (c : Call) (k : UInt32) (rnd : Rand) : PState → Prop
  | stuck3 {x smp} : Stuck3 E x 1 [0, 0, 1, 0, 0] → NoFarewell E A c k rnd (.encrypted3 x smp)
  | stuck4 {x smp} : Stuck4 E x.our x.their 1 [0, 0, 1, 0, 0] rnd c.now x.ratchet → NoFarewell E A c k rnd (.encrypted4 x smp)
  | long3 {x smp d x' text} : Enc3.encrypt E 1 [0, 0, 1, 0, 0] x = (.ok d, x') → serialize (.encoded ⟨.v3, A.tag, k, .data d⟩) = .ok text →
      ¬ Fits .v3 c.messageSize text → NoFarewell E A c k rnd (.encrypted3 x smp)
  | long4 {x smp d x' text} : Enc4.disconnect E rnd c.now x = (.ok d, x') → serialize (.encoded ⟨.v4, A.tag, k, .data4 d⟩) = .ok text →
      ¬ Fits .v4 c.messageSize text → NoFarewell E A c k rnd (.encrypted4 x smp)

/-- Why a call of the user crashes. -/
inductive CallCrash (E : Env) (A : Account) (c : Call) (s : Session) : Op → Prop
  /-- A key exchange is started for something else than OTRv3 or OTRv4. -/
  | version {v k} : v ≠ .v3 → v ≠ .v4 → CallCrash E A c s (.initiate v k)
  /-- The first message of the key exchange, which every host whose messages are long enough gets as one text, does not fit in fragments, or
  has to be fragmented while the instance tag is not a permitted one. -/
  | offer {v k t} : v = .v3 ∨ v = .v4 → (∀ n, t.length ≤ n → ((Op.initiate v k).run E A (c.sized n) s).sent = [t]) →
      ¬ Fits v c.messageSize t ∨ c.messageSize < t.length ∧ ¬ ValidTag k → CallCrash E A c s (.initiate v k)
  /-- The message of the user cannot be sent. -/
  | send {k content} : SomeVersion A → Unsent E A c k 0 (noNul content) (c.rnd.sub 0) (stateOf s k) → CallCrash E A c s (.send k content)
  /-- The end of the session cannot be sent. -/
  | close {k} : NoFarewell E A c k (c.rnd.sub 0) (stateOf s k) → CallCrash E A c s (.close k)
  /-- The SMP is started in OTRv3, and the client has no DSA key. -/
  | smpKey {k secret question x smp} : stateOf s k = .encrypted3 x smp → ¬ SmpBusy (stateOf s k) → c.keypair = .none →
      CallCrash E A c s (.startSmp k secret question)
  /-- The SMP is started in OTRv4, and one of the first two random numbers is a multiple of the order of the group. -/
  | smpDraw {k secret question x smp} : stateOf s k = .encrypted4 x smp → ¬ SmpBusy (stateOf s k) →
      SMP4.random E (c.rnd.sub 0) 0 % E.curve.q = 0 ∨ SMP4.random E (c.rnd.sub 0) 1 % E.curve.q = 0 →
      CallCrash E A c s (.startSmp k secret question)
  /-- The first message of the SMP is too long for a TLV, or cannot be sent. -/
  | startSmp {k secret question t st} : SmpStarts E c secret question (stateOf s k) t st →
      65535 < t.value.length ∨ Unsent E A c k 1 (onlyTlv t) ((c.rnd.sub 1).sub 0) st → CallCrash E A c s (.startSmp k secret question)
  /-- The empty TLV (type 6) that aborts the SMP cannot be sent. -/
  | abortSmp {k st} : SmpAborts (stateOf s k) st → Unsent E A c k 1 [0, 0, 6, 0, 0] ((c.rnd.sub 1).sub 0) st → CallCrash E A c s (.abortSmp k)
  /-- The end of an old session cannot be sent. -/
  | expire {timeout n k i} : s.instances[n]? = some (k, i) → Old timeout c.now i → NoFarewell E A c k ((c.rnd.sub n).sub 0) i.state →
      CallCrash E A c s (.expire timeout)

end Otrr.Spec
