import Verif.Spec.SessionData
import Verif.Spec.Data4
/-!
# Specification vocabulary for what happens in the course of a session
-/

namespace Otrr.Spec
open Otrr

/-- `Later E A s h s'`: from `s` on, the client went through the calls `h`, in this order, and is `s'` now.  As in `Hist`, the
calls, the network and the host are arbitrary, and no call panicked. -/
inductive Later (E : Env) (A : Account) (s : Session) : List Ev → Session → Prop
  | here : Later E A s [] s
  | step {h s' op c e} : Later E A s h s' → op.run E A c s' = e → e.result ≠ .panic →
      Later E A s (h ++ [⟨op, c, e.result, e.sent⟩]) e.after

/-- No new session with the instance `k` was reported. -/
def SameSession (k : UInt32) (h : List Ev) : Prop := ∀ e ∈ h, e.result ≠ .ok (.user (.sessionStarted k))

/-- The TLV `t` is the first message of the SMP, with the question `q`.  In OTRv3 a question has a type of its own and ends at the
first NUL. -/
def Asks (v : Version) (t : TLV) (q : Bytes) : Prop :=
  (v = .v3 ∧ (t.typ = 2 ∧ q = [] ∨ t.typ = 7 ∧ q = t.value.takeWhile (· != 0))) ∨
  (v = .v4 ∧ t.typ = 2 ∧ ∃ rest, t.value = wU32 (UInt32.ofNat q.length) ++ q ++ rest)

/-- In state `s` the user starts the SMP with the instance `k` in this call; or an authentic message of that instance brings the
first message of its SMP, and the user, asked for the secret with the question in it, gives one. -/
def Consents (E : Env) (A : Account) (s : Session) (k : UInt32) (e : Ev) : Prop :=
  (∃ secret question, e.op = .startSmp k secret question ∧ e.result = .ok .done) ∨
  (∃ payload m content tlvs t question secret, e.op = .receive payload ∧ Delivers E A s payload m ∧ m.sender = k ∧
    Decrypts E e.call m (stateOf s k) (.confidential content tlvs) ∧ t ∈ tlvs ∧ Asks m.version t question ∧
    e.call.secret question = some secret)

end Otrr.Spec
