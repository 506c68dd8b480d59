import Verif.Model.Account
import Verif.Spec.Session
import Verif.Spec.Messages
/-!
# Specification vocabulary for accounts
-/

namespace Otrr.Spec
open Otrr

/-- The key pairs of a host: OTRv4 key pairs made of some secrets, and possibly a DSA key pair that the DSA library accepts and
can use. -/
structure ProperHost (E : Env) (h : NewAccount) : Prop where
  identity : ∃ rk, h.identity = EdDSAKeyPair.generate E rk
  forging : ∃ rk, h.forging = (EdDSAKeyPair.generate E rk).pub
  keypair : ∀ k, h.keypair = some k → (∀ d, k.pk.validate E (k.sign E d) d = .ok ()) ∧ WfDsaKey E k.pk ∧ ∀ d, WfDsaSig (k.sign E d)

/-- The calls of the API of an account: `account.session(address)` alone or followed by a call on the session, and
`account.expire(timeout)`, during which each session has its own answers of the host. -/
inductive AccountOp
  | session (address : Bytes)
  | call (address : Bytes) (op : Op) (c : Call)
  | expire (timeout : Nat) (calls : Bytes → Call)

/-- What a call does: its result, the account after it, and the messages it injects, each with its address. -/
structure AccountEffect where
  result : Res Answer
  after : AccountState
  sent : List (Bytes × Bytes)

/-- The effect of a computation of the model. -/
def accPerform (f : AccM α) (g : α → Answer) (acc : AccountState) : AccountEffect :=
  match f ⟨acc, []⟩ with
  | (.ok a, w) => ⟨.ok (g a), w.st, w.sent⟩
  | (.err e, w) => ⟨.err e, w.st, w.sent⟩
  | (.panic, w) => ⟨.panic, w.st, w.sent⟩

/-- The effect of a call of the API. -/
def AccountOp.run (E : Env) (acc : AccountState) : AccountOp → AccountEffect
  | session a => ⟨.ok .done, acc.openSession a, []⟩
  | call a (.receive payload) c => accPerform (AccountState.onSession a fun A => Session.receive E A c payload) .user acc
  | call a (.send k content) c => accPerform (AccountState.onSession a fun A => Session.send E A c k content) .texts acc
  | call a (.initiate v k) c => accPerform (AccountState.onSession a fun A => Session.initiate E A c v k) .user acc
  | call a (.close k) c => accPerform (AccountState.onSession a fun A => Session.close E A c k) .user acc
  | call a .query _ => accPerform (AccountState.onSession a fun A => Session.query A) (fun _ => .done) acc
  | call a (.startSmp k secret question) c =>
    accPerform (AccountState.onSession a fun A => Session.startSmp E A c k secret question) (fun _ => .done) acc
  | call a (.abortSmp k) c => accPerform (AccountState.onSession a fun A => Session.abortSmp E A c k) (fun _ => .done) acc
  | call a (.expire timeout) c => accPerform (AccountState.onSession a fun A => Session.expire E A c timeout) (fun _ => .done) acc
  | expire timeout calls => accPerform (AccountState.expire E calls timeout) (fun _ => .done) acc

/-- A call in the history of an account, with what it returned and injected. -/
structure AccountEv where
  op : AccountOp
  result : Res Answer
  sent : List (Bytes × Bytes)

/-- `AccountHist E acc h acc'`: the account `acc` went through the calls `h`, in this order, and is `acc'` now.  No call
panicked. -/
inductive AccountHist (E : Env) (acc : AccountState) : List AccountEv → AccountState → Prop
  | start : AccountHist E acc [] acc
  | step {h acc' op e} : AccountHist E acc h acc' → op.run E acc' = e → e.result ≠ .panic →
      AccountHist E acc (h ++ [⟨op, e.result, e.sent⟩]) e.after

/-- The messages to one address. -/
def messagesTo (a : Bytes) (sent : List (Bytes × Bytes)) : List Bytes := (sent.filter (·.1 = a)).map (·.2)

/-- What the history of an account means for the session with address `a`: the calls made on it, and, since it was opened,
the expirations. -/
def historyOf (a : Bytes) (opened : Bool) : List AccountEv → List Ev
  | [] => []
  | ⟨.session b, _, _⟩ :: h => historyOf a (opened || b == a) h
  | ⟨.call b op c, r, sent⟩ :: h => if b = a then ⟨op, c, r, messagesTo a sent⟩ :: historyOf a true h else historyOf a opened h
  | ⟨.expire t calls, r, sent⟩ :: h =>
    if opened then ⟨.expire t, calls a, r, messagesTo a sent⟩ :: historyOf a opened h else historyOf a opened h

/-- The call opens the session with address `a`. -/
def Opens (a : Bytes) (ev : AccountEv) : Prop := ev.op = .session a ∨ ∃ op c, ev.op = .call a op c

/-- The session with address `a`; a session that was not opened is a new one. -/
def sessionOf (acc : AccountState) (a : Bytes) : Session := (lookup acc.sessions a).getD .new

end Otrr.Spec
