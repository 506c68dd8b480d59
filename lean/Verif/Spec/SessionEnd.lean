import Verif.Spec.SessionSmp
/-!
# Specification vocabulary for a session that one of two clients ends
-/

namespace Otrr.Spec
open Otrr

/-- If the client in the OTRv4 state `a` generated a new D-H key pair for the data message in this text, then the new public key differs from the
old one. -/
def FreshGoodbye (E : Env) (a : PState) (text : Bytes) : Prop :=
  ∀ x smp m d v, a = .encrypted4 x smp → x.ratchet.next = .sender → parse E text = .ok (.encoded m) → m.message = .data4 d → d.dh = some v →
    v ≠ x.ratchet.shared.dh.pub

/-- What a client does that learns, in the call with effect `e`, that the instance `k` ended the session: it reports this, sends nothing, and from
then on refuses to send, until the session is ended on this side too; that sends nothing either. -/
structure Learns (E : Env) (R : Account) (k : UInt32) (e : Effect) : Prop where
  told : e.result = .ok (.user (.sessionFinished k []))
  silent : e.sent = []
  finished : e.after.status k = some .finished
  refuses : ∀ c content, (Op.send k content).run E R c e.after = ⟨.err .incorrectState, e.after, []⟩
  ends : ∀ c, ((Op.close k).run E R c e.after).result = .ok (.user (.reset k)) ∧ ((Op.close k).run E R c e.after).sent = [] ∧
    ((Op.close k).run E R c e.after).after.status k = some .plaintext

end Otrr.Spec
