import Verif.Spec.Session
import Verif.Spec.Account
/-! # The order of the instances of a session

The code keeps the instances of a session in a `HashMap`, and the model in a list.  The code goes through the map in an order that nothing is
known about (src/session.rs 176-196, 557-566). -/

namespace Otrr.Spec
open Otrr

/-- The same session, with its instances in another order. -/
def Reordered (s s' : Session) : Prop := s.instances.Perm s'.instances ∧ s.tagged = s'.tagged

/-- As `Hist`, but at any time the instances are put in any order. -/
inductive AnyOrder (E : Env) (A : Account) : List Ev → Session → Prop
  | new : AnyOrder E A [] .new
  | step {h s op c e} : AnyOrder E A h s → op.run E A c s = e → e.result ≠ .panic →
      AnyOrder E A (h ++ [⟨op, c, e.result, e.sent⟩]) e.after
  | reorder {h s s'} : AnyOrder E A h s → Reordered s s' → AnyOrder E A h s'

/-- The same call with the same result and messages.  When sessions expire, the messages may be in another order, and each was made with the
random numbers of its instance. -/
inductive SameEv : Ev → Ev → Prop
  | same (e : Ev) : SameEv e e
  | expire (timeout : Nat) (c : Call) (rnd : Rand) (result : Res Answer) {sent sent' : List Bytes} : sent.Perm sent' →
      SameEv ⟨.expire timeout, c, result, sent⟩ ⟨.expire timeout, { c with rnd := rnd }, result, sent'⟩

/-! The OTRv4 messages of which only some fragments arrived are in a `HashMap`, too. -/

/-- The same unfinished messages, in another order. -/
def ReorderedParts (a b : Unordered) : Prop := a.store.Perm b.store ∧ a.tick = b.tick

/-- Fragments are collected, and each time there is a result.  At any time the unfinished messages are put in any order. -/
inductive Collects : List (Fragment × AsmRes) → Unordered → Prop
  | new : Collects [] .new
  | step {h a f} : Collects h a → (a.assemble f).1 ≠ .panic → Collects (h ++ [(f, (a.assemble f).1)]) (a.assemble f).2
  | reorder {h a b} : Collects h a → ReorderedParts a b → Collects h b

/-- The same in the order of the model. -/
inductive CollectsInOrder : List (Fragment × AsmRes) → Unordered → Prop
  | new : CollectsInOrder [] .new
  | step {h a f} : CollectsInOrder h a → (a.assemble f).1 ≠ .panic → CollectsInOrder (h ++ [(f, (a.assemble f).1)]) (a.assemble f).2

/-! And so are the sessions of an account. -/

/-- The same account, with its sessions in another order. -/
def ReorderedAccount (acc acc' : AccountState) : Prop := acc.sessions.Perm acc'.sessions ∧
  acc.policy = acc'.policy ∧ acc.tag = acc'.tag ∧ acc.name = acc'.name ∧ acc.profile = acc'.profile

end Otrr.Spec
