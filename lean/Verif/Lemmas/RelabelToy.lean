import Verif.Spec.Relabel
import Verif.Lemmas.SessionMeetToy
import Verif.Lemmas.SessionMeetToy3
/-! Runs in which the network exchanges the tag of Bob and another tag in all messages. -/

namespace Otrr.Spec.ToyRelabel
open Otrr Otrr.Session Otrr.Spec.ToySession

def other : UInt32 := 0x103

/-- The message with the tags exchanged. -/
def swapped (t : Bytes) : Bytes :=
  match parse tinyEnv t with
  | .ok (.encoded m) => match serialize (.encoded { m with sender := rename 0x102 other m.sender, receiver := rename 0x102 other m.receiver }) with
    | .ok t' => t'
    | _ => []
  | _ => []

/-! OTRv3. -/
@[irreducible] def vb1 : Effect := (Op.receive query3).run tinyEnv acB (callB 1000 1) .new
@[irreducible] def va2 : Effect := (Op.receive (swapped (msg vb1))).run tinyEnv acA (callA 1000 2) .new
@[irreducible] def vb3 : Effect := (Op.receive (swapped (msg va2))).run tinyEnv acB (callB 1000 3) vb1.after
@[irreducible] def va4 : Effect := (Op.receive (swapped (msg vb3))).run tinyEnv acA (callA 1000 4) va2.after
@[irreducible] def vb5 : Effect := (Op.receive (swapped (msg va4))).run tinyEnv acB (callB 1000 5) vb3.after
@[irreducible] def vb6 : Effect := (Op.send 0x100 [104, 105]).run tinyEnv acB (callB 1000 6) vb5.after
@[irreducible] def va7 : Effect := (Op.receive (swapped (text vb6))).run tinyEnv acA (callA 1000 7) va4.after

/-! OTRv4. -/
@[irreducible] def wb1 : Effect := (Op.receive query4).run tinyEnv acB (meetB 5000 3) .new
@[irreducible] def wa2 : Effect := (Op.receive (swapped (msg wb1))).run tinyEnv acA (meetA 5000 8) .new
@[irreducible] def wb3 : Effect := (Op.receive (swapped (msg wa2))).run tinyEnv acB (meetB 5000 3) wb1.after
@[irreducible] def wa4 : Effect := (Op.receive (swapped (msg wb3))).run tinyEnv acA (meetA 5000 4) wa2.after
@[irreducible] def wb6 : Effect := (Op.send 0x100 [104, 105]).run tinyEnv acB (meetB 5000 6) wb3.after
@[irreducible] def wa7 : Effect := (Op.receive (swapped (text wb6))).run tinyEnv acA (meetA 5000 7) wa4.after

/-- The text has the message with the tags exchanged. -/
def isSwapped (t : Bytes) : Bool :=
  match parse tinyEnv t, parse tinyEnv (swapped t) with
  | .ok (.encoded m), .ok (.encoded m') => m' == { m with sender := rename 0x102 other m.sender, receiver := rename 0x102 other m.receiver }
  | _, _ => false

theorem isSwapped_ok {t : Bytes} (h : isSwapped t = true) : Relabelled tinyEnv 0x102 other t (swapped t) := by
  unfold isSwapped at h
  split at h
  · rename_i m m' h1 h2
    refine ⟨m, h1, ?_⟩
    rw [h2, eq_of_beq h]
  · cases h

theorem relabelled3 : (vb1.result = .ok (.user .none) ∧ va2.result = .ok (.user .none) ∧ vb3.result = .ok (.user .none) ∧
      va4.result = .ok (.user (.sessionStarted other)) ∧ vb5.result = .ok (.user (.sessionStarted 0x100)) ∧ va7.result = .err (.unreadableMessage other)) ∧
    (vb1.sent = [msg vb1] ∧ va2.sent = [msg va2] ∧ vb3.sent = [msg vb3] ∧ va4.sent = [msg va4] ∧ vb6.result = .ok (.texts [text vb6])) ∧
    (isSwapped (msg vb1) ∧ isSwapped (msg va2) ∧ isSwapped (msg vb3) ∧ isSwapped (msg va4) ∧ isSwapped (text vb6)) ∧
    va7.after.status 0x102 = none ∧ va7.after.status other = some .encrypted ∧ vb6.after.status 0x100 = some .encrypted := by
  decide +kernel

theorem relabelled4 : (wb1.result = .ok (.user .none) ∧ wa2.result = .ok (.user .none) ∧ wb3.result = .ok (.user (.sessionStarted 0x100)) ∧
      wa4.result = .ok (.user (.sessionStarted other)) ∧ wa7.result = .err (.unreadableMessage other)) ∧
    (wb1.sent = [msg wb1] ∧ wa2.sent = [msg wa2] ∧ wb3.sent = [msg wb3] ∧ wb6.result = .ok (.texts [text wb6])) ∧
    (isSwapped (msg wb1) ∧ isSwapped (msg wa2) ∧ isSwapped (msg wb3) ∧ isSwapped (text wb6)) ∧
    wa7.after.status 0x102 = none ∧ wa7.after.status other = some .encrypted ∧ wb6.after.status 0x100 = some .encrypted ∧
    signedTag tinyEnv (swapped (msg wb1)) = some 0x102 := by
  decide +kernel

end Otrr.Spec.ToyRelabel
