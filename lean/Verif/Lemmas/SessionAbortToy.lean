import Verif.Spec.SessionAbort
import Verif.Lemmas.SessionMeetToy
/-!
# Toy clients that abort the SMP
-/

namespace Otrr.Spec.ToySession
open Otrr Otrr.Spec

/-! Bob aborts the SMP in the OTRv4 session of the toy clients that met and talked, Alice in their OTRv3 session. -/
@[irreducible] def k16 : Effect := (Op.abortSmp 0x100).run tinyEnv acB (meetB 5000 5) k11.after
@[irreducible] def l17 : Effect := (Op.receive (msg k16)).run tinyEnv acA (meetA 5000 5) l10.after
@[irreducible] def k18 : Effect := (Op.receive (msg l17)).run tinyEnv acB (meetB 5000 18) k16.after
@[irreducible] def a16 : Effect := (Op.abortSmp 0x102).run tinyEnv acA (callA 1000 16) a4.after
@[irreducible] def b17 : Effect := (Op.receive (msg a16)).run tinyEnv acB (callB 1000 17) b5.after

/-- The condition on new keys, in a form that can be computed. -/
def freshAnswer (now : Nat) (a : PState) (text : Bytes) (a' : PState) : Bool :=
  match a, parse tinyEnv text, a' with
  | .encrypted4 x _, .ok (.encoded m), .encrypted4 x2 _ => match m.message with
    | .data4 d =>
      let r := (Enc4.handle tinyEnv d (authenticatorData4 4 m.sender m.receiver d) now x).2.ratchet
      !decide (r.next = .sender) || !decide (r.i.toNat % 3 = 0) || decide (x2.ratchet.shared.dh.pub ≠ r.shared.dh.pub)
    | _ => false
  | _, _, _ => false

theorem freshAnswer_of {c : Call} {s : Session} {k : UInt32} {text : Bytes} {e : Effect}
    (h : freshAnswer c.now (stateOf s k) text (stateOf e.after k) = true) : FreshAnswer tinyEnv c s k text e := by
  intro t s' ⟨m, hp, hd⟩ x1 m1 x2 m2 h1 h2 h3 h4
  unfold freshAnswer at h
  rw [hp, h2] at h
  rcases hd with ⟨x, smp, d, x', last, g1, _⟩ | ⟨x, smp, d, x', last, g1, g2, g3, g4, g5, g6⟩
  · rw [g1] at h; cases h
  · rw [g1] at h
    simp only [g3, g5] at h
    rw [h1] at g6
    cases last
    · simp only [if_false, Bool.false_eq_true] at g6
      cases g6
      simpa [h3, h4] using h
    · cases g6

theorem runAbort : (k16.result = .ok .done ∧ k16.sent = [msg k16] ∧ (msg k16).length < 2 ^ 32) ∧
    (l17.result = .ok (.user (.smpFailed 0x102)) ∧ l17.sent = [msg l17] ∧ (msg l17).length < 2 ^ 32) ∧
    freshSend 0x100 k11.after k16.after = true ∧
    freshAnswer (meetA 5000 5).now (stateOf l10.after 0x102) (msg k16) (stateOf l17.after 0x102) = true ∧
    k18.result = .ok (.user (.smpFailed 0x100)) ∧ k18.sent ≠ [] := by decide +kernel

theorem runAbort3 : a16.result = .ok .done ∧ a16.sent = [msg a16] ∧ (msg a16).length < 2 ^ 32 ∧
    b17.result = .ok (.user (.smpFailed 0x100)) := by decide +kernel

end Otrr.Spec.ToySession
