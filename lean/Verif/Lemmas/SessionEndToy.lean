import Verif.Spec.SessionEnd
import Verif.Lemmas.SessionMeetToy
/-!
# Toy clients that end their session
-/

namespace Otrr.Spec.ToySession
open Otrr Otrr.Spec

/-! Bob ends the session of the toy clients that met and talked, or it expires. -/
@[irreducible] def k12 : Effect := (Op.close 0x100).run tinyEnv acB (meetB 5000 12) k11.after
@[irreducible] def l13 : Effect := (Op.receive (msg k12)).run tinyEnv acA (meetA 5000 13) l10.after
@[irreducible] def k14 : Effect := (Op.expire 0).run tinyEnv acB (meetB 5000 14) k11.after
@[irreducible] def l15 : Effect := (Op.receive (msg k14)).run tinyEnv acA (meetA 5000 15) l10.after

/-- The condition on new keys, in a form that can be computed. -/
def freshGoodbye (a : PState) (text : Bytes) : Bool :=
  match a, parse tinyEnv text with
  | .encrypted4 x _, .ok (.encoded m) => match m.message with
    | .data4 d => decide (x.ratchet.next = .sender → some x.ratchet.shared.dh.pub ≠ d.dh)
    | _ => false
  | _, _ => false

theorem freshGoodbye_of {a : PState} {text : Bytes} (h : freshGoodbye a text = true) : FreshGoodbye tinyEnv a text := by
  intro x smp m d v h1 h2 h3 h4 h5 h6
  subst h1
  unfold freshGoodbye at h
  rw [h3] at h
  simp only [h4, decide_eq_true_eq] at h
  exact h h2 (by rw [h5, h6])

theorem runEnd : (k12.result = .ok (.user (.reset 0x100)) ∧ k12.sent = [msg k12] ∧ (msg k12).length < 2 ^ 32) ∧
    (k14.result = .ok .done ∧ k14.sent = [msg k14] ∧ (msg k14).length < 2 ^ 32) ∧
    freshGoodbye (stateOf k11.after 0x100) (msg k12) = true ∧ freshGoodbye (stateOf k11.after 0x100) (msg k14) = true := by decide +kernel

/-- Alice ends an OTRv3 session. -/
theorem runEnd3 : a8.sent = [msg a8] ∧ (msg a8).length < 2 ^ 32 := by decide +kernel

end Otrr.Spec.ToySession
