import Verif.Lemmas.SessionToy
import Verif.Spec.SessionIsolation
/-! # A concrete session with two instances of the peer, for the examples -/

namespace Otrr.Spec.ToySession
open Otrr Otrr.Spec

/-- The sender of an encoded message. -/
def senderOf (text : Bytes) : Option UInt32 :=
  match parse tinyEnv text with
  | .ok (.encoded m) => some m.sender
  | _ => .none

/-! In the middle of the key exchange with 0x102, Alice begins one with 0x103. -/
@[irreducible] def i3 : Effect := (Op.initiate .v3 0x103).run tinyEnv acA (callA 1000 9) a2.after
@[irreducible] def i4 : Effect := (Op.receive (msg b3)).run tinyEnv acA (callA 1000 4) i3.after

theorem isolation_run : i3.result = .ok (.user .none) ∧ i4.result = .ok (.user (.sessionStarted 0x102)) ∧
    i4.after.status 0x103 = some .plaintext ∧ matchFragment (msg b1) = false ∧ senderOf (msg b1) = some 0x102 ∧
    matchFragment (msg b3) = false ∧ senderOf (msg b3) = some 0x102 := by decide +kernel

/-- Messages that are not fragments are about their sender. -/
theorem touches_sender {A : Account} {s : Session} {text : Bytes} {k j : UInt32} (hf : matchFragment text = false)
    (hs : senderOf text = some k) (h : Touches tinyEnv A s j (.receive text)) : k = j := by
  have reads : ∀ {t}, Reads tinyEnv A s text t → t = text := by
    rintro t (⟨_, h⟩ | ⟨h, _⟩)
    · exact h
    · rw [hf] at h; cases h
  unfold senderOf at hs
  cases h with
  | fragment h1 => rw [hf] at h1; cases h1
  | message h1 h2 h3 =>
    cases reads h1
    rw [h2] at hs
    cases hs
    exact h3
  | query h1 h2 h3 =>
    cases reads h1
    rw [h2] at hs
    cases hs
  | tagged h1 h2 h3 =>
    cases reads h1
    rw [h2] at hs
    cases hs

/-- The conversation with 0x102, and instance 0. -/
def Ours (k : UInt32) : Prop := k = 0 ∨ k = 0x102

theorem apart_next {E : Env} {A : Account} {K : UInt32 → Prop} {h : List Ev} {s : Session} {op : Op} {c : Call} {e : Effect}
    (ha : Apart E A K h s) (he : e = op.run E A c s) (hp : e.result ≠ .panic)
    (hw : Within E A s K op ∨ Outside E A s K op) : ∃ h', Apart E A K h' e.after :=
  ⟨_, .step ha he.symm hp hw⟩

theorem apart_i3 : ∃ h, Apart tinyEnv acA Ours h i3.after := by
  obtain ⟨r3, r4, _, f1, s1, f3, s3⟩ := isolation_run
  obtain ⟨_, h2⟩ := apart_next (e := a2) (.new : Apart tinyEnv acA Ours [] .new) (by unfold a2; rfl) (by rw [a2_result]; nofun)
    (.inl fun k h => .inr (touches_sender f1 s1 h).symm)
  refine apart_next (e := i3) h2 (by unfold i3; rfl) (by rw [r3]; nofun) (.inr fun k h => ?_)
  cases h
  unfold Ours
  decide

theorem apart_i4 : ∃ h, Apart tinyEnv acA Ours h i4.after := by
  obtain ⟨r3, r4, _, f1, s1, f3, s3⟩ := isolation_run
  obtain ⟨_, h3⟩ := apart_i3
  exact apart_next (e := i4) h3 (by unfold i4; rfl) (by rw [r4]; nofun)
    (.inl fun k h => .inr (touches_sender f3 s3 h).symm)

end Otrr.Spec.ToySession
