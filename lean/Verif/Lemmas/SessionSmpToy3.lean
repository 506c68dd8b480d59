import Verif.Lemmas.SessionSmpToy
import Verif.Lemmas.SessionMeetToy3
import Verif.Spec.SessionSmp
/-! # Two toy clients that meet and run the SMP with OTRv3, for the examples -/

namespace Otrr.Spec.ToySession
open Otrr Otrr.Spec

theorem smpEnv_sign (k : DSAKeypair) (d : Bytes) : k.sign smpEnv d = k.sign tinyEnv d := by simp only [DSAKeypair.sign, smpEnv]
theorem smpEnv_verify : smpEnv.dsaVerify = tinyEnv.dsaVerify := by simp only [smpEnv]
theorem smpEnv_dh : smpEnv.dh = tinyEnv.dh := by simp only [smpEnv]

theorem good_smpEnv {k : DSAKeypair} (h : GoodDsa tinyEnv k) : GoodDsa smpEnv k :=
  ⟨⟨by simp only [smpEnv, tinyEnv, toyEnv], h.key.2, h.key.3, h.key.4, h.key.5, h.key.6⟩, fun d => by rw [smpEnv_sign]; exact h.sig d,
    fun d => by rw [smpEnv_sign, smpEnv_verify]; exact h.correct d⟩

/-- The hashes of the D-H keys are not zero. -/
theorem drawsSmp : anyNonzero (smpEnv.sha256 (wMpi (DH.Keypair.generate tinyEnv.dh (((callA 1000 2).rnd.sub 0).bytes [0] 192)).pub)) = true ∧
    anyNonzero (smpEnv.sha256 (wMpi (DH.Keypair.generate tinyEnv.dh (((callB 1000 1).rnd.sub 0).bytes [0] 192)).pub)) = true := by decide +kernel

theorem toy_meetSmp : CanMeet3 smpEnv acA acB Props.ToyAke.alice Props.ToyAke.bob (callA 1000 2) (callB 1000 1) where
  curve := by rw [show smpEnv.curve = toyEnv.curve by simp only [smpEnv, tinyEnv]]; exact toy_goodCurve
  group := by rw [smpEnv_dh]; exact toy_meet3.group
  small := by rw [smpEnv_dh]; exact draws3.2.2.1
  allow := toy_meet3.allow
  tags := toy_meet3.tags
  keys := ⟨good_smpEnv dsaA, good_smpEnv dsaB⟩
  drawA := by unfold GoodDraw3; rw [smpEnv_dh]; exact ⟨draws3.1.1, anyNonzero_iff.mp drawsSmp.1⟩
  drawB := by unfold GoodDraw3; rw [smpEnv_dh]; exact ⟨draws3.2.1.1, anyNonzero_iff.mp drawsSmp.2⟩
  room := by unfold Roomy3; rw [smpEnv_dh]; exact ⟨draws3.2.2.2.1, draws3.2.2.2.2⟩

theorem readySmpA (n : Nat) : Ready3 smpEnv Props.ToyAke.alice (callA 1000 n) :=
  ⟨(readyA n).1, by have := (readyA n).2; unfold Roomy3 at this ⊢; rw [smpEnv_dh]; exact this⟩
theorem readySmpB (n : Nat) : Ready3 smpEnv Props.ToyAke.bob (callB 1000 n) :=
  ⟨(readyB n).1, by have := (readyB n).2; unfold Roomy3 at this ⊢; rw [smpEnv_dh]; exact this⟩

instance (G : DHGroup) (v : Nat) : Decidable (Element G v) := by unfold Element; infer_instance
instance (G : DHGroup) (v : Nat) : Decidable (Exponent G v) := by unfold Exponent; infer_instance
instance (G : DHGroup) (l : List Nat) : Decidable (Proper1 G l) := by unfold Proper1; split <;> infer_instance
instance (G : DHGroup) (l : List Nat) : Decidable (Proper2 G l) := by unfold Proper2; split <;> infer_instance
instance (G : DHGroup) (l : List Nat) : Decidable (Proper3 G l) := by unfold Proper3; split <;> infer_instance
instance (G : DHGroup) (l : List Nat) : Decidable (Proper4 G l) := by unfold Proper4; split <;> infer_instance

/-- The check of the numbers in a decrypted message. -/
def numbersOk (P : List Nat → Bool) : Res (PMessage × Bool) → Bool
  | .ok (.confidential _ [t], _) =>
    match numbers t with
    | .ok v => P v
    | _ => true
  | _ => true

/-- The check of the numbers in a text. -/
def textOk (E : Env) (c : Call) (s : PState) (text : Bytes) (P : List Nat → Bool) : Bool :=
  match s, parsed E text with
  | .encrypted3 x _, some ⟨_, a, b, .data d⟩ => numbersOk P (Enc3.handle E d (authenticatorData 3 a b d) (c.rnd.bytes [0] 192) x).1
  | .encrypted4 _ _, _ => false
  | _, _ => true

theorem textOk_numbers {E : Env} {c : Call} {s : Session} {k : UInt32} {text : Bytes} {P : List Nat → Prop} [DecidablePred P]
    (h : textOk E c (stateOf s k) text (fun v => decide (P v)) = true) : Numbers3 E c s k text P := by
  rintro t s' v ⟨m, hp, hd⟩ hv
  have hq : parsed E text = some m := by unfold parsed; rw [hp]
  rcases hd with ⟨x, smp, d, x', last, h1, h2, h3, h4, h5⟩ | ⟨x, smp, d, x', last, h1, _⟩
  · obtain ⟨ver, a, b, msg⟩ := m
    simp only at h2 h3 h4
    subst h2 h3
    unfold textOk at h
    rw [h1, hq] at h
    simp only [h4, numbersOk, hv] at h
    exact of_decide_eq_true h
  · unfold textOk at h
    rw [h1, hq] at h
    simp at h

set_option maxRecDepth 100000 in
theorem runSmpTalk : (g1.sent = [msg g1] ∧ h2.sent = [msg h2] ∧ g3.sent = [msg g3] ∧ h4.sent = [msg h4] ∧
      h6.sent = [msg h6] ∧ g7.sent = [msg g7] ∧ h8.sent = [msg h8] ∧ g9.sent = [msg g9]) ∧
    goodMac (parse smpEnv (msg g3)) = true ∧ goodMac (parse smpEnv (msg h4)) = true ∧
    parse smpEnv query3 = .ok (.query [.v3]) ∧
    ((msg h6).length < 2 ^ 32 ∧ (msg g7).length < 2 ^ 32 ∧ (msg h8).length < 2 ^ 32 ∧ (msg g9).length < 2 ^ 32) ∧
    textOk smpEnv (callB 1000 4) (stateOf g5.after 0x100) (msg h6) (fun v => decide (Proper1 smpEnv.dh v)) = true ∧
    textOk smpEnv (callA 1000 1) (stateOf h6.after 0x102) (msg g7) (fun v => decide (Proper2 smpEnv.dh v)) = true ∧
    textOk smpEnv (callB 1000 1) (stateOf g7.after 0x100) (msg h8) (fun v => decide (Proper3 smpEnv.dh v)) = true ∧
    textOk smpEnv (callA 1000 12) (stateOf h8.after 0x102) (msg g9) (fun v => decide (Proper4 smpEnv.dh v)) = true := by decide +kernel

end Otrr.Spec.ToySession
