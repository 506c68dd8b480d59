import Verif.Lemmas.SessionToy
import Verif.Spec.SessionExchange3
/-! # Two toy clients that meet and talk with OTRv3, for the examples -/

namespace Otrr.Spec.ToySession
open Otrr Otrr.Spec

theorem dsaA : GoodDsa tinyEnv Props.ToyAke.alice := 
  ⟨let h := Props.ToyAke.good_alice.key; ⟨rfl, h.2, h.3, h.4, h.5, h.6⟩, Props.ToyAke.good_alice.sig, fun d => by simp [tinyEnv, toyEnv, DSAKeypair.sign, Props.ToyAke.alice]⟩
theorem dsaB : GoodDsa tinyEnv Props.ToyAke.bob := 
  ⟨let h := Props.ToyAke.good_bob.key; ⟨rfl, h.2, h.3, h.4, h.5, h.6⟩, Props.ToyAke.good_bob.sig, fun d => by simp [tinyEnv, toyEnv, DSAKeypair.sign, Props.ToyAke.bob]⟩

instance (k : Nat) : Decidable (InRange tinyEnv.dh k) := by unfold InRange; infer_instance

/-- The keys and the sizes of the exchange of the toy clients. -/
theorem draws3 : (InRange tinyEnv.dh (DH.Keypair.generate tinyEnv.dh (((callA 1000 2).rnd.sub 0).bytes [0] 192)).pub ∧
      anyNonzero (tinyEnv.sha256 (wMpi (DH.Keypair.generate tinyEnv.dh (((callA 1000 2).rnd.sub 0).bytes [0] 192)).pub)) = true) ∧
    (InRange tinyEnv.dh (DH.Keypair.generate tinyEnv.dh (((callB 1000 1).rnd.sub 0).bytes [0] 192)).pub ∧
      anyNonzero (tinyEnv.sha256 (wMpi (DH.Keypair.generate tinyEnv.dh (((callB 1000 1).rnd.sub 0).bytes [0] 192)).pub)) = true) ∧
    ((natToBE tinyEnv.dh.p).length < 2 ^ 31 ∧ (wPublicKey Props.ToyAke.alice.pk).length < 2 ^ 31 ∧ (wPublicKey Props.ToyAke.bob.pk).length < 2 ^ 31) ∧
    2 * (natToBE tinyEnv.dh.p).length + 2 * (wPublicKey Props.ToyAke.alice.pk).length + 300 ≤ 1000 ∧
    2 * (natToBE tinyEnv.dh.p).length + 2 * (wPublicKey Props.ToyAke.bob.pk).length + 300 ≤ 1000 := by decide +kernel

theorem toy_meet3 : CanMeet3 tinyEnv acA acB Props.ToyAke.alice Props.ToyAke.bob (callA 1000 2) (callB 1000 1) where
  curve := toy_goodCurve
  group := by constructor <;> decide
  small := draws3.2.2.1
  allow := ⟨by simp only [AllowsV3, PolicyBit]; decide, by simp only [AllowsV3, PolicyBit]; decide⟩
  tags := ⟨by decide, by decide⟩
  keys := ⟨dsaA, dsaB⟩
  drawA := ⟨draws3.1.1, anyNonzero_iff.mp draws3.1.2⟩
  drawB := ⟨draws3.2.1.1, anyNonzero_iff.mp draws3.2.1.2⟩
  room := ⟨draws3.2.2.2.1, draws3.2.2.2.2⟩

theorem readyA (n : Nat) : Ready3 tinyEnv Props.ToyAke.alice (callA 1000 n) := by
  refine ⟨by simp only [callA], ?_⟩
  unfold Roomy3
  simp only [callA]
  exact draws3.2.2.2.1
theorem readyB (n : Nat) : Ready3 tinyEnv Props.ToyAke.bob (callB 1000 n) := by
  refine ⟨by simp only [callB], ?_⟩
  unfold Roomy3
  simp only [callB]
  exact draws3.2.2.2.2

/-! After the exchange, Alice writes `hi`, Bob answers `ok`, and Alice writes `b`. -/
@[irreducible] def y6 : Effect := (Op.send 0x102 [104, 105]).run tinyEnv acA (callA 1000 6) a4.after
@[irreducible] def z7 : Effect := (Op.receive (text y6)).run tinyEnv acB (callB 1000 7) b5.after
@[irreducible] def z8 : Effect := (Op.send 0x100 [111, 107]).run tinyEnv acB (callB 1000 10) z7.after
@[irreducible] def y9 : Effect := (Op.receive (text z8)).run tinyEnv acA (callA 1000 11) y6.after
@[irreducible] def y10 : Effect := (Op.send 0x102 [98]).run tinyEnv acA (callA 1000 12) y9.after
@[irreducible] def z11 : Effect := (Op.receive (text y10)).run tinyEnv acB (callB 1000 13) z8.after

/-! After the exchange, Alice writes `hi` and `!`, Bob answers `ok`, and Alice writes `b`. -/
@[irreducible] def n8 : Effect := (Op.send 0x102 [33]).run tinyEnv acA (callA 1000 8) y6.after
@[irreducible] def o9 : Effect := (Op.receive (text n8)).run tinyEnv acB (callB 1000 9) z7.after
@[irreducible] def o10 : Effect := (Op.send 0x100 [111, 107]).run tinyEnv acB (callB 1000 10) o9.after
@[irreducible] def n11 : Effect := (Op.receive (text o10)).run tinyEnv acA (callA 1000 11) n8.after
@[irreducible] def n12 : Effect := (Op.send 0x102 [98]).run tinyEnv acA (callA 1000 12) n11.after
@[irreducible] def o13 : Effect := (Op.receive (text n12)).run tinyEnv acB (callB 1000 13) o10.after

/-- Is the authenticator of a message of the key exchange not zero? -/
def goodMac : Res MessageType → Bool
  | .ok (.encoded ⟨_, _, _, .revealSignature m⟩) => anyNonzero m.sigMac
  | .ok (.encoded ⟨_, _, _, .signature m⟩) => anyNonzero m.sigMac
  | _ => false

/-- There are no new OTRv4 keys to be generated. -/
def notV4 (k : UInt32) (s : Session) : Bool :=
  match stateOf s k with
  | .encrypted4 _ _ => false
  | _ => true

theorem fresh_notV4 {k : UInt32} {s s' : Session} (h : notV4 k s = true) : FreshSend k s s' := by
  intro y n y' n' h1
  unfold notV4 at h
  rw [h1] at h
  cases h

theorem runTalk3 : (b1.sent = [msg b1] ∧ a2.sent = [msg a2] ∧ b3.sent = [msg b3] ∧ a4.sent = [msg a4]) ∧
    goodMac (parse tinyEnv (msg b3)) = true ∧ goodMac (parse tinyEnv (msg a4)) = true ∧
    matchFragment query3 = false ∧ parse tinyEnv query3 = .ok (.query [.v3]) ∧
    (y6.result = .ok (.texts [text y6]) ∧ z8.result = .ok (.texts [text z8]) ∧ y10.result = .ok (.texts [text y10]) ∧
      n8.result = .ok (.texts [text n8]) ∧ o10.result = .ok (.texts [text o10]) ∧ n12.result = .ok (.texts [text n12])) ∧
    ((text y6).length < 2 ^ 32 ∧ (text z8).length < 2 ^ 32 ∧ (text y10).length < 2 ^ 32 ∧
      (text n8).length < 2 ^ 32 ∧ (text o10).length < 2 ^ 32 ∧ (text n12).length < 2 ^ 32) ∧
    (notV4 0x102 a4.after = true ∧ notV4 0x100 z7.after = true ∧ notV4 0x102 y9.after = true ∧
      notV4 0x102 y6.after = true ∧ notV4 0x100 o9.after = true ∧ notV4 0x102 n11.after = true) ∧
    o13.result = .err (.unreadableMessage 0x100) := by decide +kernel

end Otrr.Spec.ToySession
