import Verif.Lemmas.SessionMeetToy
import Verif.Lemmas.SessionMeetToy3
/-! # Two toy clients that begin a key exchange with each other at the same time, for the examples -/

namespace Otrr.Spec.ToySession
open Otrr Otrr.Spec

/-! ## OTRv3 -/

theorem crossDraws3 : ((InRange tinyEnv.dh (DH.Keypair.generate tinyEnv.dh (((callA 1000 11).rnd.sub 0).bytes [0] 192)).pub ∧
      anyNonzero (tinyEnv.sha256 (wMpi (DH.Keypair.generate tinyEnv.dh (((callA 1000 11).rnd.sub 0).bytes [0] 192)).pub)) = true) ∧
    (InRange tinyEnv.dh (DH.Keypair.generate tinyEnv.dh (((callA 1000 13).rnd.sub 0).bytes [0] 192)).pub ∧
      anyNonzero (tinyEnv.sha256 (wMpi (DH.Keypair.generate tinyEnv.dh (((callA 1000 13).rnd.sub 0).bytes [0] 192)).pub)) = true)) ∧
    (InRange tinyEnv.dh (DH.Keypair.generate tinyEnv.dh (((callB 1000 12).rnd.sub 0).bytes [0] 192)).pub ∧
      anyNonzero (tinyEnv.sha256 (wMpi (DH.Keypair.generate tinyEnv.dh (((callB 1000 12).rnd.sub 0).bytes [0] 192)).pub)) = true) ∧
    (InRange tinyEnv.dh (DH.Keypair.generate tinyEnv.dh (((callB 1000 14).rnd.sub 0).bytes [0] 192)).pub ∧
      anyNonzero (tinyEnv.sha256 (wMpi (DH.Keypair.generate tinyEnv.dh (((callB 1000 14).rnd.sub 0).bytes [0] 192)).pub)) = true) := by decide +kernel

theorem cross_meetA : CanMeet3 tinyEnv acA acB Props.ToyAke.alice Props.ToyAke.bob (callA 1000 13) (callB 1000 12) where
  curve := toy_goodCurve
  group := toy_meet3.group
  small := draws3.2.2.1
  allow := toy_meet3.allow
  tags := toy_meet3.tags
  keys := ⟨dsaA, dsaB⟩
  drawA := ⟨crossDraws3.1.2.1, anyNonzero_iff.mp crossDraws3.1.2.2⟩
  drawB := ⟨crossDraws3.2.1.1, anyNonzero_iff.mp crossDraws3.2.1.2⟩
  room := ⟨(readyA 13).2, (readyB 12).2⟩

theorem cross_meetB : CanMeet3 tinyEnv acB acA Props.ToyAke.bob Props.ToyAke.alice (callB 1000 14) (callA 1000 11) where
  curve := toy_goodCurve
  group := toy_meet3.group
  small := ⟨draws3.2.2.1.1, draws3.2.2.1.2.2, draws3.2.2.1.2.1⟩
  allow := ⟨toy_meet3.allow.2, toy_meet3.allow.1⟩
  tags := ⟨toy_meet3.tags.2, toy_meet3.tags.1⟩
  keys := ⟨dsaB, dsaA⟩
  drawA := ⟨crossDraws3.2.2.1, anyNonzero_iff.mp crossDraws3.2.2.2⟩
  drawB := ⟨crossDraws3.1.1.1, anyNonzero_iff.mp crossDraws3.1.1.2⟩
  room := ⟨(readyB 14).2, (readyA 11).2⟩

/-! ## OTRv3, each with the instance of the other -/

theorem direct_meetA : CanMeet3 tinyEnv acA acB Props.ToyAke.alice Props.ToyAke.bob (callA 1000 11) (callB 1000 12) where
  curve := toy_goodCurve
  group := toy_meet3.group
  small := draws3.2.2.1
  allow := toy_meet3.allow
  tags := toy_meet3.tags
  keys := ⟨dsaA, dsaB⟩
  drawA := ⟨crossDraws3.1.1.1, anyNonzero_iff.mp crossDraws3.1.1.2⟩
  drawB := ⟨crossDraws3.2.1.1, anyNonzero_iff.mp crossDraws3.2.1.2⟩
  room := ⟨(readyA 11).2, (readyB 12).2⟩

theorem direct_meetB : CanMeet3 tinyEnv acB acA Props.ToyAke.bob Props.ToyAke.alice (callB 1000 14) (callA 1000 13) where
  curve := toy_goodCurve
  group := toy_meet3.group
  small := ⟨draws3.2.2.1.1, draws3.2.2.1.2.2, draws3.2.2.1.2.1⟩
  allow := ⟨toy_meet3.allow.2, toy_meet3.allow.1⟩
  tags := ⟨toy_meet3.tags.2, toy_meet3.tags.1⟩
  keys := ⟨dsaB, dsaA⟩
  drawA := ⟨crossDraws3.2.2.1, anyNonzero_iff.mp crossDraws3.2.2.2⟩
  drawB := ⟨crossDraws3.1.2.1, anyNonzero_iff.mp crossDraws3.1.2.2⟩
  room := ⟨(readyB 14).2, (readyA 13).2⟩

@[irreducible] def vA1 : Effect := (Op.initiate .v3 0x102).run tinyEnv acA (callA 1000 13) .new
@[irreducible] def vB1 : Effect := (Op.initiate .v3 0x100).run tinyEnv acB (callB 1000 12) .new
@[irreducible] def vA2 : Effect := (Op.receive (msg vB1)).run tinyEnv acA (callA 1000 11) vA1.after
@[irreducible] def vB2 : Effect := (Op.receive (msg vA1)).run tinyEnv acB (callB 1000 14) vB1.after
@[irreducible] def vA3 : Effect := (Op.receive (msg vB1)).run tinyEnv acA (callA 1000 15) vA2.after
@[irreducible] def vB3 : Effect := (Op.receive (msg vA2)).run tinyEnv acB (callB 1000 16) vB2.after
@[irreducible] def vA4 : Effect := (Op.receive (msg vB3)).run tinyEnv acA (callA 1000 17) vA3.after

theorem runDirect3 : (vA1.sent = [msg vA1] ∧ vB1.sent = [msg vB1] ∧ vA2.sent = [msg vA2] ∧ vB3.sent = [msg vB3] ∧ vA4.sent = [msg vA4]) ∧
    goodMac (parse tinyEnv (msg vB3)) = true ∧ goodMac (parse tinyEnv (msg vA4)) = true ∧
    beNat (tinyEnv.sha256 (wMpi (DH.Keypair.new tinyEnv.dh (beNat (((callA 1000 13).rnd.sub 0).bytes [0] 192))).pub)) <
      beNat (tinyEnv.sha256 (wMpi (DH.Keypair.new tinyEnv.dh (beNat (((callB 1000 12).rnd.sub 0).bytes [0] 192))).pub)) := by decide +kernel

/-! ## OTRv4 -/

/-- The key pairs of this source of randomness are acceptable, and differ from the long-term key of the other. -/
def goodKeys (r : Rand) (other : Point) : Bool :=
  decide ((ECDHKeyPair.generate tinyEnv (r.bytes [0] 57)).pub ≠ Point.identity) && decide (Valid3072 tinyEnv (DH.Keypair.generate3 tinyEnv.dh3 (r.bytes [1] 80)).pub) &&
  decide ((ECDHKeyPair.generate tinyEnv (r.bytes [2] 57)).pub ≠ Point.identity) && decide (Valid3072 tinyEnv (DH.Keypair.generate3 tinyEnv.dh3 (r.bytes [3] 80)).pub) &&
  decide ((ECDHKeyPair.generate tinyEnv (r.bytes [0] 57)).pub ≠ other)

theorem goodKeys_ephemeral {r : Rand} {P : Point} (h : goodKeys r P = true) :
    GoodEphemeral tinyEnv r ∧ (ECDHKeyPair.generate tinyEnv (r.bytes [0] 57)).pub ≠ P := by
  simp only [goodKeys, Bool.and_eq_true, decide_eq_true_eq] at h
  exact ⟨⟨h.1.1.1.1, h.1.1.1.2, h.1.1.2, h.1.2⟩, h.2⟩

theorem crossKeys4 : (goodKeys ((meetA 5000 46).rnd.sub 0) plainB.identityKey = true ∧ goodKeys ((meetA 5000 48).rnd.sub 0) plainB.identityKey = true) ∧
    goodKeys ((meetB 5000 47).rnd.sub 0) plainA.identityKey = true ∧ goodKeys ((meetB 5000 49).rnd.sub 0) plainA.identityKey = true := by decide +kernel

theorem roomyA (n : Nat) : Roomy tinyEnv (meetA 5000 n) := keys.2.2.2.2.2.1
theorem roomyB (n : Nat) : Roomy tinyEnv (meetB 5000 n) := keys.2.2.2.2.2.2

theorem cross4_meetA : CanMeet4 tinyEnv acA acB (meetA 5000 48) (meetB 5000 47) where
  curve := toy_goodCurve
  group := toy_meet.group
  allow := toy_meet.allow
  tags := toy_meet.tags
  names := ⟨rfl, rfl⟩
  profiles := by
    obtain ⟨PA, h1⟩ := partyA 5000 48
    obtain ⟨PB, h2⟩ := partyB 5000 47
    exact ⟨PA, PB, plainA, plainB, h1, h2, keys.1, keys.2.1, (goodKeys_ephemeral crossKeys4.2.1).2, (goodKeys_ephemeral crossKeys4.1.2).2⟩
  keysA := (goodKeys_ephemeral crossKeys4.1.2).1
  keysB := (goodKeys_ephemeral crossKeys4.2.1).1
  room := ⟨roomyA 48, roomyB 47⟩

theorem cross4_meetB : CanMeet4 tinyEnv acB acA (meetB 5000 49) (meetA 5000 46) where
  curve := toy_goodCurve
  group := toy_meet.group
  allow := ⟨toy_meet.allow.2, toy_meet.allow.1⟩
  tags := ⟨toy_meet.tags.2, toy_meet.tags.1⟩
  names := ⟨rfl, rfl⟩
  profiles := by
    obtain ⟨PA, h1⟩ := partyA 5000 46
    obtain ⟨PB, h2⟩ := partyB 5000 49
    exact ⟨PB, PA, plainB, plainA, h2, h1, keys.2.1, keys.1, (goodKeys_ephemeral crossKeys4.1.1).2, (goodKeys_ephemeral crossKeys4.2.2).2⟩
  keysA := (goodKeys_ephemeral crossKeys4.2.2).1
  keysB := (goodKeys_ephemeral crossKeys4.1.1).1
  room := ⟨roomyB 49, roomyA 46⟩

/-! Both get a query that offers OTRv4, all messages are delivered, and Alice writes `hi`. -/
@[irreducible] def xA1 : Effect := (Op.receive query4).run tinyEnv acA (meetA 5000 46) .new
@[irreducible] def xB1 : Effect := (Op.receive query4).run tinyEnv acB (meetB 5000 47) .new
@[irreducible] def xA2 : Effect := (Op.receive (msg xB1)).run tinyEnv acA (meetA 5000 48) xA1.after
@[irreducible] def xB2 : Effect := (Op.receive (msg xA1)).run tinyEnv acB (meetB 5000 49) xB1.after
@[irreducible] def xA3 : Effect := (Op.receive (msg xB2)).run tinyEnv acA (meetA 5000 50) xA2.after
@[irreducible] def xB3 : Effect := (Op.receive (msg xA2)).run tinyEnv acB (meetB 5000 51) xB2.after
@[irreducible] def xA4 : Effect := (Op.receive (msg xB3)).run tinyEnv acA (meetA 5000 52) xA3.after
@[irreducible] def xB4 : Effect := (Op.receive (msg xA3)).run tinyEnv acB (meetB 5000 53) xB3.after
@[irreducible] def xA5 : Effect := (Op.send 0x102 [104, 105]).run tinyEnv acA (meetA 5000 54) xA4.after
@[irreducible] def xB6 : Effect := (Op.receive (text xA5)).run tinyEnv acB (meetB 5000 55) xB4.after

/-- Is the ring signature of a message of the key exchange good? -/
def goodRing : Res MessageType → Bool
  | .ok (.encoded ⟨_, _, _, .authR m⟩) => good m.sigma
  | .ok (.encoded ⟨_, _, _, .authI m⟩) => good m.sigma
  | _ => false
where good (s : RingSignature) : Bool :=
  decide ((∀ v ∈ [s.c1, s.r1, s.c2, s.r2, s.c3, s.r3], 0 < v ∧ v < toyCurve.q) ∧ (s.c1 + s.c2 + s.c3) % toyCurve.q ≠ 0)

theorem runCross4 : (xA1.sent = [msg xA1] ∧ xB1.sent = [msg xB1] ∧ xA2.sent = [msg xA2] ∧ xB2.sent = [msg xB2] ∧ xA3.sent = [msg xA3] ∧
      xB3.sent = [msg xB3] ∧ xA4.sent = [] ∧ xB4.sent = []) ∧
    (xA1.result = .ok (.user .none) ∧ xB1.result = .ok (.user .none) ∧ xA2.result = .ok (.user .none) ∧ xB2.result = .ok (.user .none) ∧
      xA3.result = .ok (.user (.sessionStarted 0x102)) ∧ xB3.result = .ok (.user (.sessionStarted 0x100)) ∧
      xA4.result = .err .incorrectState ∧ xB4.result = .err .incorrectState) ∧
    Session.ssid xA4.after 0x102 ≠ Session.ssid xB4.after 0x100 ∧ xA5.result = .ok (.texts [text xA5]) ∧ xB6.result = .err (.unreadableMessage 0x100) ∧
    (goodRing (parse tinyEnv (msg xA2)) = true ∧ goodRing (parse tinyEnv (msg xB2)) = true ∧ goodRing (parse tinyEnv (msg xA3)) = true ∧
      goodRing (parse tinyEnv (msg xB3)) = true) := by decide +kernel

/-! Both begin an OTRv4 exchange with the other, and all messages are delivered; Bob's D-H key has the larger hash. -/
@[irreducible] def wA1 : Effect := (Op.initiate .v4 0x102).run tinyEnv acA (meetA 5000 46) .new
@[irreducible] def wB1 : Effect := (Op.initiate .v4 0x100).run tinyEnv acB (meetB 5000 47) .new
@[irreducible] def wA2 : Effect := (Op.receive (msg wB1)).run tinyEnv acA (meetA 5000 48) wA1.after
@[irreducible] def wB2 : Effect := (Op.receive (msg wA1)).run tinyEnv acB (meetB 5000 49) wB1.after
@[irreducible] def wA3 : Effect := (Op.receive (msg wB2)).run tinyEnv acA (meetA 5000 50) wA2.after
@[irreducible] def wB3 : Effect := (Op.receive (msg wA2)).run tinyEnv acB (meetB 5000 51) wB2.after
@[irreducible] def wA4 : Effect := (Op.receive (msg wB3)).run tinyEnv acA (meetA 5000 52) wA3.after
@[irreducible] def wB4 : Effect := (Op.receive (msg wA3)).run tinyEnv acB (meetB 5000 53) wB3.after

theorem runDirect4 : (wA1.sent = [msg wA1] ∧ wB1.sent = [msg wB1] ∧ wA2.sent = [msg wA2] ∧ wB2.sent = [msg wB2] ∧ wA3.sent = [msg wA3] ∧
      wB3.sent = [msg wB3] ∧ wA4.sent = [] ∧ wB4.sent = []) ∧
    (wB3.result = .ok (.user (.sessionStarted 0x100)) ∧ wA4.result = .err .cryptographicViolation ∧ wB4.result = .err .incorrectState) ∧
    wA4.after.status 0x102 = some .plaintext ∧ wB4.after.status 0x100 = some .encrypted ∧ msg wB2 = msg wB1 ∧
    goodRing (parse tinyEnv (msg wA2)) = true ∧ goodRing (parse tinyEnv (msg wB3)) = true := by decide +kernel

end Otrr.Spec.ToySession
