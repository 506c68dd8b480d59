import Verif.Spec.Replay
import Verif.Lemmas.SessionMeetToy
import Verif.Lemmas.SessionMeetToy3
/-! Runs in which the network delivers messages of a key exchange again. -/

namespace Otrr.Spec.ToyReplay
open Otrr Otrr.Session Otrr.Spec.ToySession

/-! OTRv4: Alice answered; Bob's Auth-I message is delivered again. -/
@[irreducible] def l5 : Effect := (Op.send 0x102 [104, 105]).run tinyEnv acA (meetA 5000 5) l4.after
@[irreducible] def l6 : Effect := (Op.receive (msg k3)).run tinyEnv acA (meetA 5000 6) l5.after
@[irreducible] def l7s : Effect := (Op.send 0x102 [98, 121]).run tinyEnv acA (meetA 5000 7) l6.after
@[irreducible] def k6h : Effect := (Op.send 0x100 [104, 105]).run tinyEnv acB (meetB 5000 6) k3.after
@[irreducible] def l7h : Effect := (Op.receive (text k6h)).run tinyEnv acA (meetA 5000 7) l4.after
@[irreducible] def l8h : Effect := (Op.receive (msg k3)).run tinyEnv acA (meetA 5000 8) l7h.after
@[irreducible] def l9h : Effect := (Op.receive (text k6h)).run tinyEnv acA (meetA 5000 9) l8h.after

/-! Bob began; Alice's Auth-R message is delivered again. -/
@[irreducible] def k7 : Effect := (Op.receive (text l5)).run tinyEnv acB (meetB 5000 6) k3.after
@[irreducible] def k8 : Effect := (Op.receive (msg l2)).run tinyEnv acB (meetB 5000 7) k7.after
@[irreducible] def k9 : Effect := (Op.receive (text l5)).run tinyEnv acB (meetB 5000 8) k8.after

/-! OTRv3: Bob began; Alice's D-H Key and Signature messages are delivered again. -/
@[irreducible] def s6 : Effect := (Op.send 0x100 [104, 105]).run tinyEnv acB (callB 1000 6) b5.after
@[irreducible] def s7 : Effect := (Op.receive (msg a2)).run tinyEnv acB (callB 1000 7) s6.after
@[irreducible] def s8 : Effect := (Op.receive (msg a4)).run tinyEnv acB (callB 1000 8) s7.after
@[irreducible] def s9 : Effect := (Op.send 0x100 [98, 121]).run tinyEnv acB (callB 1000 9) s8.after
@[irreducible] def z8r : Effect := (Op.receive (msg a2)).run tinyEnv acB (callB 1000 8) z7.after
@[irreducible] def z9r : Effect := (Op.receive (msg a4)).run tinyEnv acB (callB 1000 9) z8r.after
@[irreducible] def z10r : Effect := (Op.receive (text y6)).run tinyEnv acB (callB 1000 10) z9r.after

/-! Bob awaits Alice's Signature message; somebody else sends a D-H Key message under Alice's tag. -/
@[irreducible] def x2 : Effect := (Op.receive (msg b1)).run tinyEnv acA (callA 1000 23) .new
@[irreducible] def b4x : Effect := (Op.receive (msg x2)).run tinyEnv acB (callB 1000 4) b3.after
@[irreducible] def b5x : Effect := (Op.receive (msg a4)).run tinyEnv acB (callB 1000 5) b4x.after

/-! Bob ends the session. -/
@[irreducible] def s7c : Effect := (Op.close 0x100).run tinyEnv acB (callB 1000 7) s6.after
@[irreducible] def k8c : Effect := (Op.close 0x100).run tinyEnv acB (meetB 5000 8) k7.after

def isKey (t : Bytes) : Bool := match parse tinyEnv t with | .ok (.encoded ⟨.v3, 0x100, 0x102, .dhKey _⟩) => true | _ => false

/-- What the thief reads with the state of Bob's offer, after the end of the session, for the recorded answer and message. -/
def thief3 (s : Session) (answer wire : Bytes) : Option Bytes :=
  match akeOf s 0, parse tinyEnv answer, parse tinyEnv wire with
  | .awaitingDHKey kp _, .ok (.encoded ⟨.v3, 0x100, 0x102, .dhKey g⟩), .ok (.encoded ⟨.v3, 0x102, 0x100, .data d⟩) => openedBy tinyEnv kp g.gy d
  | _, _, _ => none
def thief4 (s : Session) (answer wire : Bytes) : Option Bytes :=
  match dakeOf s 0, parse tinyEnv answer, parse tinyEnv wire with
  | .awaitingAuthR st, .ok (.encoded ⟨.v4, 0x100, 0x102, .authR r⟩), .ok (.encoded ⟨.v4, 0x100, 0x102, .data4 d⟩) => openedByOffer tinyEnv st r d
  | _, _, _ => none

/-- The two encrypted parts add up to the sum of the texts. -/
def tells (w w' a b : Bytes) : Bool :=
  match cipherOf tinyEnv w, cipherOf tinyEnv w' with
  | some x, some x' => xorText x x' == xorText a b
  | _, _ => false

theorem tells_ok {w w' a b : Bytes} (h : tells w w' a b = true) :
    ∃ x x', cipherOf tinyEnv w = some x ∧ cipherOf tinyEnv w' = some x' ∧ xorText x x' = xorText a b := by
  unfold tells at h
  split at h
  · rename_i x x' h1 h2
    exact ⟨x, x', h1, h2, by simpa using h⟩
  · cases h

theorem isKey_ok {t : Bytes} (h : isKey t = true) : ∃ m, parse tinyEnv t = .ok (.encoded ⟨.v3, 0x100, 0x102, .dhKey m⟩) := by
  unfold isKey at h
  split at h
  · exact ⟨_, by assumption⟩
  · cases h

theorem thief3_ok {s : Session} {p w t : Bytes} (h : thief3 s p w = some t) : ∃ kp r g d, akeOf s 0 = .awaitingDHKey kp r ∧
    parse tinyEnv p = .ok (.encoded ⟨.v3, 0x100, 0x102, .dhKey g⟩) ∧ parse tinyEnv w = .ok (.encoded ⟨.v3, 0x102, 0x100, .data d⟩) ∧
    openedBy tinyEnv kp g.gy d = some t := by
  unfold thief3 at h
  split at h
  · exact ⟨_, _, _, _, by assumption, by assumption, by assumption, h⟩
  · cases h

theorem thief4_ok {s : Session} {p w t : Bytes} (h : thief4 s p w = some t) : ∃ st r d, dakeOf s 0 = .awaitingAuthR st ∧
    parse tinyEnv p = .ok (.encoded ⟨.v4, 0x100, 0x102, .authR r⟩) ∧ parse tinyEnv w = .ok (.encoded ⟨.v4, 0x100, 0x102, .data4 d⟩) ∧
    openedByOffer tinyEnv st r d = some t := by
  unfold thief4 at h
  split at h
  · exact ⟨_, _, _, by assumption, by assumption, by assumption, h⟩
  · cases h

theorem runAnswered : (k1.result = .ok (.user .none) ∧ l2.result = .ok (.user .none) ∧ k3.result = .ok (.user (.sessionStarted 0x100)) ∧
    l4.result = .ok (.user (.sessionStarted 0x102)) ∧ k1.sent = [msg k1] ∧ l2.sent = [msg l2] ∧ k3.sent = [msg k3]) ∧
    (l5.result = .ok (.texts [text l5]) ∧ l5.sent = [] ∧ l6.result = .ok (.user (.sessionStarted 0x102)) ∧
      l7s.result = .ok (.texts [text l7s]) ∧ l7s.sent = [] ∧ tells (text l5) (text l7s) [104, 105] [98, 121] = true) ∧
    (k6h.result = .ok (.texts [text k6h]) ∧ l7h.result = .ok (.user (.confidential 0x102 [104, 105] [])) ∧
      l8h.result = .ok (.user (.sessionStarted 0x102)) ∧ l9h.result = .ok (.user (.confidential 0x102 [104, 105] []))) ∧
    (k7.result = .ok (.user (.confidential 0x100 [104, 105] [])) ∧ k7.sent = [] ∧ k8.result = .ok (.user (.sessionStarted 0x100)) ∧
      k9.result = .ok (.user (.confidential 0x100 [104, 105] []))) ∧
    k8c.result = .ok (.user (.reset 0x100)) ∧ k8c.after.status 0x100 = some .plaintext ∧
      thief4 k8c.after (msg l2) (text l5) = some [104, 105] := by decide +kernel

theorem runBegan : (b1.result = .ok (.user .none) ∧ a2.result = .ok (.user .none) ∧ b3.result = .ok (.user .none) ∧
    a4.result = .ok (.user (.sessionStarted 0x102)) ∧ b5.result = .ok (.user (.sessionStarted 0x100)) ∧
    b1.sent = [msg b1] ∧ a2.sent = [msg a2] ∧ b3.sent = [msg b3] ∧ a4.sent = [msg a4]) ∧
    (s6.result = .ok (.texts [text s6]) ∧ s6.sent = [] ∧ s7.result = .ok (.user .none) ∧ s8.result = .ok (.user (.sessionStarted 0x100)) ∧
      s9.result = .ok (.texts [text s9]) ∧ s9.sent = [] ∧ tells (text s6) (text s9) [104, 105] [98, 121] = true) ∧
    (y6.result = .ok (.texts [text y6]) ∧ z7.result = .ok (.user (.confidential 0x100 [104, 105] [])) ∧ z8r.result = .ok (.user .none) ∧
      z9r.result = .ok (.user (.sessionStarted 0x100)) ∧ z10r.result = .ok (.user (.confidential 0x100 [104, 105] []))) ∧
    (x2.result = .ok (.user .none) ∧ isKey (msg x2) = true ∧ b4x.result = .ok (.user .none) ∧ b5x.result.isOk = false ∧ b5x.result ≠ .panic ∧
      b5x.after.status 0x100 = some .plaintext) ∧
    s7c.result = .ok (.user (.reset 0x100)) ∧ s7c.after.status 0x100 = some .plaintext ∧
      thief3 s7c.after (msg a2) (text s6) = some [104, 105] := by decide +kernel

end Otrr.Spec.ToyReplay
