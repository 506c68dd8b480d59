import Verif.Spec.SessionExchange3
import Verif.Spec.Smp4
/-!
# Specification vocabulary for two clients that run the SMP with each other
-/

namespace Otrr.Spec
open Otrr

/-- The client of `S`, in state `a`, and the client of `R`, in state `b`, have an OTRv3 session with each other, and it is the turn of `S`
to send. -/
def MaySend3 (E : Env) (S R : Account) (a b : PState) : Prop :=
  ∃ x m y n, a = .encrypted3 x m ∧ b = .encrypted3 y n ∧ x.our = S.tag ∧ x.their = R.tag ∧ y.our = R.tag ∧ y.their = S.tag ∧ Turns3 E x y

/-- The same for OTRv4, where the clients need not take turns; every data message so far was delivered. -/
def MaySend4 (E : Env) (S R : Account) (a b : PState) : Prop :=
  ∃ x m y n, a = .encrypted4 x m ∧ b = .encrypted4 y n ∧ x.our = S.tag ∧ x.their = R.tag ∧ y.our = R.tag ∧ y.their = S.tag ∧
    (Calm4 E ⟨x, y, [], []⟩ ∨ Calm4 E ⟨y, x, [], []⟩)

/-- If the client generated a new OTRv4 D-H key pair, then the new public key differs from the old one. -/
def FreshState (a a' : PState) : Prop := ∀ x m x' m', a = .encrypted4 x m → a' = .encrypted4 x' m' → FreshKey x.ratchet x'.ratchet

/-- Receiving `text` in this call amounts to receiving the TLV `t` from the instance `k`: the text is a data message with this TLV. -/
def Conveys (E : Env) (c : Call) (s : Session) (k : UInt32) (text : Bytes) (t : TLV) (s' : PState) : Prop :=
  ∃ m, parse E text = .ok (.encoded m) ∧ DecryptsTo E c m (stateOf s k) (.confidential [] [t]) s'

/-- The call does not crash, and sends one text of less than 4 GiB. -/
def OneText (e : Effect) (text : Bytes) : Prop := e.result ≠ .panic ∧ e.sent = [text] ∧ text.length < 2 ^ 32

/-- The numbers of the SMP message that arrives with this text are as required. -/
def Numbers3 (E : Env) (c : Call) (s : Session) (k : UInt32) (text : Bytes) (P : List Nat → Prop) : Prop :=
  ∀ t s' v, Conveys E c s k text t s' → numbers t = .ok v → P v

/-- Alice and Bob have an OTRv3 session with each other, with this SSID, and know each other's long-term keys; Alice may send; no SMP is in
progress. -/
def Acquainted3 (E : Env) (A B : Account) (kA kB : DSAPublicKey) (ssid : Bytes) (sA sB : Session) : Prop :=
  MaySend3 E A B (stateOf sA B.tag) (stateOf sB A.tag) ∧ ¬ SmpBusy (stateOf sA B.tag) ∧ ¬ SmpBusy (stateOf sB A.tag) ∧
  ∃ x m y n, stateOf sA B.tag = .encrypted3 x m ∧ stateOf sB A.tag = .encrypted3 y n ∧
    m.ssid = ssid ∧ n.ssid = ssid ∧ m.their = fingerprint3 E kB ∧ n.their = fingerprint3 E kA

/-- The same for OTRv4, with the fingerprints of the clients. -/
def Acquainted4 (E : Env) (A B : Account) (fA fB ssid : Bytes) (sA sB : Session) : Prop :=
  MaySend4 E A B (stateOf sA B.tag) (stateOf sB A.tag) ∧
  ∃ x m y n, stateOf sA B.tag = .encrypted4 x m ∧ stateOf sB A.tag = .encrypted4 y n ∧
    m.ssid = ssid ∧ n.ssid = ssid ∧ m.us = fA ∧ m.them = fB ∧ n.us = fB ∧ n.them = fA ∧
    m.state = .expect1 ∧ m.status ≠ .inProgress ∧ n.state = .expect1 ∧ n.status ≠ .inProgress

/-- The forms of the four messages of the SMP in OTRv4. -/
def Form1 (v : List Field4) : Prop := ∃ G2a c2 d2 G3a c3 d3, v = fields1 G2a c2 d2 G3a c3 d3
def Form2 (v : List Field4) : Prop := ∃ G2b c2 d2 G3b c3 d3 Pb Qb cp d5 d6, v = fields2 G2b c2 d2 G3b c3 d3 Pb Qb cp d5 d6
def Form3 (v : List Field4) : Prop := ∃ Pa Qa cp d5 d6 Ra cr d7, v = fields3 Pa Qa cp d5 d6 Ra cr d7
def Form4 (v : List Field4) : Prop := ∃ Rb cr d7, v = fields4 Rb cr d7

/-- The points and scalars of the SMP message of this form that arrives with this text are not trivial. -/
def Fields4 (E : Env) (c : Call) (s : Session) (k : UInt32) (text : Bytes) (form : List Field4 → Prop) : Prop :=
  ∀ t s' q v, Conveys E c s k text t s' → Carries E.curve q v t → form v → Nontrivial4 v

/-- The random numbers of the two clients are acceptable: no exponent is a multiple of `q`, nor is the logarithm of `Qb`; `y` is the
number that the responder derives from the answer. -/
def GoodNumbers4 (E : Env) (rA rB : Rand) (y : Nat) : Prop :=
  (∀ i ∈ [0, 1], SMP4.random E rA i % E.curve.q ≠ 0) ∧ (∀ i ∈ [0, 1, 4], SMP4.random E rB i % E.curve.q ≠ 0) ∧
  (SMP4.random E rB 4 + SMP4.random E rA 0 * SMP4.random E rB 0 * y) % E.curve.q ≠ 0

/-- If the client answered the text with a new OTRv4 D-H key pair, then the new public key differs from the old one. -/
def FreshAnswer (E : Env) (c : Call) (s : Session) (k : UInt32) (text : Bytes) (e : Effect) : Prop :=
  ∀ t s', Conveys E c s k text t s' → FreshState s' (stateOf e.after k)

end Otrr.Spec
