import Verif.Model.Smp4
import Verif.Spec.Curve
import Verif.Spec.Smp
/-!
# Specification vocabulary for SMP in OTRv4

As in OTRv3, but in the group of points of the curve, written additively: `G` is the base point, of prime order
`q`, and `P * n` below is `Point.mul c P n`.
-/

namespace Otrr.Spec
open Otrr

/-- A curve as SMP needs it: a good curve with a base point of prime order. -/
structure SmpCurve (c : Curve) : Prop where
  good : GoodCurve c
  prime : Nat.Prime c.q
  base_ne : c.G ≠ Point.identity

/-- A field of a message. -/
inductive Field4
  | point (P : Point)
  | scalar (n : Nat)
  deriving DecidableEq

/-- The fields that the bytes consist of, 57 bytes each.  Of the last byte of a point only the highest bit counts.
A scalar is a little-endian number modulo `q`. -/
inductive Fields (c : Curve) : List Field4 → Bytes → Prop
  | nil : Fields c [] []
  | point {P e v b} : e.length = 57 → OnCurve c P → P.encode = e.take 56 ++ [e.getD 56 0 &&& 0x80] → Fields c v b →
      Fields c (.point P :: v) (e ++ b)
  | scalar {s v b} : s.length = 57 → Fields c v b → Fields c (.scalar (leNat s % c.q) :: v) (s ++ b)

/-- The message consists of the fields `v`; message 1 (TLV 2) has the question `q` in front. -/
def Carries (c : Curve) (q : Bytes) (v : List Field4) (t : TLV) : Prop :=
  (t.typ = 2 ∧ q.length < 2 ^ 32 ∧ ∃ b, t.value = wData q ++ b ∧ Fields c v b) ∨
  (t.typ ≠ 2 ∧ q = [] ∧ Fields c v t.value)

/-- No point is the identity, no scalar is zero. -/
def Nontrivial4 (v : List Field4) : Prop := ∀ f ∈ v, f ≠ .point Point.identity ∧ f ≠ .scalar 0

/-- Hashing to a scalar. -/
def scalarHash (E : Env) (usage : UInt8) (data : Bytes) : Nat := leNat (kdf E 57 usage data) % E.curve.q

/-- The number compared: a hash of version, fingerprints of initiator and responder, SSID, and secret. -/
def secretNumber4 (E : Env) (initiator responder ssid secret : Bytes) : Nat :=
  leNat (prune (kdf E 57 0x19 ([1] ++ initiator ++ responder ++ ssid ++ wData secret)))

/-- `P * x + R * y`. -/
def lin2 (c : Curve) (P : Point) (x : Nat) (R : Point) (y : Nat) : Point :=
  Point.add c (Point.mul c P x) (Point.mul c R y)

/-- `P - R`. -/
def minus (c : Curve) (P R : Point) : Point := Point.add c P (Point.neg c R)

/-- The challenges as a receiver recomputes them from a proof `(ch, d ..)`: for knowledge of the logarithm of `X`;
for `P = G3 * s` and `Q = G * s + G2 * x` with some `s`, `x`; and for `R = D * a` and `X = G * a` with some `a`. -/
def logChallenge (E : Env) (tag : UInt8) (X : Point) (ch d : Nat) : Nat :=
  scalarHash E tag (lin2 E.curve E.curve.G d X ch).encode
def pqChallenge (E : Env) (tag : UInt8) (G2 G3 P Q : Point) (ch d5 d6 : Nat) : Nat :=
  scalarHash E tag ((lin2 E.curve G3 d5 P ch).encode ++
    (Point.add E.curve (lin2 E.curve E.curve.G d5 G2 d6) (Point.mul E.curve Q ch)).encode)
def rChallenge (E : Env) (tag : UInt8) (X D R : Point) (ch d : Nat) : Nat :=
  scalarHash E tag ((lin2 E.curve E.curve.G d X ch).encode ++ (lin2 E.curve D d R ch).encode)

/-- The proofs are valid: the challenge is the recomputed one, and not zero. -/
def ProvesLog4 (E : Env) (tag : UInt8) (X : Point) (ch d : Nat) : Prop := ch ≠ 0 ∧ ch = logChallenge E tag X ch d
def ProvesPQ4 (E : Env) (tag : UInt8) (G2 G3 P Q : Point) (ch d5 d6 : Nat) : Prop :=
  ch ≠ 0 ∧ ch = pqChallenge E tag G2 G3 P Q ch d5 d6
def ProvesR4 (E : Env) (tag : UInt8) (X D R : Point) (ch d : Nat) : Prop := ch ≠ 0 ∧ ch = rChallenge E tag X D R ch d

/-- The fields of the four messages. -/
def fields1 (G2a : Point) (c2 d2 : Nat) (G3a : Point) (c3 d3 : Nat) : List Field4 :=
  [.point G2a, .scalar c2, .scalar d2, .point G3a, .scalar c3, .scalar d3]
def fields2 (G2b : Point) (c2 d2 : Nat) (G3b : Point) (c3 d3 : Nat) (Pb Qb : Point) (cp d5 d6 : Nat) : List Field4 :=
  [.point G2b, .scalar c2, .scalar d2, .point G3b, .scalar c3, .scalar d3, .point Pb, .point Qb, .scalar cp, .scalar d5,
    .scalar d6]
def fields3 (Pa Qa : Point) (cp d5 d6 : Nat) (Ra : Point) (cr d7 : Nat) : List Field4 :=
  [.point Pa, .point Qa, .scalar cp, .scalar d5, .scalar d6, .point Ra, .scalar cr, .scalar d7]
def fields4 (Rb : Point) (cr d7 : Nat) : List Field4 := [.point Rb, .scalar cr, .scalar d7]

/-- Message 1 carries `G2a` and `G3a`, in the group and with valid proofs. -/
def Checked4_1 (E : Env) (q : Bytes) (G2a G3a : Point) (t : TLV) : Prop :=
  ∃ c2 d2 c3 d3, Carries E.curve q (fields1 G2a c2 d2 G3a c3 d3) t ∧ GoodKey E.curve G2a ∧ GoodKey E.curve G3a ∧
    ProvesLog4 E 1 G2a c2 d2 ∧ ProvesLog4 E 2 G3a c3 d3

/-- Message 2 carries `G2b`, `G3b`, `Pb`, `Qb` with valid proofs, as checked with the exponents `a2`, `a3` of the
receiver; `G2b` and `G3b` are in the group, `Pb` and `Qb` only known to be on the curve. -/
def Checked4_2 (E : Env) (a2 a3 : Nat) (G2b G3b Pb Qb : Point) (t : TLV) : Prop :=
  ∃ c2 d2 c3 d3 cp d5 d6, Carries E.curve [] (fields2 G2b c2 d2 G3b c3 d3 Pb Qb cp d5 d6) t ∧
    GoodKey E.curve G2b ∧ GoodKey E.curve G3b ∧ OnCurve E.curve Pb ∧ OnCurve E.curve Qb ∧
    GoodKey E.curve (Point.mul E.curve G2b a2) ∧ GoodKey E.curve (Point.mul E.curve G3b a3) ∧
    ProvesLog4 E 3 G2b c2 d2 ∧ ProvesLog4 E 4 G3b c3 d3 ∧
    ProvesPQ4 E 5 (Point.mul E.curve G2b a2) (Point.mul E.curve G3b a3) Pb Qb cp d5 d6

/-- Message 3 carries `Pa`, `Qa`, `Ra`, in the group and with valid proofs, for `G2`, `G3` from the first two messages
and `Qb` from the second. -/
def Checked4_3 (E : Env) (G3a G2 G3 Qb Pa Qa Ra : Point) (t : TLV) : Prop :=
  ∃ cp d5 d6 cr d7, Carries E.curve [] (fields3 Pa Qa cp d5 d6 Ra cr d7) t ∧
    GoodKey E.curve Pa ∧ GoodKey E.curve Qa ∧ GoodKey E.curve Ra ∧
    ProvesPQ4 E 6 G2 G3 Pa Qa cp d5 d6 ∧ ProvesR4 E 7 G3a (minus E.curve Qa Qb) Ra cr d7

/-- Message 4 carries `Rb`, in the group and with a valid proof; `deltaQ` is `Qa - Qb`. -/
def Checked4_4 (E : Env) (G3b deltaQ Rb : Point) (t : TLV) : Prop :=
  ∃ cr d7, Carries E.curve [] (fields4 Rb cr d7) t ∧ GoodKey E.curve Rb ∧ ProvesR4 E 8 G3b deltaQ Rb cr d7

/-- The points a client sent: the message is as follows. -/
def Sent4_1 (c : Curve) (G2a G3a : Point) (t : TLV) : Prop :=
  OnCurve c G2a ∧ OnCurve c G3a ∧ ∃ q c2 d2 c3 d3,
    t.value = wData q ++ G2a.encode ++ wScalar c2 ++ wScalar d2 ++ G3a.encode ++ wScalar c3 ++ wScalar d3
def Sent4_2 (c : Curve) (G2b G3b Pb Qb : Point) (t : TLV) : Prop :=
  OnCurve c G2b ∧ OnCurve c G3b ∧ OnCurve c Pb ∧ OnCurve c Qb ∧ ∃ c2 d2 c3 d3 cp d5 d6,
    t.value = G2b.encode ++ wScalar c2 ++ wScalar d2 ++ G3b.encode ++ wScalar c3 ++ wScalar d3 ++ Pb.encode ++ Qb.encode ++
      wScalar cp ++ wScalar d5 ++ wScalar d6
def Sent4_3 (c : Curve) (Pa Qa : Point) (t : TLV) : Prop :=
  OnCurve c Pa ∧ OnCurve c Qa ∧ ∃ cp d5 d6 Ra cr d7,
    t.value = Pa.encode ++ Qa.encode ++ wScalar cp ++ wScalar d5 ++ wScalar d6 ++ Point.encode Ra ++ wScalar cr ++ wScalar d7

/-- `SmpLife4 E h c`: since the session began, the events `h` happened in this order and led to `c`. -/
inductive SmpLife4 (E : Env) : List SmpEv → SMP4Context → Prop
  | new (us them ssid : Bytes) : SmpLife4 E [] (SMP4.new us them ssid)
  | started {h c c' secret q rnd t} : SmpLife4 E h c → SMP4.start E secret q rnd c = (.ok t, c') →
      SmpLife4 E (h ++ [.started t]) c'
  | received {h c c' host t rnd r} : SmpLife4 E h c → SMP4.handle E host t rnd c = (.ok r, c') →
      SmpLife4 E (h ++ [.received t r c'.status]) c'
  | aborted {h c c' t} : SmpLife4 E h c → SMP4.abort c = (.ok t, c') → SmpLife4 E (h ++ [.aborted]) c'

/-- The type of message a context waits for: 1 if SMP is not running, else the next of the exchange. -/
def awaited4 : SMP4State → UInt16
  | .expect1 => 2
  | .expect2 .. => 3
  | .expect3 .. => 4
  | .expect4 .. => 5

/-- A message the context can go on with: well-formed, in the group and with valid proofs, given what was sent
before. -/
def Acceptable4 (E : Env) (t : TLV) : SMP4State → Prop
  | .expect1 => ∃ q G2a G3a, Checked4_1 E q G2a G3a t
  | .expect2 _ a2 a3 => ∃ G2b G3b Pb Qb, Checked4_2 E a2 a3 G2b G3b Pb Qb t
  | .expect3 G3a G2 G3 _ _ Qb => ∃ Pa Qa Ra, Checked4_3 E G3a G2 G3 Qb Pa Qa Ra t
  | .expect4 G3b _ deltaQ _ => ∃ Rb, Checked4_4 E G3b deltaQ Rb t

/-- `Compared E t state ch h`: in this state, the challenge `ch` in the message is compared with the recomputed
challenge `h`. -/
inductive Compared (E : Env) (t : TLV) : SMP4State → Nat → Nat → Prop
  | m1c2 {q G2a c2 d2 G3a c3 d3} : Carries E.curve q (fields1 G2a c2 d2 G3a c3 d3) t →
      Compared E t .expect1 c2 (logChallenge E 1 G2a c2 d2)
  | m1c3 {q G2a c2 d2 G3a c3 d3} : Carries E.curve q (fields1 G2a c2 d2 G3a c3 d3) t →
      Compared E t .expect1 c3 (logChallenge E 2 G3a c3 d3)
  | m2c2 {x a2 a3 G2b c2 d2 G3b c3 d3 Pb Qb cp d5 d6} :
      Carries E.curve [] (fields2 G2b c2 d2 G3b c3 d3 Pb Qb cp d5 d6) t →
      Compared E t (.expect2 x a2 a3) c2 (logChallenge E 3 G2b c2 d2)
  | m2c3 {x a2 a3 G2b c2 d2 G3b c3 d3 Pb Qb cp d5 d6} :
      Carries E.curve [] (fields2 G2b c2 d2 G3b c3 d3 Pb Qb cp d5 d6) t →
      Compared E t (.expect2 x a2 a3) c3 (logChallenge E 4 G3b c3 d3)
  | m2cp {x a2 a3 G2b c2 d2 G3b c3 d3 Pb Qb cp d5 d6} :
      Carries E.curve [] (fields2 G2b c2 d2 G3b c3 d3 Pb Qb cp d5 d6) t →
      Compared E t (.expect2 x a2 a3) cp
        (pqChallenge E 5 (Point.mul E.curve G2b a2) (Point.mul E.curve G3b a3) Pb Qb cp d5 d6)
  | m3cp {G3a G2 G3 b3 Pb Qb Pa Qa cp d5 d6 Ra cr d7} : Carries E.curve [] (fields3 Pa Qa cp d5 d6 Ra cr d7) t →
      Compared E t (.expect3 G3a G2 G3 b3 Pb Qb) cp (pqChallenge E 6 G2 G3 Pa Qa cp d5 d6)
  | m3cr {G3a G2 G3 b3 Pb Qb Pa Qa cp d5 d6 Ra cr d7} : Carries E.curve [] (fields3 Pa Qa cp d5 d6 Ra cr d7) t →
      Compared E t (.expect3 G3a G2 G3 b3 Pb Qb) cr (rChallenge E 7 G3a (minus E.curve Qa Qb) Ra cr d7)
  | m4cr {G3b dP dQ a3 Rb cr d7} : Carries E.curve [] (fields4 Rb cr d7) t →
      Compared E t (.expect4 G3b dP dQ a3) cr (rChallenge E 8 G3b dQ Rb cr d7)

/-- A message that crashes the client: one with a field of 57 zero bytes, or one for which exactly one of a challenge
and its recomputed value is zero. -/
def Crashing (E : Env) (t : TLV) (state : SMP4State) : Prop :=
  List.replicate 57 0 <:+: t.value ∨ ∃ ch h, Compared E t state ch h ∧ (ch = 0 ↔ h ≠ 0)

/-- Two clients and the SMP messages on their way to each. -/
structure SmpNet4 where
  a : SMP4Context
  b : SMP4Context
  toA : List TLV
  toB : List TLV

/-- One message is delivered, with any host and any randomness; the reply is sent back.  Messages may overtake
each other. -/
inductive SmpNet4.Deliver (E : Env) : SmpNet4 → SmpNet4 → Prop
  | a {a b a' pre t post toB host rnd r} : SMP4.handle E host t rnd a = (.ok r, a') →
      Deliver E ⟨a, b, pre ++ t :: post, toB⟩ ⟨a', b, pre ++ post, toB ++ r.toList⟩
  | b {a b b' toA pre t post host rnd r} : SMP4.handle E host t rnd b = (.ok r, b') →
      Deliver E ⟨a, b, toA, pre ++ t :: post⟩ ⟨a, b', toA ++ r.toList, pre ++ post⟩

/-- `n` messages are delivered. -/
inductive SmpNet4.Delivers (E : Env) : Nat → SmpNet4 → SmpNet4 → Prop
  | zero (s) : Delivers E 0 s s
  | succ {n s s' s''} : Deliver E s s' → Delivers E n s' s'' → Delivers E (n + 1) s s''

/-- How many messages can follow from those on their way, if none of them is an abort. -/
def SmpNet4.cost (s : SmpNet4) : Nat := ((s.toA ++ s.toB).map Spec.cost).sum

end Otrr.Spec
