import Verif.Model.Smp
import Verif.Spec.Wire
import Mathlib.Data.Nat.Prime.Defs
/-!
# Specification vocabulary for SMP in OTRv3

Alice starts SMP with message 1 (TLV 2, or 7 with a question), Bob answers with message 2 (TLV 3), Alice with
message 3 (TLV 4), Bob with message 4 (TLV 5).
-/

namespace Otrr.Spec
open Otrr

/-- A group as SMP needs it: `g` generates a subgroup of prime order `q` of the integers modulo the prime
`p`, and the numbers fit the message format. -/
structure SmpGroup (G : DHGroup) : Prop where
  prime : Nat.Prime G.p
  prime_q : Nat.Prime G.q
  order : G.g ^ G.q % G.p = 1
  two_le : 2 ≤ G.g
  g_lt : G.g < G.p
  q_lt : G.q < G.p
  fits : FitsMpi G.p

/-- The question in a message of type 7 and the numbers after it; other messages have numbers only. -/
def question (t : TLV) : Bytes := if t.typ = 7 then t.value.takeWhile (· != 0) else []
def numbers (t : TLV) : Res (List Nat) :=
  runDec readMpiSequence (if t.typ = 7 then (t.value.dropWhile (· != 0)).drop 1 else t.value)

/-- A group element that is not trivial, and an exponent that is not zero: the ranges checked by a receiver. -/
def Element (G : DHGroup) (v : Nat) : Prop := G.g ≤ v ∧ v ≤ G.p - 2
def Exponent (G : DHGroup) (v : Nat) : Prop := 1 ≤ v ∧ v < G.q

/-- The numbers in a message are in range. -/
def Proper1 (G : DHGroup) : List Nat → Prop
  | [g2a, _, D2, g3a, _, D3] => Element G g2a ∧ Element G g3a ∧ Exponent G D2 ∧ Exponent G D3
  | _ => False
def Proper2 (G : DHGroup) : List Nat → Prop
  | [g2b, _, D2, g3b, _, D3, Pb, Qb, _, D5, D6] => Element G g2b ∧ Element G g3b ∧ Element G Pb ∧ Element G Qb ∧
      Exponent G D2 ∧ Exponent G D3 ∧ Exponent G D5 ∧ Exponent G D6
  | _ => False
def Proper3 (G : DHGroup) : List Nat → Prop
  | [Pa, Qa, _, D5, D6, Ra, _, D7] => Element G Pa ∧ Element G Qa ∧ Element G Ra ∧
      Exponent G D5 ∧ Exponent G D6 ∧ Exponent G D7
  | _ => False
def Proper4 (G : DHGroup) : List Nat → Prop
  | [Rb, _, D7] => Element G Rb ∧ Exponent G D7
  | _ => False

/-- The number compared: a hash of version, fingerprints of initiator and responder, SSID, and secret. -/
def secretNumber (E : Env) (initiator responder ssid secret : Bytes) : Nat :=
  beNat (E.sha256 ([1] ++ initiator ++ responder ++ ssid ++ secret))

/-- `(c, D)` proves knowledge of the logarithm of `X`. -/
def ProvesLog (E : Env) (tag : UInt8) (X c D : Nat) : Prop :=
  c = beNat (E.sha256 (tag :: wMpi (E.dh.g ^ D * X ^ c % E.dh.p)))

/-- `(c, D5, D6)` proves that `P = g3^s` and `Q = g^s g2^x` for some `s` and `x`. -/
def ProvesPQ (E : Env) (tag : UInt8) (g2 g3 P Q c D5 D6 : Nat) : Prop :=
  c = beNat (E.sha256 (tag :: (wMpi (g3 ^ D5 * P ^ c % E.dh.p) ++ wMpi (E.dh.g ^ D5 * g2 ^ D6 * Q ^ c % E.dh.p))))

/-- `(c, D)` proves that the logarithm of `R` to the base `k` is that of `X` to the base `g`. -/
def ProvesR (E : Env) (tag : UInt8) (X k R c D : Nat) : Prop :=
  c = beNat (E.sha256 (tag :: (wMpi (E.dh.g ^ D * X ^ c % E.dh.p) ++ wMpi (k ^ D * R ^ c % E.dh.p))))

/-- Message 1 carries `g2a` and `g3a`, in range and with valid proofs. -/
def Checked1 (E : Env) (g2a g3a : Nat) (t : TLV) : Prop :=
  ∃ c2 D2 c3 D3, numbers t = .ok [g2a, c2, D2, g3a, c3, D3] ∧ Proper1 E.dh [g2a, c2, D2, g3a, c3, D3] ∧
    ProvesLog E 1 g2a c2 D2 ∧ ProvesLog E 2 g3a c3 D3

/-- Message 2 carries `g2b`, `g3b`, `Pb`, `Qb`, in range and with valid proofs, as checked with the exponents
`a2`, `a3` of the receiver. -/
def Checked2 (E : Env) (a2 a3 g2b g3b Pb Qb : Nat) (t : TLV) : Prop :=
  ∃ c2 D2 c3 D3 cP D5 D6, numbers t = .ok [g2b, c2, D2, g3b, c3, D3, Pb, Qb, cP, D5, D6] ∧
    Proper2 E.dh [g2b, c2, D2, g3b, c3, D3, Pb, Qb, cP, D5, D6] ∧
    ProvesLog E 3 g2b c2 D2 ∧ ProvesLog E 4 g3b c3 D3 ∧ ProvesPQ E 5 (g2b ^ a2) (g3b ^ a3) Pb Qb cP D5 D6

/-- Message 3 carries `Pa`, `Qa`, `Ra`, in range and with valid proofs, as checked with the exponents `b2`, `b3`
of the receiver; `k` is `Qa / Qb`. -/
def Checked3 (E : Env) (b2 b3 g2a g3a k Pa Qa Ra : Nat) (t : TLV) : Prop :=
  ∃ cP D5 D6 cR D7, numbers t = .ok [Pa, Qa, cP, D5, D6, Ra, cR, D7] ∧
    Proper3 E.dh [Pa, Qa, cP, D5, D6, Ra, cR, D7] ∧
    ProvesPQ E 6 (g2a ^ b2) (g3a ^ b3) Pa Qa cP D5 D6 ∧ ProvesR E 7 g3a k Ra cR D7

/-- Message 4 carries `Rb`, in range and with a valid proof; `k` is `Qa / Qb`. -/
def Checked4 (E : Env) (g3b k Rb : Nat) (t : TLV) : Prop :=
  ∃ cR D7, numbers t = .ok [Rb, cR, D7] ∧ Proper4 E.dh [Rb, cR, D7] ∧ ProvesR E 8 g3b k Rb cR D7

/-- The group elements a client sent: the message is as follows, message 1 possibly after a question. -/
def Sent1 (g2a g3a : Nat) (t : TLV) : Prop :=
  ∃ question c2 D2 c3 D3, t.value = question ++ wMpiSequence [g2a, c2, D2, g3a, c3, D3]
def Sent2 (g2b g3b Pb Qb : Nat) (t : TLV) : Prop :=
  ∃ c2 D2 c3 D3 cP D5 D6, t.value = wMpiSequence [g2b, c2, D2, g3b, c3, D3, Pb, Qb, cP, D5, D6]
def Sent3 (Pa Qa Ra : Nat) (t : TLV) : Prop :=
  ∃ cP D5 D6 cR D7, t.value = wMpiSequence [Pa, Qa, cP, D5, D6, Ra, cR, D7]
def Sent4 (Rb : Nat) (t : TLV) : Prop := ∃ cR D7, t.value = wMpiSequence [Rb, cR, D7]

/-- `k = a / b` modulo `p`. -/
def IsQuotient (p k a b : Nat) : Prop := k * b % p = a % p

/-- One event in the life of an SMP context: SMP was started by sending a message, a message was received,
with the reply and the status after it, or the user aborted. -/
inductive SmpEv
  | started (t : TLV)
  | received (t : TLV) (reply : Option TLV) (status : SMPStatus)
  | aborted

/-- `SmpLife E h c`: since the session began, the events `h` happened in this order and led to `c`. -/
inductive SmpLife (E : Env) : List SmpEv → SMPContext → Prop
  | new (ssid their : Bytes) : SmpLife E [] (SMP.new ssid their)
  | started {h c c' host secret q rnd t} : SmpLife E h c → SMP.start E host secret q rnd c = (.ok t, c') →
      SmpLife E (h ++ [.started t]) c'
  | received {h c c' host t rnd r} : SmpLife E h c → SMP.handle E host t rnd c = (.ok r, c') →
      SmpLife E (h ++ [.received t r c'.status]) c'
  | aborted {h c c' t} : SmpLife E h c → SMP.abort c = (.ok t, c') → SmpLife E (h ++ [.aborted]) c'

/-- The types of message a context waits for: 1 if SMP is not running, else the next of the exchange. -/
def awaited : SMPState → List UInt16
  | .expect1 => [2, 7]
  | .expect2 .. => [3]
  | .expect3 .. => [4]
  | .expect4 .. => [5]

/-- A message the context can go on with: in range and with valid proofs, given what was sent before. -/
def Acceptable (E : Env) (t : TLV) : SMPState → Prop
  | .expect1 => ∃ g2a g3a, Checked1 E g2a g3a t
  | .expect2 _ a2 a3 => ∃ g2b g3b Pb Qb, Checked2 E a2 a3 g2b g3b Pb Qb t
  | .expect3 g3a g2 g3 _ _ Qb => ∃ Pa Qa cP D5 D6 Ra cR D7 k, numbers t = .ok [Pa, Qa, cP, D5, D6, Ra, cR, D7] ∧
      Proper3 E.dh [Pa, Qa, cP, D5, D6, Ra, cR, D7] ∧ IsQuotient E.dh.p k Qa Qb ∧ ProvesPQ E 6 g2 g3 Pa Qa cP D5 D6 ∧
      ProvesR E 7 g3a k Ra cR D7
  | .expect4 g3b _ k _ => ∃ Rb, Checked4 E g3b k Rb t

/-- Two clients and the SMP messages on their way to each. -/
structure SmpNet where
  a : SMPContext
  b : SMPContext
  toA : List TLV
  toB : List TLV

/-- One message is delivered, with any host and any randomness; the reply is sent back.  Messages may overtake
each other. -/
inductive SmpNet.Deliver (E : Env) : SmpNet → SmpNet → Prop
  | a {a b a' pre t post toB host rnd r} : SMP.handle E host t rnd a = (.ok r, a') →
      Deliver E ⟨a, b, pre ++ t :: post, toB⟩ ⟨a', b, pre ++ post, toB ++ r.toList⟩
  | b {a b b' toA pre t post host rnd r} : SMP.handle E host t rnd b = (.ok r, b') →
      Deliver E ⟨a, b, toA, pre ++ t :: post⟩ ⟨a, b', toA ++ r.toList, pre ++ post⟩

/-- `n` messages are delivered. -/
inductive SmpNet.Delivers (E : Env) : Nat → SmpNet → SmpNet → Prop
  | zero (s) : Delivers E 0 s s
  | succ {n s s' s''} : Deliver E s s' → Delivers E n s' s'' → Delivers E (n + 1) s s''

/-- How many messages can follow from a message, itself included: from an abort only itself. -/
def cost (t : TLV) : Nat :=
  if t.typ = 6 then 1 else if t.typ = 5 then 2 else if t.typ = 4 then 3 else if t.typ = 3 then 4 else 5

/-- How many messages can follow from those on their way. -/
def SmpNet.cost (s : SmpNet) : Nat := ((s.toA ++ s.toB).map Spec.cost).sum

end Otrr.Spec
