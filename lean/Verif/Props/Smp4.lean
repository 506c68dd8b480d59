import Verif.Lemmas.Smp4Life
import Verif.Lemmas.Ed448Order
import Verif.Lemmas.PrimeQ
import Verif.Lemmas.Toy
import Verif.Spec.Toy
/-! C50 to C55: the Socialist Millionaires' Protocol in OTRv4. -/

namespace Otrr.Props
open Otrr Otrr.Spec Otrr.SMP4 Otrr.Edwards

theorem toy_smpCurve : SmpCurve toyEnv.curve where
  good := toy_goodCurve
  prime := by decide
  base_ne := by decide

/-- The hypothesis on the curve holds for the curve of the code. -/
theorem ed448_smpCurve : SmpCurve ed448 where
  good := ed448_goodCurve
  prime := ed448_prime_q
  base_ne := by decide +kernel

/-! ## A concrete exchange, used for examples and counterexamples -/

namespace ToySmp4

/-- The host of either client, whose user answers any question with `s`. -/
def host (s : Bytes) : SMPHost := ⟨.none, fun _ => some s⟩
@[irreducible] def A0 : SMP4Context := SMP4.new [1, 2, 3] [4, 5, 6] [7, 8]
@[irreducible] def B0 : SMP4Context := SMP4.new [4, 5, 6] [1, 2, 3] [7, 8]
def tlv (x : Res (Option TLV) × SMP4Context) : TLV := match x.1 with | .ok (some t) => t | _ => default

/-- A secret, another one, and a question. -/
def s : Bytes := [104]
def s' : Bytes := [105]
def q : Bytes := [63]
/-- The randomness of Alice and Bob. -/
def rA : Rand := toyRand 26
def rB : Rand := toyRand 29

@[irreducible] def m1 : TLV := match (start toyEnv s q rA A0).1 with | .ok t => t | _ => default
@[irreducible] def A1 : SMP4Context := (start toyEnv s q rA A0).2
@[irreducible] def m2 : TLV := tlv (handle toyEnv (host s) m1 rB B0)
@[irreducible] def B1 : SMP4Context := (handle toyEnv (host s) m1 rB B0).2
@[irreducible] def m3 : TLV := tlv (handle toyEnv (host s) m2 rA A1)
@[irreducible] def A2 : SMP4Context := (handle toyEnv (host s) m2 rA A1).2
@[irreducible] def m4 : TLV := tlv (handle toyEnv (host s) m3 rB B1)
@[irreducible] def B2 : SMP4Context := (handle toyEnv (host s) m3 rB B1).2
@[irreducible] def A3 : SMP4Context := (handle toyEnv (host s) m4 rA A2).2

theorem r1 : start toyEnv s q rA A0 = (.ok m1, A1) := by decide +kernel
theorem r2 : handle toyEnv (host s) m1 rB B0 = (.ok (some m2), B1) := by decide +kernel
theorem r3 : handle toyEnv (host s) m2 rA A1 = (.ok (some m3), A2) := by decide +kernel
theorem r4 : handle toyEnv (host s) m3 rB B1 = (.ok (some m4), B2) := by decide +kernel
theorem r5 : handle toyEnv (host s) m4 rA A2 = (.ok .none, A3) := by decide +kernel
theorem done : A3.status = .completed ∧ B2.status = .completed := by decide +kernel
theorem running : A1.status = .inProgress ∧ B1.status = .inProgress ∧ A2.status = .inProgress := by decide +kernel

/-- The same with another answer. -/
@[irreducible] def m2' : TLV := tlv (handle toyEnv (host s') m1 rB B0)
@[irreducible] def B1' : SMP4Context := (handle toyEnv (host s') m1 rB B0).2
@[irreducible] def m3' : TLV := tlv (handle toyEnv (host s) m2' rA A1)
@[irreducible] def A2' : SMP4Context := (handle toyEnv (host s) m2' rA A1).2
@[irreducible] def m4' : TLV := tlv (handle toyEnv (host s') m3' rB B1')
@[irreducible] def B2' : SMP4Context := (handle toyEnv (host s') m3' rB B1').2
@[irreducible] def A3' : SMP4Context := (handle toyEnv (host s) m4' rA A2').2

theorem lifeA0 : SmpLife4 toyEnv [] A0 := by unfold A0; exact .new _ _ _
theorem lifeB0 : SmpLife4 toyEnv [] B0 := by unfold B0; exact .new _ _ _
theorem lifeA1 : SmpLife4 toyEnv [.started m1] A1 := .started lifeA0 r1
theorem lifeB1 : SmpLife4 toyEnv [.received m1 (some m2) .inProgress] B1 := by
  have := SmpLife4.received lifeB0 r2
  rwa [running.2.1] at this
theorem lifeA2 : SmpLife4 toyEnv [.started m1, .received m2 (some m3) .inProgress] A2 := by
  have := SmpLife4.received lifeA1 r3
  rwa [running.2.2] at this
theorem lifeB2 : SmpLife4 toyEnv [.received m1 (some m2) .inProgress, .received m3 (some m4) .completed] B2 := by
  have := SmpLife4.received lifeB1 r4
  rwa [done.2] at this
theorem lifeA3 : SmpLife4 toyEnv [.started m1, .received m2 (some m3) .inProgress, .received m4 .none .completed] A3 := by
  have := SmpLife4.received lifeA2 r5
  rwa [done.1] at this

deriving instance DecidableEq for SMP4.Msg1
deriving instance DecidableEq for SMP4.Msg2
deriving instance DecidableEq for SMP4.Msg3
deriving instance DecidableEq for SMP4.Msg4

/-- What the four messages carry: `a2 = 2`, `a3 = 1`, `b2 = 10`, `b3 = 5`, and 3 for the secret. -/
theorem v1 : Carries toyEnv.curve q (fields1 ⟨25, 28⟩ 9 9 ⟨2, 39⟩ 11 3) m1 := by
  obtain ⟨b, h1, h2, h3, _⟩ := readMsg1_fields toy_goodCurve.field (s := m1.value) (m := ⟨q, ⟨25, 28⟩, 9, 9, ⟨2, 39⟩, 11, 3⟩)
    (by decide +kernel)
  exact .inl ⟨by decide +kernel, h2, b, h1, h3⟩
theorem v2 : Carries toyEnv.curve [] (fields2 ⟨7, 12⟩ 12 2 ⟨30, 21⟩ 12 11 ⟨32, 24⟩ ⟨2, 39⟩ 4 8 2) m2 :=
  carries_of (by decide +kernel) (readMsg2_fields toy_goodCurve.field (s := m2.value)
    (m := ⟨⟨7, 12⟩, 12, 2, ⟨30, 21⟩, 12, 11, ⟨32, 24⟩, ⟨2, 39⟩, 4, 8, 2⟩) (by decide +kernel)).1
theorem v3 : Carries toyEnv.curve [] (fields3 ⟨7, 12⟩ ⟨7, 12⟩ 3 8 5 ⟨11, 24⟩ 8 6) m3 :=
  carries_of (by decide +kernel) (readMsg3_fields toy_goodCurve.field (s := m3.value)
    (m := ⟨⟨7, 12⟩, ⟨7, 12⟩, 3, 8, 5, ⟨11, 24⟩, 8, 6⟩) (by decide +kernel)).1
theorem on3 : OnCurve toyEnv.curve ⟨7, 12⟩ ∧ OnCurve toyEnv.curve ⟨7, 12⟩ ∧ OnCurve toyEnv.curve ⟨11, 24⟩ :=
  (readMsg3_fields toy_goodCurve.field (s := m3.value) (m := ⟨⟨7, 12⟩, ⟨7, 12⟩, 3, 8, 5, ⟨11, 24⟩, 8, 6⟩) (by decide +kernel)).2
theorem v4 : Carries toyEnv.curve [] (fields4 ⟨35, 38⟩ 12 2) m4 :=
  carries_of (by decide +kernel) (readMsg4_fields toy_goodCurve.field (s := m4.value)
    (m := ⟨⟨35, 38⟩, 12, 2⟩) (by decide +kernel)).1

end ToySmp4

/-! ## C50, C51: outcome of a complete exchange -/

/-- C50 (OTRv4): two clients in the same session, neither of which runs SMP, that know each other's
fingerprints.  One starts SMP with a secret and a question (possibly empty), the other's user answers with the same
secret, and all messages are delivered.  Then both clients report success, whatever the random numbers are: only
some of them, and one combination, must not be multiples of the prime `q`, and no point on the wire may be the
identity and no scalar zero (`Nontrivial4`), all of which random numbers fail with negligible probability. -/
theorem C50_otr4 {E : Env} (hc : SmpCurve E.curve) {hostA hostB : SMPHost} {A B : SMP4Context} {hA hB : List SmpEv}
    (_lA : SmpLife4 E hA A) (lB : SmpLife4 E hB B) {q secret : Bytes} (iA : A.status ≠ .inProgress)
    (iB : B.status ≠ .inProgress) (h1 : A.us = B.them) (h2 : A.them = B.us) (h3 : A.ssid = B.ssid)
    (hq : q.length < 2 ^ 32) (hans : hostB.secret q = some secret) (r1 r2 r3 r4 r5 : Rand)
    (ha : ∀ i ∈ [0, 1], random E r1 i % E.curve.q ≠ 0) (hb : ∀ i ∈ [0, 1, 4], random E r2 i % E.curve.q ≠ 0)
    (hQ : (random E r2 4 + random E r1 0 * random E r2 0 * secretNumber4 E A.us A.them A.ssid secret) % E.curve.q ≠ 0) :
    ∃ m1 A1 v1, start E secret q r1 A = (.ok m1, A1) ∧ A1.status = .inProgress ∧ Carries E.curve q v1 m1 ∧
      (Nontrivial4 v1 →
    ∃ m2 B1 v2, handle E hostB m1 r2 B = (.ok (some m2), B1) ∧ B1.status = .inProgress ∧ Carries E.curve [] v2 m2 ∧
      (Nontrivial4 v2 →
    ∃ m3 A2 v3, handle E hostA m2 r3 A1 = (.ok (some m3), A2) ∧ A2.status = .inProgress ∧ Carries E.curve [] v3 m3 ∧
      (Nontrivial4 v3 →
    ∃ m4 B2 v4, handle E hostB m3 r4 B1 = (.ok (some m4), B2) ∧ B2.status = .completed ∧ Carries E.curve [] v4 m4 ∧
      (Nontrivial4 v4 →
    ∃ A3, handle E hostA m4 r5 A2 = (.ok .none, A3) ∧ A3.status = .completed)))) := by
  have h := run4 hc (hostA := hostA) (sA := secret) iA ((life_tied hc.good lB).idle.mpr iB) h1 h2 h3 hq hans r1 r2 r3 r4 r5 ha hb hQ
  simpa only [outcome, if_true] using h

/-- The hypotheses are met by a concrete exchange, which is completed. -/
example : SmpCurve toyEnv.curve ∧ SmpLife4 toyEnv [] ToySmp4.A0 ∧ SmpLife4 toyEnv [] ToySmp4.B0 ∧
    ToySmp4.A0.status ≠ .inProgress ∧ ToySmp4.B0.status ≠ .inProgress ∧ ToySmp4.A0.us = ToySmp4.B0.them ∧
    ToySmp4.A0.them = ToySmp4.B0.us ∧ ToySmp4.A0.ssid = ToySmp4.B0.ssid ∧
    (ToySmp4.host ToySmp4.s).secret ToySmp4.q = some ToySmp4.s ∧
    (∀ i ∈ [0, 1], random toyEnv ToySmp4.rA i % toyEnv.curve.q ≠ 0) ∧
    (∀ i ∈ [0, 1, 4], random toyEnv ToySmp4.rB i % toyEnv.curve.q ≠ 0) ∧
    (random toyEnv ToySmp4.rB 4 + random toyEnv ToySmp4.rA 0 * random toyEnv ToySmp4.rB 0 *
      secretNumber4 toyEnv ToySmp4.A0.us ToySmp4.A0.them ToySmp4.A0.ssid ToySmp4.s) % toyEnv.curve.q ≠ 0 :=
  ⟨toy_smpCurve, ToySmp4.lifeA0, ToySmp4.lifeB0, by decide +kernel, by decide +kernel, by decide +kernel,
    by decide +kernel, by decide +kernel, rfl, by decide +kernel, by decide +kernel, by decide +kernel⟩

instance (v : List Field4) : Decidable (Nontrivial4 v) := inferInstanceAs (Decidable (∀ f ∈ v, _))

/-- No point in it is the identity and no scalar zero. -/
example : Nontrivial4 (fields1 ⟨25, 28⟩ 9 9 ⟨2, 39⟩ 11 3) ∧
    Nontrivial4 (fields2 ⟨7, 12⟩ 12 2 ⟨30, 21⟩ 12 11 ⟨32, 24⟩ ⟨2, 39⟩ 4 8 2) ∧
    Nontrivial4 (fields3 ⟨7, 12⟩ ⟨7, 12⟩ 3 8 5 ⟨11, 24⟩ 8 6) ∧ Nontrivial4 (fields4 ⟨35, 38⟩ 12 2) ∧
    Carries toyEnv.curve ToySmp4.q (fields1 ⟨25, 28⟩ 9 9 ⟨2, 39⟩ 11 3) ToySmp4.m1 ∧
    Carries toyEnv.curve [] (fields2 ⟨7, 12⟩ 12 2 ⟨30, 21⟩ 12 11 ⟨32, 24⟩ ⟨2, 39⟩ 4 8 2) ToySmp4.m2 ∧
    Carries toyEnv.curve [] (fields3 ⟨7, 12⟩ ⟨7, 12⟩ 3 8 5 ⟨11, 24⟩ 8 6) ToySmp4.m3 ∧
    Carries toyEnv.curve [] (fields4 ⟨35, 38⟩ 12 2) ToySmp4.m4 :=
  ⟨by decide, by decide, by decide, by decide, ToySmp4.v1, ToySmp4.v2, ToySmp4.v3, ToySmp4.v4⟩

open ToySmp4 in
example : start toyEnv s q rA A0 = (.ok m1, A1) ∧ handle toyEnv (host s) m1 rB B0 = (.ok (some m2), B1) ∧
    handle toyEnv (host s) m2 rA A1 = (.ok (some m3), A2) ∧ handle toyEnv (host s) m3 rB B1 = (.ok (some m4), B2) ∧
    B2.status = .completed ∧ handle toyEnv (host s) m4 rA A2 = (.ok .none, A3) ∧ A3.status = .completed :=
  ⟨r1, r2, r3, r4, done.2, r5, done.1⟩

/-- C51 (OTRv4): as before, but the numbers the clients derive from the secrets differ.  Then neither client
reports success: both report that SMP failed. -/
theorem C51_otr4 {E : Env} (hc : SmpCurve E.curve) {hostA hostB : SMPHost} {A B : SMP4Context} {hA hB : List SmpEv}
    (_lA : SmpLife4 E hA A) (lB : SmpLife4 E hB B) {q sA sB : Bytes} (iA : A.status ≠ .inProgress)
    (iB : B.status ≠ .inProgress) (h1 : A.us = B.them) (h2 : A.them = B.us) (h3 : A.ssid = B.ssid)
    (hq : q.length < 2 ^ 32) (hans : hostB.secret q = some sB) (r1 r2 r3 r4 r5 : Rand)
    (hne : secretNumber4 E A.us A.them A.ssid sA % E.curve.q ≠ secretNumber4 E A.us A.them A.ssid sB % E.curve.q)
    (ha : ∀ i ∈ [0, 1], random E r1 i % E.curve.q ≠ 0) (hb : ∀ i ∈ [0, 1, 4], random E r2 i % E.curve.q ≠ 0)
    (hQ : (random E r2 4 + random E r1 0 * random E r2 0 * secretNumber4 E A.us A.them A.ssid sB) % E.curve.q ≠ 0) :
    ∃ m1 A1 v1, start E sA q r1 A = (.ok m1, A1) ∧ A1.status = .inProgress ∧ Carries E.curve q v1 m1 ∧
      (Nontrivial4 v1 →
    ∃ m2 B1 v2, handle E hostB m1 r2 B = (.ok (some m2), B1) ∧ B1.status = .inProgress ∧ Carries E.curve [] v2 m2 ∧
      (Nontrivial4 v2 →
    ∃ m3 A2 v3, handle E hostA m2 r3 A1 = (.ok (some m3), A2) ∧ A2.status = .inProgress ∧ Carries E.curve [] v3 m3 ∧
      (Nontrivial4 v3 →
    ∃ m4 B2 v4, handle E hostB m3 r4 B1 = (.ok (some m4), B2) ∧ B2.status = .aborted ∧ Carries E.curve [] v4 m4 ∧
      (Nontrivial4 v4 →
    ∃ A3, handle E hostA m4 r5 A2 = (.ok .none, A3) ∧ A3.status = .aborted)))) := by
  have h := run4 hc (hostA := hostA) (sA := sA) iA ((life_tied hc.good lB).idle.mpr iB) h1 h2 h3 hq hans r1 r2 r3 r4 r5 ha hb hQ
  simpa only [outcome, if_neg hne] using h

/-- The hypotheses are met when the user of Bob gives another answer; the exchange runs to its end. -/
example : secretNumber4 toyEnv ToySmp4.A0.us ToySmp4.A0.them ToySmp4.A0.ssid ToySmp4.s % toyEnv.curve.q ≠
      secretNumber4 toyEnv ToySmp4.A0.us ToySmp4.A0.them ToySmp4.A0.ssid ToySmp4.s' % toyEnv.curve.q ∧
    (random toyEnv ToySmp4.rB 4 + random toyEnv ToySmp4.rA 0 * random toyEnv ToySmp4.rB 0 *
      secretNumber4 toyEnv ToySmp4.A0.us ToySmp4.A0.them ToySmp4.A0.ssid ToySmp4.s') % toyEnv.curve.q ≠ 0 ∧
    handle toyEnv (ToySmp4.host ToySmp4.s') ToySmp4.m1 ToySmp4.rB ToySmp4.B0 = (.ok (some ToySmp4.m2'), ToySmp4.B1') ∧
    handle toyEnv (ToySmp4.host ToySmp4.s) ToySmp4.m2' ToySmp4.rA ToySmp4.A1 = (.ok (some ToySmp4.m3'), ToySmp4.A2') ∧
    handle toyEnv (ToySmp4.host ToySmp4.s') ToySmp4.m3' ToySmp4.rB ToySmp4.B1' = (.ok (some ToySmp4.m4'), ToySmp4.B2') ∧
    ToySmp4.B2'.status = .aborted ∧ ToySmp4.m4'.typ = 5 ∧
    handle toyEnv (ToySmp4.host ToySmp4.s) ToySmp4.m4' ToySmp4.rA ToySmp4.A2' = (.ok .none, ToySmp4.A3') ∧
    ToySmp4.A3'.status = .aborted := by
  refine ⟨?_, ?_, ?_, ?_, ?_, ?_, ?_, ?_, ?_⟩ <;> decide +kernel

/-- C51 (OTRv4), against a peer that need not follow the protocol, responder's side: the client received message 1
with `G2a = G * a2` and `G3a = G * a3`, sent message 2, and then accepts message 3 with `Pa`, `Qa`, `Ra` formed as the
proofs in it claim (that is, from some number `x`).  If the client reports success, then `x` is the number derived
from its own user's secret, up to multiples of the order of the group. -/
theorem C51_otr4_responder {E : Env} (hc : SmpCurve E.curve) {host : SMPHost} {B B1 B2 : SMP4Context} {m1 m2 m3 : TLV}
    {r2 r4 : Rand} {rep : Option TLV} {q answer : Bytes} (hans : host.secret q = some answer)
    (hm1 : handle E host m1 r2 B = (.ok (some m2), B1)) (t1 : m1.typ = 2) (hB1 : B1.status = .inProgress)
    (hm3 : handle E host m3 r4 B1 = (.ok rep, B2)) (hB2 : B2.status = .completed)
    {G2a G3a G2b G3b Pb Qb Pa Qa Ra : Point} {c2 d2 c3 d3 e2 f2 e3 f3 ep f5 f6 cp d5 d6 cr d7 a2 a3 s x : Nat}
    (v1 : Carries E.curve q (fields1 G2a c2 d2 G3a c3 d3) m1)
    (v2 : Carries E.curve [] (fields2 G2b e2 f2 G3b e3 f3 Pb Qb ep f5 f6) m2)
    (v3 : Carries E.curve [] (fields3 Pa Qa cp d5 d6 Ra cr d7) m3)
    (h2 : G2a = Point.mul E.curve E.curve.G a2) (h3 : G3a = Point.mul E.curve E.curve.G a3)
    (hP : Pa = Point.mul E.curve (Point.mul E.curve G3b a3) s)
    (hQ : Qa = lin2 E.curve E.curve.G s (Point.mul E.curve G2b a2) x)
    (hR : Ra = Point.mul E.curve (minus E.curve Qa Qb) a3) :
    x % E.curve.q = secretNumber4 E B.them B.us B.ssid answer % E.curve.q := by
  have := Fact.mk hc.good.field.prime
  have := hc.good.field.good
  have s1 := handle_inv hc.good hm1
  have s3 := handle_inv hc.good hm3
  cases s1 with
  | abort => cases hB1
  | two ht => rw [t1] at ht; cases ht
  | three => simp only [final] at hB1; split at hB1 <;> cases hB1
  | @one q' answer' G2a' G3a' ht hst hck hs' hg =>
    obtain ⟨_, _, _, _, w1, _⟩ := hck
    obtain ⟨rfl, hv⟩ := carries_unique hc.good.field w1 v1 rfl
    simp only [fields1, List.cons.injEq, Field4.point.injEq] at hv
    obtain ⟨rfl, -, -, rfl, -⟩ := hv
    rw [hans] at hs'; cases hs'
    obtain ⟨g1, g2, g3, g4⟩ := hg
    have w2 := carries2 hc.good g1.inSub g2.inSub (computeSecret E B.them B.us B.ssid answer) (draw2 E r2)
    obtain ⟨-, hv⟩ := carries_unique hc.good.field w2 v2 rfl
    simp only [sent2, fields2, List.cons.injEq, Field4.point.injEq] at hv
    obtain ⟨eG2, -, -, eG3, -, -, ePb, eQb, -⟩ := hv
    cases s3 with
    | abort => cases hB2
    | rejected => cases hB2
    | one _ hst' => cases hst'
    | two _ hst' => cases hst'
    | four _ hst' => cases hst'
    | @three G3a' G2' G3' b3' Pb' Qb' Pa' Qa' Ra' ht' hst' hck' =>
      obtain ⟨_, _, _, _, _, w3, k1, k2, k3, _⟩ := hck'
      obtain ⟨-, hv⟩ := carries_unique hc.good.field w3 v3 rfl
      simp only [fields3, List.cons.injEq, Field4.point.injEq] at hv
      obtain ⟨rfl, rfl, -, -, -, rfl, -⟩ := hv
      simp only [after1, SMP4State.expect3.injEq] at hst'
      obtain ⟨rfl, rfl, rfl, rfl, rfl, rfl⟩ := hst'
      simp only [final] at hB2
      change x % E.curve.q = computeSecret E B.them B.us B.ssid answer % E.curve.q
      generalize computeSecret E B.them B.us B.ssid answer = y at *
      generalize draw2 E r2 = e at *
      have hcmp : comparePoints (Point.mul E.curve Ra' e.b3)
          (sub E.curve Pa' (Point.mul E.curve (Point.mul E.curve G3a' e.b3) e.r4)) = .ok () := by
        by_contra hne
        rw [if_neg hne] at hB2
        cases hB2
      obtain ⟨g, hg, ho⟩ := order_G hc
      have hxQ := x_ne_zero hc.good g4
      have hxP := x_ne_zero hc.good g3
      subst h2 h3
      have rQb := (hg.mul e.r4).add (((hg.mul a2).mul e.b2).mul y)
      have rPb := ((hg.mul a3).mul e.b3).mul e.r4
      have rQa : Rep Qa' (s • g + x • a2 • e.b2 • g) := by
        rw [hQ, ← eG2]; exact (hg.mul s).add (((hg.mul e.b2).mul a2).mul x)
      have rPa : Rep Pa' (s • a3 • e.b3 • g) := by
        rw [hP, ← eG3]; exact ((hg.mul e.b3).mul a3).mul s
      rw [← eQb] at hR
      have rR : Rep Ra' (a3 • ((s • g + x • a2 • e.b2 • g) - (e.r4 • g + y • e.b2 • a2 • g))) := by
        rw [hR]; exact (rep_sub rQa rQb (.inr hxQ)).mul a3
      have hfin := encode_sub hc.good.field rPa rPb (rR.mul e.b3) (comparePoints_ok.mp hcmp).1
      have nz : ∀ {u v : Nat}, GoodKey E.curve (Point.mul E.curve (Point.mul E.curve E.curve.G u) v) →
          (u * v) % E.curve.q ≠ 0 := by
        intro u v hk h0
        apply hk.ne
        refine (((hg.mul u).mul v).eq_iff rep_identity).mpr ?_
        rw [← mul_smul, ← addOrderOf_dvd_iff_nsmul_eq_zero, ho, Nat.mul_comm]
        exact Nat.dvd_of_mod_eq_zero h0
      have hkey := (final_pt ho (a2 * e.b2) (a3 * e.b3) s e.r4 x y).mp (by
        rw [show e.b2 • a2 • g = (a2 * e.b2) • g by rw [← mul_smul, Nat.mul_comm], ← mul_smul e.b3 a3, Nat.mul_comm e.b3,
          show e.b3 • a3 • g = (a3 * e.b3) • g by rw [← mul_smul, Nat.mul_comm], ← mul_smul a2 e.b2, ← mul_smul a3 e.b3 g] at hfin
        exact hfin)
      exact (cancel_mod hc.prime (mul_mod_ne hc.prime (nz g1) (nz g2))).mp hkey

/-- The hypotheses are met by the concrete exchange, with `s` = 2 and `x` = 3, derived from the secret. -/
example : Carries toyEnv.curve ToySmp4.q (fields1 ⟨25, 28⟩ 9 9 ⟨2, 39⟩ 11 3) ToySmp4.m1 ∧
    Carries toyEnv.curve [] (fields2 ⟨7, 12⟩ 12 2 ⟨30, 21⟩ 12 11 ⟨32, 24⟩ ⟨2, 39⟩ 4 8 2) ToySmp4.m2 ∧
    Carries toyEnv.curve [] (fields3 ⟨7, 12⟩ ⟨7, 12⟩ 3 8 5 ⟨11, 24⟩ 8 6) ToySmp4.m3 ∧
    ⟨25, 28⟩ = Point.mul toyEnv.curve toyEnv.curve.G 2 ∧ ⟨2, 39⟩ = Point.mul toyEnv.curve toyEnv.curve.G 1 ∧
    ⟨7, 12⟩ = Point.mul toyEnv.curve (Point.mul toyEnv.curve ⟨30, 21⟩ 1) 2 ∧
    ⟨7, 12⟩ = lin2 toyEnv.curve toyEnv.curve.G 2 (Point.mul toyEnv.curve ⟨7, 12⟩ 2) 3 ∧
    ⟨11, 24⟩ = Point.mul toyEnv.curve (minus toyEnv.curve ⟨7, 12⟩ ⟨2, 39⟩) 1 ∧ ToySmp4.m1.typ = 2 ∧
    ToySmp4.B1.status = .inProgress ∧ ToySmp4.B2.status = .completed :=
  ⟨ToySmp4.v1, ToySmp4.v2, ToySmp4.v3, by decide +kernel, by decide +kernel, by decide +kernel, by decide +kernel,
    by decide +kernel, by decide +kernel, ToySmp4.running.2.1, ToySmp4.done.2⟩

/-- C51 (OTRv4), against a peer that need not follow the protocol, initiator's side: the client sent message 1,
accepted message 2 with `G2b = G * b2`, `G3b = G * b3`, `Pb` and `Qb` formed from some number `y`, and message 4 with
`Rb`, all as the proofs in them claim.  If the client reports success, then `y` is the number derived from its own
user's secret, up to multiples of the order of the group. -/
theorem C51_otr4_initiator {E : Env} (hc : SmpCurve E.curve) {host : SMPHost} {A A1 A2 A3 : SMP4Context}
    {m1 m2 m3 m4 : TLV} {r1 r3 r5 : Rand} {rep : Option TLV} {secret q q' : Bytes} (hq : q.length < 2 ^ 32)
    (hm1 : start E secret q r1 A = (.ok m1, A1))
    (hm2 : handle E host m2 r3 A1 = (.ok (some m3), A2)) (hA2 : A2.status = .inProgress)
    (hm4 : handle E host m4 r5 A2 = (.ok rep, A3)) (hA3 : A3.status = .completed)
    {G2a G3a G2b G3b Pb Qb Pa Qa Rb : Point} {c2 d2 c3 d3 e2 f2 e3 f3 ep f5 f6 er f7 b2 b3 t y : Nat}
    (v1 : Carries E.curve q' (fields1 G2a c2 d2 G3a c3 d3) m1)
    (v2 : Carries E.curve [] (fields2 G2b e2 f2 G3b e3 f3 Pb Qb ep f5 f6) m2)
    (v3 : Sent4_3 E.curve Pa Qa m3)
    (v4 : Carries E.curve [] (fields4 Rb er f7) m4)
    (h2 : G2b = Point.mul E.curve E.curve.G b2) (h3 : G3b = Point.mul E.curve E.curve.G b3)
    (hP : Pb = Point.mul E.curve (Point.mul E.curve G3a b3) t)
    (hQ : Qb = lin2 E.curve E.curve.G t (Point.mul E.curve G2a b2) y)
    (hR : Rb = Point.mul E.curve (minus E.curve Qa Qb) b3) :
    secretNumber4 E A.us A.them A.ssid secret % E.curve.q = y % E.curve.q := by
  have := Fact.mk hc.good.field.prime
  have := hc.good.field.good
  have hG := inSub_G hc.good
  obtain ⟨_, e1, eA1⟩ := start_ok hm1
  subst e1 eA1
  have s2 := handle_inv hc.good hm2
  have s4 := handle_inv hc.good hm4
  have w1 := carries1 hc.good hq (random E r1 0) (random E r1 1) (random E r1 2) (random E r1 3)
  obtain ⟨-, hv⟩ := carries_unique hc.good.field w1 v1 rfl
  simp only [sent1, fields1, List.cons.injEq, Field4.point.injEq] at hv
  obtain ⟨eG2a, -, -, eG3a, -⟩ := hv
  cases s2 with
  | abort => cases hA2
  | one _ hst => cases hst
  | three _ hst => cases hst
  | @two x a2 a3 G2b' G3b' Pb' Qb' ht hst hck =>
    cases hst
    obtain ⟨_, _, _, _, _, _, _, w2, k1, k2, o1, o2, k3, k4, _⟩ := hck
    obtain ⟨-, hv⟩ := carries_unique hc.good.field w2 v2 rfl
    simp only [fields2, List.cons.injEq, Field4.point.injEq] at hv
    obtain ⟨rfl, -, -, rfl, -, -, rfl, rfl, -⟩ := hv
    cases s4 with
    | abort => cases hA3
    | rejected => cases hA3
    | one _ hst' => cases hst'
    | two _ hst' => cases hst'
    | three _ hst' => cases hst'
    | @four G3b'' dP dQ a3'' Rb' ht' hst' hck' hcmp =>
      obtain ⟨_, _, w4, kR, _⟩ := hck'
      obtain ⟨-, hv⟩ := carries_unique hc.good.field w4 v4 rfl
      simp only [fields4, List.cons.injEq, Field4.point.injEq] at hv
      obtain ⟨rfl, -⟩ := hv
      simp only [after2, SMP4State.expect4.injEq] at hst'
      obtain ⟨rfl, rfl, rfl, rfl⟩ := hst'
      obtain ⟨oPa, oQa, cp, d5, d6, Ra, cr, d7, hv3⟩ := v3
      change computeSecret E A.us A.them A.ssid secret % E.curve.q = _
      simp only [after2, message3, wPoint] at hv3
      generalize computeSecret E A.us A.them A.ssid secret = x at *
      generalize draw3 E r3 = e at *
      generalize random E r1 0 = a2 at *
      generalize random E r1 1 = a3 at *
      have oP : OnCurve E.curve (Point.mul E.curve (Point.mul E.curve G3b' a3) e.r4) := (k4.inSub.mul _).1
      have oQ : OnCurve E.curve (comb2 E.curve E.curve.G e.r4 (Point.mul E.curve G2b' a2) (x % E.curve.q)) :=
        (hG.comb2 k3.inSub _ _).1
      simp only [List.append_assoc] at hv3
      obtain ⟨q1, hv3⟩ := List.append_inj hv3 (by rw [Point.encode_length, Point.encode_length])
      obtain ⟨q2, -⟩ := List.append_inj hv3 (by rw [Point.encode_length, Point.encode_length])
      have ePa := encode_inj hc.good.field oP oPa q1
      have eQa := encode_inj hc.good.field oQ oQa q2
      obtain ⟨g, hg, ho⟩ := order_G hc
      subst h2 h3
      rw [← eG2a] at hQ
      rw [← eG3a] at hP
      rw [← eQa] at hR
      rw [ePa] at hcmp
      have rQa := (hg.mul e.r4).add (((hg.mul b2).mul a2).mul (x % E.curve.q))
      have rPa : Rep Pa (e.r4 • a3 • b3 • g) := by rw [← ePa]; exact ((hg.mul b3).mul a3).mul e.r4
      have rQb : Rep Qb' (t • g + y • b2 • a2 • g) := by rw [hQ]; exact (hg.mul t).add (((hg.mul a2).mul b2).mul y)
      have rPb : Rep Pb' (t • b3 • a3 • g) := by rw [hP]; exact ((hg.mul a3).mul b3).mul t
      have rR : Rep Rb' (b3 • ((e.r4 • g + (x % E.curve.q) • a2 • b2 • g) - (t • g + y • b2 • a2 • g))) := by
        refine ⟨kR.on.x_lt, kR.on.y_lt, ?_⟩
        rw [hR]; exact mul_coord (sub_coord rQa rQb) b3
      have hfin := encode_sub hc.good.field rPa rPb (rR.mul a3) (comparePoints_ok.mp hcmp).1
      have nz : ∀ {u v : Nat}, GoodKey E.curve (Point.mul E.curve (Point.mul E.curve E.curve.G u) v) →
          (v * u) % E.curve.q ≠ 0 := by
        intro u v hk h0
        apply hk.ne
        refine (((hg.mul u).mul v).eq_iff rep_identity).mpr ?_
        rw [← mul_smul, ← addOrderOf_dvd_iff_nsmul_eq_zero, ho]
        exact Nat.dvd_of_mod_eq_zero h0
      have hkey := (final_pt ho (a2 * b2) (a3 * b3) e.r4 t (x % E.curve.q) y).mp (by
        rw [show b2 • a2 • g = (a2 * b2) • g by rw [← mul_smul, Nat.mul_comm], ← mul_smul a3 b3,
          show b3 • a3 • g = (a3 * b3) • g by rw [← mul_smul, Nat.mul_comm], ← mul_smul a2 b2 g, ← mul_smul a3 b3 g] at hfin
        exact hfin)
      have := (cancel_mod hc.prime (mul_mod_ne hc.prime (nz k3) (nz k4))).mp hkey
      rwa [Nat.mod_mod] at this

/-- The hypotheses are met by the concrete exchange, with `t` = 6 and `y` = 3, derived from the secret. -/
example : Carries toyEnv.curve ToySmp4.q (fields1 ⟨25, 28⟩ 9 9 ⟨2, 39⟩ 11 3) ToySmp4.m1 ∧
    Carries toyEnv.curve [] (fields2 ⟨7, 12⟩ 12 2 ⟨30, 21⟩ 12 11 ⟨32, 24⟩ ⟨2, 39⟩ 4 8 2) ToySmp4.m2 ∧
    Sent4_3 toyEnv.curve ⟨7, 12⟩ ⟨7, 12⟩ ToySmp4.m3 ∧ Carries toyEnv.curve [] (fields4 ⟨35, 38⟩ 12 2) ToySmp4.m4 ∧
    ⟨7, 12⟩ = Point.mul toyEnv.curve toyEnv.curve.G 10 ∧ ⟨30, 21⟩ = Point.mul toyEnv.curve toyEnv.curve.G 5 ∧
    ⟨32, 24⟩ = Point.mul toyEnv.curve (Point.mul toyEnv.curve ⟨2, 39⟩ 5) 6 ∧
    ⟨2, 39⟩ = lin2 toyEnv.curve toyEnv.curve.G 6 (Point.mul toyEnv.curve ⟨25, 28⟩ 10) 3 ∧
    ⟨35, 38⟩ = Point.mul toyEnv.curve (minus toyEnv.curve ⟨7, 12⟩ ⟨2, 39⟩) 5 ∧
    ToySmp4.A2.status = .inProgress ∧ ToySmp4.A3.status = .completed :=
  ⟨ToySmp4.v1, ToySmp4.v2, ⟨ToySmp4.on3.1, ToySmp4.on3.2.1, 3, 8, 5, ⟨11, 24⟩, 8, 6, by decide +kernel⟩, ToySmp4.v4,
    by decide +kernel, by decide +kernel, by decide +kernel, by decide +kernel, by decide +kernel, ToySmp4.running.2.2,
    ToySmp4.done.1⟩

/-! ## C52: errors reset SMP -/

/-- C52 fails for OTRv4: a client that does not run SMP crashes when it receives a message 1 in which a scalar is
zero, whatever its history. -/
theorem C52_otr4_violated {E : Env} (hc : SmpCurve E.curve) {h : List SmpEv} {c : SMP4Context} (hl : SmpLife4 E h c)
    (hi : c.status ≠ .inProgress) (host : SMPHost) (rnd : Rand) :
    (handle E host ⟨2, wData [] ++ E.curve.G.encode ++ List.replicate 57 0⟩ rnd c).1 = .panic := by
  have hst := (life_tied hc.good hl).idle.mpr hi
  have k := goodKey_G hc
  have hd : runDec (readMsg1 E.curve) (wData [] ++ E.curve.G.encode ++ List.replicate 57 0) = .panic := by
    have : readMsg1 E.curve (wData [] ++ E.curve.G.encode ++ List.replicate 57 0) = .panic := by
      have hs : readScalar E.curve (List.replicate 57 0) = .panic := by
        unfold readScalar
        rw [Dec.bind_run]
        rfl
      have hp := readPoint_w hc.good.field k.on (List.replicate 57 0)
      rw [wPoint] at hp
      unfold readMsg1
      rw [List.append_assoc]
      simp only [Dec.bind_run, readData_w (d := []) (by simp [dataOk]), hp, Dec.lift, (verify_iff k.on).mpr k, hs]
    unfold runDec
    rw [this]
  have : dispatch E host ⟨2, wData [] ++ E.curve.G.encode ++ List.replicate 57 0⟩ rnd c = .panic := by
    simp only [dispatch, if_neg (show ¬ (2 : UInt16) = TAbort by decide), if_pos (show (2 : UInt16) = T1 by decide), handle1, hst, hd]
    rfl
  simp only [handle, this]

example : SmpCurve toyEnv.curve ∧ SmpLife4 toyEnv [] ToySmp4.B0 ∧ ToySmp4.B0.status ≠ .inProgress :=
  ⟨toy_smpCurve, ToySmp4.lifeB0, by decide +kernel⟩

theorem isSmp_of {t : TLV} (ht : t.typ ∈ [2, 3, 4, 5, 6]) : isSmpTlv t = true := by
  simp only [List.mem_cons, List.not_mem_nil, or_false] at ht
  simp only [isSmpTlv, Bool.or_eq_true, beq_iff_eq, T1, T2, T3, T4, TAbort]
  tauto

/-- C52 (OTRv4), part 1: at any time, every message of SMP that is not `Crashing` is handled.  Either SMP goes on,
or it is over and can be started again at once.  (Two of the random numbers drawn then must not be multiples of `q`;
the client panics otherwise.) -/
theorem C52_otr4_restart_partial {E : Env} (hc : SmpCurve E.curve) (c : SMP4Context) (host : SMPHost) {t : TLV} (ht : t.typ ∈ [2, 3, 4, 5, 6])
    (hn : t.typ = awaited4 c.state → ¬ Crashing E t c.state) (rnd : Rand) :
    ∃ r c', handle E host t rnd c = (.ok r, c') ∧
      (c'.status = .inProgress ∨ (c'.status = .aborted ∨ c'.status = .completed) ∧
        ∀ secret q rnd', random E rnd' 0 % E.curve.q ≠ 0 → random E rnd' 1 % E.curve.q ≠ 0 →
          ∃ m c'', start E secret q rnd' c' = (.ok m, c'') ∧ c''.status = .inProgress) := by
  rcases handle_step (host := host) (rnd := rnd) (c := c) hc.good (isSmp_of ht) with ⟨r, c', h1, hs⟩ | ⟨_, h2, h3⟩
  · refine ⟨r, c', h1, ?_⟩
    by_cases hin : c'.status = .inProgress
    · exact .inl hin
    · refine .inr ⟨?_, fun secret q rnd' r0 r1 => ⟨_, _, start_of hc hin r0 r1, rfl⟩⟩
      cases hs with
      | abort => exact .inl rfl
      | rejected => exact .inl rfl
      | one => exact absurd rfl hin
      | two => exact absurd rfl hin
      | three => simp only [final]; split <;> simp
      | four => exact .inr rfl
  · exact absurd h3 (hn h2)

/-- C52 (OTRv4), part 2: a message of a type the client does not wait for, or one that it cannot accept (malformed,
not in the group, or with an invalid proof) but is not `Crashing`, ends SMP: the client reports that SMP was aborted.
No reply is sent. -/
theorem C52_otr4_reject_partial {E : Env} (hc : SmpCurve E.curve) (c : SMP4Context) (host : SMPHost) {t : TLV}
    (ht : t.typ ∈ [2, 3, 4, 5]) (hbad : t.typ ≠ awaited4 c.state ∨ ¬ Acceptable4 E t c.state ∧ ¬ Crashing E t c.state)
    (rnd : Rand) : ∃ c', handle E host t rnd c = (.ok .none, c') ∧ c'.status = .aborted := by
  have hna : t.typ ≠ TAbort := by
    intro h6
    rw [h6] at ht
    revert ht
    decide
  rcases handle_step (host := host) (rnd := rnd) (c := c) hc.good
    (isSmp_of (by simp only [List.mem_cons, List.not_mem_nil, or_false] at ht ⊢; tauto)) with ⟨r, c', h1, hs⟩ | ⟨_, h2, h3⟩
  · cases hs with
    | abort h6 => exact absurd h6 hna
    | rejected => exact ⟨_, h1, rfl⟩
    | one hty hst hck =>
      exfalso
      rw [hst] at hbad
      rcases hbad with hb | hb
      · exact hb hty
      · exact hb.1 ⟨_, _, _, hck⟩
    | two hty hst hck =>
      exfalso
      rw [hst] at hbad
      rcases hbad with hb | hb
      · exact hb hty
      · exact hb.1 ⟨_, _, _, _, hck⟩
    | three hty hst hck =>
      exfalso
      rw [hst] at hbad
      rcases hbad with hb | hb
      · exact hb hty
      · exact hb.1 ⟨_, _, _, hck⟩
    | four hty hst hck =>
      exfalso
      rw [hst] at hbad
      rcases hbad with hb | hb
      · exact hb hty
      · exact hb.1 ⟨_, hck⟩
  · rcases hbad with hb | hb
    · exact absurd h2 hb
    · exact absurd h3 hb.2

/-- C52 (OTRv4), part 3: when the peer aborts, SMP ends and can be started again. -/
theorem C52_otr4_abort {E : Env} (hc : SmpCurve E.curve) (host : SMPHost) (v : Bytes) (rnd : Rand) (c : SMP4Context) :
    ∃ r c', handle E host ⟨6, v⟩ rnd c = (.ok r, c') ∧ c'.status = .aborted ∧
      ∀ secret q rnd', random E rnd' 0 % E.curve.q ≠ 0 → random E rnd' 1 % E.curve.q ≠ 0 →
        ∃ m c'', start E secret q rnd' c' = (.ok m, c'') :=
  ⟨_, { c with state := .expect1, status := .aborted }, rfl, rfl, fun _ _ _ r0 r1 => ⟨_, _, start_of hc (by simp) r0 r1⟩⟩

/-- A message out of order, one in order that is too short, and the message that is accepted. -/
example : SmpLife4 toyEnv [.started ToySmp4.m1] ToySmp4.A1 ∧ (4 : UInt16) ≠ awaited4 ToySmp4.A1.state ∧
    (3 : UInt16) = awaited4 ToySmp4.A1.state ∧
    handle toyEnv (ToySmp4.host ToySmp4.s) ToySmp4.m3 ToySmp4.rA ToySmp4.A1 =
      (.ok .none, { ToySmp4.A1 with status := .aborted, state := .expect1 }) ∧
    handle toyEnv (ToySmp4.host ToySmp4.s) ⟨3, [1, 2, 3]⟩ ToySmp4.rA ToySmp4.A1 =
      (.ok .none, { ToySmp4.A1 with status := .aborted, state := .expect1 }) ∧
    handle toyEnv (ToySmp4.host ToySmp4.s) ToySmp4.m2 ToySmp4.rA ToySmp4.A1 = (.ok (some ToySmp4.m3), ToySmp4.A2) ∧
    random toyEnv ToySmp4.rA 0 % toyEnv.curve.q ≠ 0 ∧ random toyEnv ToySmp4.rA 1 % toyEnv.curve.q ≠ 0 :=
  ⟨ToySmp4.lifeA1, by decide +kernel, by decide +kernel, by decide +kernel, by decide +kernel, ToySmp4.r3,
    by decide +kernel, by decide +kernel⟩

/-- A short message is neither acceptable nor crashing. -/
example : ¬ Acceptable4 toyEnv ⟨3, [1, 2, 3]⟩ ToySmp4.A1.state ∧ ¬ Crashing toyEnv ⟨3, [1, 2, 3]⟩ ToySmp4.A1.state := by
  obtain ⟨x, a2, a3, hA⟩ : ∃ x a2 a3, ToySmp4.A1.state = .expect2 x a2 a3 :=
    ⟨computeSecret toyEnv ToySmp4.A0.us ToySmp4.A0.them ToySmp4.A0.ssid ToySmp4.s, 2, 1, by decide +kernel⟩
  have key : ∀ {q P v}, ¬ Carries toyEnv.curve q (.point P :: v) ⟨3, [1, 2, 3]⟩ := by
    intro q P v h
    rcases h with ⟨h, _⟩ | ⟨_, _, h⟩
    · exact absurd h (by decide)
    · generalize hb : (TLV.mk 3 [1, 2, 3]).value = b at h
      cases h with
      | point hl _ _ _ =>
        have := congrArg List.length hb
        simp only [List.length_append, hl, List.length_cons, List.length_nil] at this
        omega
  rw [hA]
  constructor
  · rintro ⟨_, _, _, _, _, _, _, _, _, _, _, h, _⟩
    exact key h
  · rintro (h | ⟨_, _, h, _⟩)
    · have := h.length_le
      rw [List.length_replicate] at this
      exact absurd this (by decide)
    · cases h with
      | m2c2 h => exact key h
      | m2c3 h => exact key h
      | m2cp h => exact key h

/-! ## C53: success only after all checks -/

namespace ToySmp4

/-- Bob chooses `r4 = 0`, so that `Pb` is the identity, and follows the protocol otherwise. -/
def e0 : SMP.Exps2 := { draw2 toyEnv rB with r4 := 0 }
@[irreducible] def n2 : TLV := ⟨3, message2 toyEnv (Point.mul toyEnv.curve ⟨25, 28⟩ e0.b2) (Point.mul toyEnv.curve ⟨2, 39⟩ e0.b3)
  (computeSecret toyEnv A0.us A0.them A0.ssid s) e0⟩
@[irreducible] def n3 : TLV := tlv (handle toyEnv (host s) n2 rA A1)
@[irreducible] def A2n : SMP4Context := (handle toyEnv (host s) n2 rA A1).2
@[irreducible] def n4 : TLV := ⟨5, message4 toyEnv ⟨25, 28⟩ e0.b3 (random toyEnv rB 3)⟩
@[irreducible] def A3n : SMP4Context := (handle toyEnv (host s) n4 rA A2n).2

theorem w2 : Carries toyEnv.curve [] (fields2 ⟨7, 12⟩ 12 2 ⟨30, 21⟩ 12 11 Point.identity ⟨13, 21⟩ 4 6 2) n2 :=
  carries_of (by decide +kernel) (readMsg2_fields toy_goodCurve.field (s := n2.value)
    (m := ⟨⟨7, 12⟩, 12, 2, ⟨30, 21⟩, 12, 11, ⟨0, 1⟩, ⟨13, 21⟩, 4, 6, 2⟩) (by decide +kernel)).1

end ToySmp4

/-- C53 fails for OTRv4: an initiator reports success although the point `Pb` in message 2 was the identity. -/
theorem C53_otr4_violated : ∃ (E : Env) (c : SMP4Context) (m1 m2 m3 m4 : TLV) (v : List Field4), SmpCurve E.curve ∧
    SmpLife4 E ([.started m1, .received m2 (some m3) .inProgress] ++ [.received m4 .none .completed]) c ∧
    Carries E.curve [] v m2 ∧ v[6]? = some (.point Point.identity) := by
  have h1 : handle toyEnv (ToySmp4.host ToySmp4.s) ToySmp4.n2 ToySmp4.rA ToySmp4.A1 = (.ok (some ToySmp4.n3), ToySmp4.A2n) := by
    decide +kernel
  have h2 : handle toyEnv (ToySmp4.host ToySmp4.s) ToySmp4.n4 ToySmp4.rA ToySmp4.A2n = (.ok .none, ToySmp4.A3n) := by
    decide +kernel
  have l := SmpLife4.received (SmpLife4.received ToySmp4.lifeA1 h1) h2
  rw [show ToySmp4.A2n.status = .inProgress by decide +kernel, show ToySmp4.A3n.status = .completed by decide +kernel] at l
  exact ⟨toyEnv, ToySmp4.A3n, ToySmp4.m1, ToySmp4.n2, ToySmp4.n3, ToySmp4.n4, _, toy_smpCurve, l, ToySmp4.w2, rfl⟩

/-- C53 (OTRv4): whatever was received before, when a client reports success, then this very exchange was checked
from start to end.  Either the client was the responder: it received message 1 with `G2a`, `G3a` in the group and
proven, sent message 2 with `G2b`, `G3b`, `Pb`, `Qb`, and just received message 3 with `Pa`, `Qa`, `Ra` in the group and
proven for these values, and the comparison holds.  Or it was the initiator: it sent message 1, received message 2
with `G2b`, `G3b` in the group and everything proven, sent message 3, just received message 4 with `Rb` in the group
and proven, and the comparison holds.  No other event came in between.  What is missing: `Pb` and `Qb` in message 2 are
only known to be on the curve. -/
theorem C53_otr4_partial {E : Env} (hc : SmpCurve E.curve) {h : List SmpEv} {c : SMP4Context} {t : TLV} {r : Option TLV}
    (hl : SmpLife4 E (h ++ [.received t r .completed]) c) :
    (∃ h' m1 m2 b2 b3 q G2a G3a Pb Qb Pa Qa Ra, h = h' ++ [.received m1 (some m2) .inProgress] ∧
      Checked4_1 E q G2a G3a m1 ∧
      Sent4_2 E.curve (Point.mul E.curve E.curve.G b2) (Point.mul E.curve E.curve.G b3) Pb Qb m2 ∧
      GoodKey E.curve Pb ∧ GoodKey E.curve Qb ∧
      GoodKey E.curve (Point.mul E.curve G2a b2) ∧ GoodKey E.curve (Point.mul E.curve G3a b3) ∧
      Checked4_3 E G3a (Point.mul E.curve G2a b2) (Point.mul E.curve G3a b3) Qb Pa Qa Ra t ∧
      Point.add E.curve (Point.mul E.curve Ra b3) Pb = Pa) ∨
    (∃ h' m1 m2 m3 a2 a3 G2b G3b Pb Qb Pa Qa Rb, h = h' ++ [.started m1, .received m2 (some m3) .inProgress] ∧
      Sent4_1 E.curve (Point.mul E.curve E.curve.G a2) (Point.mul E.curve E.curve.G a3) m1 ∧
      Checked4_2 E a2 a3 G2b G3b Pb Qb m2 ∧ Sent4_3 E.curve Pa Qa m3 ∧
      Checked4_4 E G3b (minus E.curve Qa Qb) Rb t ∧
      Point.add E.curve (Point.mul E.curve Rb a3) Pb = Pa) := by
  generalize hh : h ++ [SmpEv.received t r .completed] = hist at hl
  cases hl with
  | new => simp at hh
  | started hl hs => have := (List.append_inj' hh rfl).2; cases this
  | aborted hl hs => have := (List.append_inj' hh rfl).2; cases this
  | @received h0 c0 _ host t' rnd r' hl hs =>
    obtain ⟨rfl, he⟩ := List.append_inj' hh rfl
    simp only [List.cons.injEq, SmpEv.received.injEq, and_true] at he
    obtain ⟨rfl, rfl, hst⟩ := he
    have tied := life_tied hc.good hl
    have step := handle_inv hc.good hs
    cases step with
    | abort => cases hst
    | rejected => cases hst
    | one => cases hst
    | two => cases hst
    | @three G3a G2 G3 b3 Pb Qb Pa Qa Ra ht hst' hck =>
      left
      rw [Tied, hst'] at tied
      obtain ⟨_, h', m1, m2, q, G2a, b2, rfl, hc1, rfl, rfl, g1, g2, g3, g4, hs2⟩ := tied
      have hcmp : comparePoints (Point.mul E.curve Ra b3) (sub E.curve Pa Pb) = .ok () := by
        simp only [final] at hst
        by_contra hne
        rw [if_neg hne] at hst
        cases hst
      have hck' := hck
      obtain ⟨_, _, _, _, _, _, k1, k2, k3, _⟩ := hck'
      exact ⟨h', m1, m2, b2, b3, q, G2a, G3a, Pb, Qb, Pa, Qa, Ra, rfl, hc1, hs2, g3, g4, g1, g2, hck,
        compare_sub hc.good k3.on k1.on g3.on hcmp⟩
    | @four G3b dP dQ a3 Rb ht hst' hck hcmp =>
      right
      rw [Tied, hst'] at tied
      obtain ⟨_, h', m1, m2, m3, a2, G2b, Pb, Qb, Pa, Qa, rfl, hs1, hc2, hs3, rfl, rfl⟩ := tied
      have hc2' := hc2
      obtain ⟨_, _, _, _, _, _, _, _, _, _, o1, _⟩ := hc2'
      have hck' := hck
      obtain ⟨_, _, _, kR, _⟩ := hck'
      exact ⟨h', m1, m2, m3, a2, a3, G2b, G3b, Pb, Qb, Pa, Qa, Rb, rfl, hs1, hc2, hs3, hck,
        compare_sub hc.good kR.on hs3.1 o1 hcmp⟩

/-- Both clients report success in the concrete exchange. -/
example : SmpLife4 toyEnv ([.received ToySmp4.m1 (some ToySmp4.m2) .inProgress] ++
      [.received ToySmp4.m3 (some ToySmp4.m4) .completed]) ToySmp4.B2 ∧
    SmpLife4 toyEnv ([.started ToySmp4.m1, .received ToySmp4.m2 (some ToySmp4.m3) .inProgress] ++
      [.received ToySmp4.m4 .none .completed]) ToySmp4.A3 := ⟨ToySmp4.lifeB2, ToySmp4.lifeA3⟩

/-! ## C54: aborting terminates -/

/-- C54 fails for OTRv4: an abort is answered with an abort.  After one client aborts, any number of messages can be
delivered, and there is always one more on its way, whatever the states of the clients. -/
theorem C54_otr4_violated (E : Env) (a b : SMP4Context) (n : Nat) :
    ∃ t a' s', SMP4.abort a = (.ok t, a') ∧ SmpNet4.Delivers E n ⟨a', b, [], [t]⟩ s' ∧ (s'.toA ++ s'.toB).length = 1 := by
  have key : ∀ n, (∀ a b : SMP4Context, ∃ s', SmpNet4.Delivers E n ⟨a, b, [], [abortTlv]⟩ s' ∧ (s'.toA ++ s'.toB).length = 1) ∧
      (∀ a b : SMP4Context, ∃ s', SmpNet4.Delivers E n ⟨a, b, [abortTlv], []⟩ s' ∧ (s'.toA ++ s'.toB).length = 1) := by
    intro n
    induction n with
    | zero => exact ⟨fun a b => ⟨_, .zero _, rfl⟩, fun a b => ⟨_, .zero _, rfl⟩⟩
    | succ n ih =>
      constructor
      · intro a b
        obtain ⟨s', h1, h2⟩ := ih.2 a { b with state := .expect1, status := .aborted }
        exact ⟨s', .succ (.b (pre := []) (post := []) (host := ⟨.none, fun _ => .none⟩) (rnd := toyRand 0)
          (r := some abortTlv) rfl) h1, h2⟩
      · intro a b
        obtain ⟨s', h1, h2⟩ := ih.1 { a with state := .expect1, status := .aborted } b
        exact ⟨s', .succ (.a (pre := []) (post := []) (host := ⟨.none, fun _ => .none⟩) (rnd := toyRand 0)
          (r := some abortTlv) rfl) h1, h2⟩
  obtain ⟨s', h1, h2⟩ := (key n).1 { a with state := .expect1, status := .aborted } b
  exact ⟨abortTlv, _, s', rfl, h1, h2⟩

/-- C54 (OTRv4), for other messages: the reply to a message that is not an abort costs less than this message and is
not an abort, whatever the state of the receiver. -/
theorem C54_otr4_reply_partial {E : Env} (hc : SmpCurve E.curve) {host : SMPHost} {t : TLV} {rnd : Rand}
    {c c' : SMP4Context} {r : TLV} (h6 : t.typ ≠ 6) (hh : handle E host t rnd c = (.ok (some r), c')) :
    cost r < cost t ∧ r.typ ≠ 6 := by
  have step := handle_inv hc.good hh
  cases step with
  | abort h => exact absurd h h6
  | one h =>
    have e : cost t = 5 := by rw [cost, h]; decide
    rw [e]
    exact ⟨(by decide : 4 < 5), by show T2 ≠ 6; decide⟩
  | two h =>
    have e : cost t = 4 := by rw [cost, h]; decide
    rw [e]
    exact ⟨(by decide : 3 < 4), by show T3 ≠ 6; decide⟩
  | three h =>
    have e : cost t = 3 := by rw [cost, h]; decide
    rw [e]
    exact ⟨(by decide : 2 < 3), by show T4 ≠ 6; decide⟩

/-- C54 (OTRv4): take two clients in any states and any messages on their way that are not aborts.  If no user
starts SMP again, at most `cost` messages are delivered in total, in whatever order: each message adds at most 5.  What
is missing: aborts. -/
theorem C54_otr4_partial {E : Env} (hc : SmpCurve E.curve) {s s' : SmpNet4} {n : Nat}
    (h6 : ∀ t ∈ s.toA ++ s.toB, t.typ ≠ 6) (hd : SmpNet4.Delivers E n s s') :
    n ≤ s.cost ∧ s.cost ≤ 5 * (s.toA.length + s.toB.length) := by
  have h1 : ∀ t, 1 ≤ cost t := by
    intro t; unfold cost; repeat' split
    all_goals simp
  constructor
  · induction hd with
    | zero => exact Nat.zero_le _
    | @succ n s s1 s2 h1' _ ih =>
      cases h1' with
      | @a a b a' pre t post toB host rnd r hh =>
        simp only [List.mem_append, List.mem_cons] at h6
        have h5 := h1 t
        cases r with
        | none =>
          have := ih (by
            intro u hu
            simp only [Option.toList, List.append_nil, List.mem_append] at hu
            exact h6 u (by tauto))
          simp only [SmpNet4.cost, List.map_append, List.sum_append, List.map_cons, List.sum_cons, Option.toList,
            List.append_nil] at this ⊢
          omega
        | some r =>
          have h7 := C54_otr4_reply_partial hc (h6 t (by tauto)) hh
          have := ih (by
            intro u hu
            simp only [Option.toList, List.mem_append, List.mem_cons, List.not_mem_nil, or_false] at hu
            rcases hu with hu | hu | rfl
            · exact h6 u (by tauto)
            · exact h6 u (by tauto)
            · exact h7.2)
          simp only [SmpNet4.cost, List.map_append, List.sum_append, List.map_cons, List.sum_cons, Option.toList,
            List.map_nil, List.sum_nil] at this ⊢
          omega
      | @b a b b' toA pre t post host rnd r hh =>
        simp only [List.mem_append, List.mem_cons] at h6
        have h5 := h1 t
        cases r with
        | none =>
          have := ih (by
            intro u hu
            simp only [Option.toList, List.append_nil, List.mem_append] at hu
            exact h6 u (by tauto))
          simp only [SmpNet4.cost, List.map_append, List.sum_append, List.map_cons, List.sum_cons, Option.toList,
            List.append_nil] at this ⊢
          omega
        | some r =>
          have h7 := C54_otr4_reply_partial hc (h6 t (by tauto)) hh
          have := ih (by
            intro u hu
            simp only [Option.toList, List.mem_append, List.mem_cons, List.not_mem_nil, or_false] at hu
            rcases hu with (hu | rfl) | hu | hu
            · exact h6 u (by tauto)
            · exact h7.2
            · exact h6 u (by tauto)
            · exact h6 u (by tauto))
          simp only [SmpNet4.cost, List.map_append, List.sum_append, List.map_cons, List.sum_cons, Option.toList,
            List.map_nil, List.sum_nil] at this ⊢
          omega
  · have hsum : ∀ l : List TLV, (l.map cost).sum ≤ 5 * l.length := by
      intro l
      induction l with
      | nil => simp
      | cons t l ih =>
        have : cost t ≤ 5 := by unfold cost; repeat' split
                                all_goals simp
        simp only [List.map_cons, List.sum_cons, List.length_cons]
        omega
    have := hsum (s.toA ++ s.toB)
    rw [List.length_append] at this
    exact this

/-- The concrete exchange: message 1 leads to four messages in all. -/
example : SmpNet4.Delivers toyEnv 4 ⟨ToySmp4.A1, ToySmp4.B0, [], [ToySmp4.m1]⟩ ⟨ToySmp4.A3, ToySmp4.B2, [], []⟩ ∧
    ToySmp4.m1.typ ≠ 6 :=
  ⟨.succ (.b (pre := []) (post := []) ToySmp4.r2) <| .succ (.a (pre := []) (post := []) ToySmp4.r3) <|
    .succ (.b (pre := []) (post := []) ToySmp4.r4) <| .succ (.a (pre := []) (post := []) ToySmp4.r5) <| .zero _, by decide +kernel⟩

/-! ## C55: one exchange at a time -/

/-- C55 (OTRv4): while SMP is in progress, starting it fails with `SMPInProgress` and changes nothing; otherwise it
succeeds, unless one of two random numbers is a multiple of `q`, and sends the question. -/
theorem C55_otr4 {E : Env} (hc : SmpCurve E.curve) (c : SMP4Context) (secret q : Bytes) (rnd : Rand) :
    (c.status = .inProgress → start E secret q rnd c = (.err .smpInProgress, c)) ∧
    (c.status ≠ .inProgress → random E rnd 0 % E.curve.q ≠ 0 → random E rnd 1 % E.curve.q ≠ 0 →
      ∃ m c' rest, start E secret q rnd c = (.ok m, c') ∧ c'.status = .inProgress ∧ m.typ = 2 ∧ m.value = wData q ++ rest) := by
  refine ⟨fun h => by simp [start, h], fun hin r0 r1 => ?_⟩
  have e := start_of (secret := secret) (q := q) hc hin r0 r1
  simp only [message1, List.append_assoc] at e
  exact ⟨_, _, _, e, rfl, rfl, rfl⟩

example : SmpLife4 toyEnv [.started ToySmp4.m1] ToySmp4.A1 ∧ ToySmp4.A1.status = .inProgress ∧
    start toyEnv ToySmp4.s' [] ToySmp4.rB ToySmp4.A1 = (.err .smpInProgress, ToySmp4.A1) ∧
    ToySmp4.A0.status ≠ .inProgress ∧
    random toyEnv ToySmp4.rA 0 % toyEnv.curve.q ≠ 0 ∧ random toyEnv ToySmp4.rA 1 % toyEnv.curve.q ≠ 0 :=
  ⟨ToySmp4.lifeA1, ToySmp4.running.1, by decide +kernel, by decide +kernel, by decide +kernel, by decide +kernel⟩

end Otrr.Props
