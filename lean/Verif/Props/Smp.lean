import Verif.Lemmas.SmpLife
import Verif.Spec.Toy
/-! C50 to C55: the Socialist Millionaires' Protocol in OTRv3. -/

namespace Otrr.Props
open Otrr Otrr.Spec Otrr.SMP

theorem toy_smpGroup : SmpGroup smallEnv.dh where
  prime := by decide
  prime_q := by decide
  order := by decide
  two_le := by decide
  g_lt := by decide
  q_lt := by decide
  fits := ⟨1, by decide, by decide⟩

/-! ## A concrete exchange, used for examples and counterexamples -/

namespace ToySmp

def kA : DSAPublicKey := ⟨23, 2 ^ 159 + 1, 5, 7⟩
def kB : DSAPublicKey := ⟨23, 2 ^ 159 + 3, 6, 9⟩
def ssid : Bytes := [1, 2, 3, 4, 5, 6, 7, 8]
/-- Alice's and Bob's hosts; Bob answers any question with `s`. -/
def hostA : SMPHost := ⟨some kA, fun _ => .none⟩
def hostB (s : Bytes) : SMPHost := ⟨some kB, fun _ => some s⟩
@[irreducible] def A0 : SMPContext := SMP.new ssid (fingerprint3 smallEnv kB)
@[irreducible] def B0 : SMPContext := SMP.new ssid (fingerprint3 smallEnv kA)
def tlv (x : Res (Option TLV) × SMPContext) : TLV := match x.1 with | .ok (some t) => t | _ => default

/-- A secret, another one, and a question. -/
def s : Bytes := [104, 105]
def s' : Bytes := [104, 106]
def q : Bytes := [63]

@[irreducible] def m1 : TLV := match (start smallEnv hostA s q (smallRand 1) A0).1 with | .ok t => t | _ => default
@[irreducible] def A1 : SMPContext := (start smallEnv hostA s q (smallRand 1) A0).2
@[irreducible] def m2 : TLV := tlv (handle smallEnv (hostB s) m1 (smallRand 1) B0)
@[irreducible] def B1 : SMPContext := (handle smallEnv (hostB s) m1 (smallRand 1) B0).2
@[irreducible] def m3 : TLV := tlv (handle smallEnv hostA m2 (smallRand 1) A1)
@[irreducible] def A2 : SMPContext := (handle smallEnv hostA m2 (smallRand 1) A1).2
@[irreducible] def m4 : TLV := tlv (handle smallEnv (hostB s) m3 (smallRand 1) B1)
@[irreducible] def B2 : SMPContext := (handle smallEnv (hostB s) m3 (smallRand 1) B1).2
@[irreducible] def A3 : SMPContext := (handle smallEnv hostA m4 (smallRand 1) A2).2

theorem r1 : start smallEnv hostA s q (smallRand 1) A0 = (.ok m1, A1) := by decide +kernel
theorem r2 : handle smallEnv (hostB s) m1 (smallRand 1) B0 = (.ok (some m2), B1) := by decide +kernel
theorem r3 : handle smallEnv hostA m2 (smallRand 1) A1 = (.ok (some m3), A2) := by decide +kernel
theorem r4 : handle smallEnv (hostB s) m3 (smallRand 1) B1 = (.ok (some m4), B2) := by decide +kernel
theorem r5 : handle smallEnv hostA m4 (smallRand 1) A2 = (.ok .none, A3) := by decide +kernel
theorem done : A3.status = .completed ∧ B2.status = .completed := by decide +kernel
theorem running : A1.status = .inProgress ∧ B1.status = .inProgress ∧ A2.status = .inProgress := by decide +kernel

/-- The same with another answer. -/
@[irreducible] def m2' : TLV := tlv (handle smallEnv (hostB s') m1 (smallRand 1) B0)
@[irreducible] def B1' : SMPContext := (handle smallEnv (hostB s') m1 (smallRand 1) B0).2
@[irreducible] def m3' : TLV := tlv (handle smallEnv hostA m2' (smallRand 1) A1)
@[irreducible] def A2' : SMPContext := (handle smallEnv hostA m2' (smallRand 1) A1).2
@[irreducible] def m4' : TLV := tlv (handle smallEnv (hostB s') m3' (smallRand 1) B1')
@[irreducible] def B2' : SMPContext := (handle smallEnv (hostB s') m3' (smallRand 1) B1').2

/-- With a question that contains a NUL byte. -/
@[irreducible] def m1n : TLV := match (start smallEnv hostA s [63, 0, 63] (smallRand 1) A0).1 with | .ok t => t | _ => default
@[irreducible] def A1n : SMPContext := (start smallEnv hostA s [63, 0, 63] (smallRand 1) A0).2
@[irreducible] def B1n : SMPContext := (handle smallEnv (hostB s) m1n (smallRand 1) B0).2

/-- The numbers in a message. -/
def nums (t : TLV) : List Nat := match numbers t with | .ok v => v | _ => []

instance (G : DHGroup) (v : Nat) : Decidable (Element G v) := inferInstanceAs (Decidable (_ ∧ _))
instance (G : DHGroup) (v : Nat) : Decidable (Exponent G v) := inferInstanceAs (Decidable (_ ∧ _))
instance (G : DHGroup) (v : List Nat) : Decidable (Proper1 G v) := by unfold Proper1; split <;> infer_instance
instance (G : DHGroup) (v : List Nat) : Decidable (Proper2 G v) := by unfold Proper2; split <;> infer_instance
instance (G : DHGroup) (v : List Nat) : Decidable (Proper3 G v) := by unfold Proper3; split <;> infer_instance
instance (G : DHGroup) (v : List Nat) : Decidable (Proper4 G v) := by unfold Proper4; split <;> infer_instance

theorem n1 : numbers m1 = .ok (nums m1) ∧ Proper1 smallEnv.dh (nums m1) := by decide +kernel
theorem n2 : numbers m2 = .ok (nums m2) ∧ Proper2 smallEnv.dh (nums m2) := by decide +kernel
theorem n3 : numbers m3 = .ok (nums m3) ∧ Proper3 smallEnv.dh (nums m3) := by decide +kernel
theorem n4 : numbers m4 = .ok (nums m4) ∧ Proper4 smallEnv.dh (nums m4) := by decide +kernel

theorem lifeA0 : SmpLife smallEnv [] A0 := by unfold A0; exact .new _ _
theorem lifeB0 : SmpLife smallEnv [] B0 := by unfold B0; exact .new _ _
theorem lifeA1 : SmpLife smallEnv [.started m1] A1 := .started lifeA0 r1
theorem lifeB1 : SmpLife smallEnv [.received m1 (some m2) .inProgress] B1 := by
  have := SmpLife.received lifeB0 r2
  rwa [running.2.1] at this
theorem lifeA2 : SmpLife smallEnv [.started m1, .received m2 (some m3) .inProgress] A2 := by
  have := SmpLife.received lifeA1 r3
  rwa [running.2.2] at this
theorem lifeB2 : SmpLife smallEnv [.received m1 (some m2) .inProgress, .received m3 (some m4) .completed] B2 := by
  have := SmpLife.received lifeB1 r4
  rwa [done.2] at this
theorem lifeA3 : SmpLife smallEnv [.started m1, .received m2 (some m3) .inProgress, .received m4 .none .completed] A3 := by
  have := SmpLife.received lifeA2 r5
  rwa [done.1] at this

end ToySmp

/-! ## C50, C51: outcome of a complete exchange -/

/-- C50 (OTRv3): two clients in the same session, neither of which runs SMP, that know each other's
fingerprints.  One starts SMP with a secret, with or without a question, the other's user answers with the same
secret, and all messages are delivered.  Then both clients report success, whatever the random numbers are.
Only the numbers on the wire must be in the range that receivers accept (`Proper1` to `Proper4`), which random
numbers fail with negligible probability. -/
theorem C50_otr3 {E : Env} (hG : SmpGroup E.dh) {hostA hostB : SMPHost} {kA kB : DSAPublicKey} {A B : SMPContext}
    {hA : List SmpEv} {hB : List SmpEv} (lA : SmpLife E hA A) (lB : SmpLife E hB B) {q secret : Bytes}
    (hkA : hostA.key = some kA) (hkB : hostB.key = some kB) (iA : A.status ≠ .inProgress) (iB : B.status ≠ .inProgress)
    (hs : A.ssid = B.ssid) (hA' : A.their = fingerprint3 E kB) (hB' : B.their = fingerprint3 E kA)
    (hq : ∀ b ∈ q, b ≠ 0) (hans : hostB.secret q = some secret) (r1 r2 r3 r4 r5 : Rand) :
    ∃ m1 A1 v1, start E hostA secret q r1 A = (.ok m1, A1) ∧ A1.status = .inProgress ∧ numbers m1 = .ok v1 ∧
      (Proper1 E.dh v1 →
    ∃ m2 B1 v2, handle E hostB m1 r2 B = (.ok (some m2), B1) ∧ B1.status = .inProgress ∧ numbers m2 = .ok v2 ∧
      (Proper2 E.dh v2 →
    ∃ m3 A2 v3, handle E hostA m2 r3 A1 = (.ok (some m3), A2) ∧ A2.status = .inProgress ∧ numbers m3 = .ok v3 ∧
      (Proper3 E.dh v3 →
    ∃ m4 B2 v4, handle E hostB m3 r4 B1 = (.ok (some m4), B2) ∧ B2.status = .completed ∧ numbers m4 = .ok v4 ∧
      (Proper4 E.dh v4 →
    ∃ A3, handle E hostA m4 r5 A2 = (.ok .none, A3) ∧ A3.status = .completed)))) := by
  have h := run3 hG (sA := secret) hkA hkB ((life_tied hG lA).idle.mpr iA) ((life_tied hG lB).idle.mpr iB) hs hq hans hA' hB' r1 r2 r3 r4 r5
  simpa only [outcome, if_true] using h

/-- The hypotheses are met by a concrete exchange, in which all numbers are in range. -/
example : SmpGroup smallEnv.dh ∧ SmpLife smallEnv [] ToySmp.A0 ∧ SmpLife smallEnv [] ToySmp.B0 ∧
    ToySmp.A0.status ≠ .inProgress ∧ ToySmp.B0.status ≠ .inProgress ∧ ToySmp.A0.ssid = ToySmp.B0.ssid ∧
    ToySmp.A0.their = fingerprint3 smallEnv ToySmp.kB ∧ ToySmp.B0.their = fingerprint3 smallEnv ToySmp.kA ∧
    (∀ b ∈ ToySmp.q, b ≠ 0) ∧ (ToySmp.hostB ToySmp.s).secret ToySmp.q = some ToySmp.s :=
  ⟨toy_smpGroup, ToySmp.lifeA0, ToySmp.lifeB0, by decide +kernel, by decide +kernel, by decide +kernel,
    by decide +kernel, by decide +kernel, by decide, rfl⟩

open ToySmp in
example : start smallEnv hostA s q (smallRand 1) A0 = (.ok m1, A1) ∧
    numbers m1 = .ok (nums m1) ∧ Proper1 smallEnv.dh (nums m1) ∧
    handle smallEnv (hostB s) m1 (smallRand 1) B0 = (.ok (some m2), B1) ∧
    numbers m2 = .ok (nums m2) ∧ Proper2 smallEnv.dh (nums m2) ∧
    handle smallEnv hostA m2 (smallRand 1) A1 = (.ok (some m3), A2) ∧
    numbers m3 = .ok (nums m3) ∧ Proper3 smallEnv.dh (nums m3) ∧
    handle smallEnv (hostB s) m3 (smallRand 1) B1 = (.ok (some m4), B2) ∧ B2.status = .completed ∧
    numbers m4 = .ok (nums m4) ∧ Proper4 smallEnv.dh (nums m4) ∧
    handle smallEnv hostA m4 (smallRand 1) A2 = (.ok .none, A3) ∧ A3.status = .completed :=
  ⟨r1, n1.1, n1.2, r2, n2.1, n2.2, r3, n3.1, n3.2, r4, done.2, n4.1, n4.2, r5, done.1⟩

/-- The full claim fails for questions that contain a NUL byte: the question is cut there on the wire, the
responder takes the rest of it for numbers, and aborts. -/
theorem C50_question_violated : ∃ (E : Env) (hostA hostB : SMPHost) (A B : SMPContext) (q secret : Bytes) (r1 r2 : Rand),
    SmpGroup E.dh ∧ SmpLife E [] A ∧ SmpLife E [] B ∧ A.ssid = B.ssid ∧ A.their = fingerprint3 E ToySmp.kB ∧
    B.their = fingerprint3 E ToySmp.kA ∧ hostA.key = some ToySmp.kA ∧ hostB.key = some ToySmp.kB ∧
    (∀ q', hostB.secret q' = some secret) ∧
    ∃ m1 A1 B1, start E hostA secret q r1 A = (.ok m1, A1) ∧
      handle E hostB m1 r2 B = (.ok (some ⟨6, []⟩), B1) ∧ B1.status = .aborted := by
  refine ⟨smallEnv, ToySmp.hostA, ToySmp.hostB ToySmp.s, ToySmp.A0, ToySmp.B0, [63, 0, 63], ToySmp.s, smallRand 1,
    smallRand 1, toy_smpGroup, ToySmp.lifeA0, ToySmp.lifeB0, by decide +kernel, by decide +kernel, by decide +kernel,
    rfl, rfl, fun _ => rfl, ToySmp.m1n, ToySmp.A1n, ToySmp.B1n, ?_, ?_, ?_⟩ <;> decide +kernel

/-- C51 (OTRv3): as before, but the numbers the clients derive from the secrets differ.  Then neither client
reports success: both report that SMP failed. -/
theorem C51_otr3 {E : Env} (hG : SmpGroup E.dh) {hostA hostB : SMPHost} {kA kB : DSAPublicKey} {A B : SMPContext}
    {hA : List SmpEv} {hB : List SmpEv} (lA : SmpLife E hA A) (lB : SmpLife E hB B) {q sA sB : Bytes}
    (hkA : hostA.key = some kA) (hkB : hostB.key = some kB) (iA : A.status ≠ .inProgress) (iB : B.status ≠ .inProgress)
    (hs : A.ssid = B.ssid) (hA' : A.their = fingerprint3 E kB) (hB' : B.their = fingerprint3 E kA)
    (hq : ∀ b ∈ q, b ≠ 0) (hans : hostB.secret q = some sB)
    (hne : secretNumber E (fingerprint3 E kA) (fingerprint3 E kB) A.ssid sA % E.dh.q ≠
      secretNumber E (fingerprint3 E kA) (fingerprint3 E kB) A.ssid sB % E.dh.q) (r1 r2 r3 r4 r5 : Rand) :
    ∃ m1 A1 v1, start E hostA sA q r1 A = (.ok m1, A1) ∧ A1.status = .inProgress ∧ numbers m1 = .ok v1 ∧
      (Proper1 E.dh v1 →
    ∃ m2 B1 v2, handle E hostB m1 r2 B = (.ok (some m2), B1) ∧ B1.status = .inProgress ∧ numbers m2 = .ok v2 ∧
      (Proper2 E.dh v2 →
    ∃ m3 A2 v3, handle E hostA m2 r3 A1 = (.ok (some m3), A2) ∧ A2.status = .inProgress ∧ numbers m3 = .ok v3 ∧
      (Proper3 E.dh v3 →
    ∃ m4 B2 v4, handle E hostB m3 r4 B1 = (.ok (some m4), B2) ∧ B2.status = .aborted ∧ numbers m4 = .ok v4 ∧
      (Proper4 E.dh v4 →
    ∃ A3, handle E hostA m4 r5 A2 = (.ok .none, A3) ∧ A3.status = .aborted)))) := by
  have h := run3 hG (sA := sA) hkA hkB ((life_tied hG lA).idle.mpr iA) ((life_tied hG lB).idle.mpr iB) hs hq hans hA' hB' r1 r2 r3 r4 r5
  simpa only [outcome, if_neg hne] using h

/-- The hypotheses are met, and the numbers in range, when the user of Bob gives another answer. -/
example : secretNumber smallEnv (fingerprint3 smallEnv ToySmp.kA) (fingerprint3 smallEnv ToySmp.kB) ToySmp.A0.ssid ToySmp.s
      % smallEnv.dh.q ≠
    secretNumber smallEnv (fingerprint3 smallEnv ToySmp.kA) (fingerprint3 smallEnv ToySmp.kB) ToySmp.A0.ssid ToySmp.s'
      % smallEnv.dh.q ∧
    handle smallEnv (ToySmp.hostB ToySmp.s') ToySmp.m1 (smallRand 1) ToySmp.B0 = (.ok (some ToySmp.m2'), ToySmp.B1') ∧
    handle smallEnv ToySmp.hostA ToySmp.m2' (smallRand 1) ToySmp.A1 = (.ok (some ToySmp.m3'), ToySmp.A2') ∧
    handle smallEnv (ToySmp.hostB ToySmp.s') ToySmp.m3' (smallRand 1) ToySmp.B1' = (.ok (some ToySmp.m4'), ToySmp.B2') ∧
    ToySmp.m4'.typ = 5 ∧ ToySmp.B2'.status = .aborted ∧
    Proper2 smallEnv.dh (ToySmp.nums ToySmp.m2') ∧ Proper3 smallEnv.dh (ToySmp.nums ToySmp.m3') ∧
    Proper4 smallEnv.dh (ToySmp.nums ToySmp.m4') := by
  refine ⟨?_, ?_, ?_, ?_, ?_, ?_, ?_, ?_, ?_⟩ <;> decide +kernel

/-- C51 (OTRv3), against a peer that need not follow the protocol, responder's side: the client received
message 1 with `g2a = g^a2` and `g3a = g^a3`, sent message 2, and then accepts message 3 with `Pa`, `Qa`, `Ra`
formed as the proofs in it claim (that is, from some number `x`).  If the client reports success, then `x` is
the number derived from its own user's secret, up to multiples of the order of the group.  The client's own
`g2b` and `g3b` must not be trivial, which random numbers fail with negligible probability. -/
theorem C51_responder {E : Env} (hG : SmpGroup E.dh) {host : SMPHost} {key : DSAPublicKey} {h : List SmpEv}
    {B B1 B2 : SMPContext} {m1 m2 m3 : TLV} {r2 r4 : Rand} {rep : Option TLV} {answer : Bytes}
    (lB : SmpLife E h B) (hk : host.key = some key) (hans : host.secret (question m1) = some answer)
    (hm1 : handle E host m1 r2 B = (.ok (some m2), B1)) (hB1 : B1.status = .inProgress)
    (hm3 : handle E host m3 r4 B1 = (.ok rep, B2)) (hB2 : B2.status = .completed)
    {g2a g3a c2 D2 c3 D3 a2 a3 g2b g3b Pb Qb d2 F2 d3 F3 dP F5 F6 Pa Qa Ra cP D5 D6 cR D7 s x : Nat}
    (v1 : numbers m1 = .ok [g2a, c2, D2, g3a, c3, D3])
    (v2 : numbers m2 = .ok [g2b, d2, F2, g3b, d3, F3, Pb, Qb, dP, F5, F6])
    (v3 : numbers m3 = .ok [Pa, Qa, cP, D5, D6, Ra, cR, D7])
    (p2 : Element E.dh g2b) (p3 : Element E.dh g3b)
    (e2 : g2a % E.dh.p = E.dh.g ^ a2 % E.dh.p) (e3 : g3a % E.dh.p = E.dh.g ^ a3 % E.dh.p)
    (eP : Pa % E.dh.p = (g3b ^ a3) ^ s % E.dh.p) (eQ : Qa % E.dh.p = E.dh.g ^ s * (g2b ^ a2) ^ x % E.dh.p)
    (eR : Ra * Qb ^ a3 % E.dh.p = Qa ^ a3 % E.dh.p) :
    x % E.dh.q = secretNumber E B.their (fingerprint3 E key) B.ssid answer % E.dh.q := by
  have := Fact.mk hG.prime
  have s1 := handle_inv hG (life_tied hG lB).nonzero hm1
  have s3 := handle_inv hG (life_tied hG (SmpLife.received lB hm1)).nonzero hm3
  cases s1 with
  | declined => cases hB1
  | rejected => cases hB1
  | two _ _ hc => obtain ⟨_, _, _, _, _, _, _, h2, _⟩ := hc; rw [v1] at h2; cases h2
  | three => simp only at hB1; split at hB1 <;> cases hB1
  | @one key' answer' g2a' g3a' ht hst hc hs' hk' =>
    rw [hk] at hk'; cases hk'
    rw [hans] at hs'; cases hs'
    obtain ⟨_, _, _, _, h1, h2, _⟩ := hc
    rw [v1] at h1; cases h1
    have hv2 := numbers_w (typ := T2) (by decide) (by simp [values2])
      (values2_ok hG (modpow g2a (Exps2.draw E r2).b2 E.dh.p) (modpow g3a (Exps2.draw E r2).b3 E.dh.p)
        (computeSecret E B.their (fingerprint3 E key) B.ssid answer) (Exps2.draw E r2))
    have hv2' := v2.symm.trans hv2
    simp only [values2, Res.ok.injEq, List.cons.injEq] at hv2'
    obtain ⟨rfl, -, -, rfl, -, -, ePb, eQb, -⟩ := hv2'
    simp only [Proper1] at h2
    cases s3 with
    | abort => cases hB2
    | declined => cases hB2
    | rejected => cases hB2
    | one _ hst' => cases hst'
    | two _ hst' => cases hst'
    | four _ hst' => cases hst'
    | @three g3a' g2' g3' b3' Pb' Qb' Pa' Qa' Ra' _ _ _ _ _ k l h4 hst' hn hp3 _ _ hk2 hl2 hQ hP =>
      rw [v3] at hn
      simp only [Res.ok.injEq, List.cons.injEq] at hn
      obtain ⟨rfl, rfl, _, _, _, rfl, _⟩ := hn
      simp only [after1, SMPState.expect3.injEq] at hst'
      obtain ⟨rfl, rfl, rfl, rfl, rfl, rfl⟩ := hst'
      rw [← ePb] at hP
      rw [← eQb] at hQ
      have hcmp : l = modpow Ra (Exps2.draw E r2).b3 E.dh.p := by
        simp only at hB2
        by_contra hne
        rw [if_neg hne] at hB2
        cases hB2
      generalize Exps2.draw E r2 = e at *
      simp only [computeSecret] at eQb
      change Qb = pow2 E.dh E.dh.g e.r4 (modpow g2a e.b2 E.dh.p)
        (secretNumber E B.their (fingerprint3 E key) B.ssid answer) at eQb
      generalize secretNumber E B.their (fingerprint3 E key) B.ssid answer = y at *
      have c2 : (g2a : ZMod E.dh.p) = (E.dh.g : ZMod E.dh.p) ^ a2 := by
        have := (ZMod.natCast_eq_natCast_iff' _ _ _).mpr e2; simpa using this
      have c3 : (g3a : ZMod E.dh.p) = (E.dh.g : ZMod E.dh.p) ^ a3 := by
        have := (ZMod.natCast_eq_natCast_iff' _ _ _).mpr e3; simpa using this
      have cP : (Pa : ZMod E.dh.p) = (((E.dh.g : ZMod E.dh.p) ^ e.b3) ^ a3) ^ s := by
        have := (ZMod.natCast_eq_natCast_iff' _ _ _).mpr eP
        simpa [cast_modpow] using this
      have cQ : (Qa : ZMod E.dh.p) = (E.dh.g : ZMod E.dh.p) ^ s * (((E.dh.g : ZMod E.dh.p) ^ e.b2) ^ a2) ^ x := by
        have := (ZMod.natCast_eq_natCast_iff' _ _ _).mpr eQ
        simpa [cast_modpow] using this
      have cR : (Ra : ZMod E.dh.p) * (Qb : ZMod E.dh.p) ^ a3 = (Qa : ZMod E.dh.p) ^ a3 := by
        have := (ZMod.natCast_eq_natCast_iff' _ _ _).mpr eR
        simpa using this
      have cPb : (Pb : ZMod E.dh.p) = ((E.dh.g : ZMod E.dh.p) ^ (a3 * e.b3)) ^ e.r4 := by
        rw [ePb, cast_modpow, cast_modpow, c3, ← pow_mul _ a3]
      have cQb : (Qb : ZMod E.dh.p) = (E.dh.g : ZMod E.dh.p) ^ e.r4 * ((E.dh.g : ZMod E.dh.p) ^ (a2 * e.b2)) ^ y := by
        rw [eQb, cast_pow2, cast_modpow, c2, ← pow_mul _ a2]
      have hQ0 : (Qb : ZMod E.dh.p) ≠ 0 := by
        rw [cQb]
        exact mul_ne_zero (pow_ne_zero _ (gen_ne_zero hG)) (pow_ne_zero _ (pow_ne_zero _ (gen_ne_zero hG)))
      have hRk : (Ra : ZMod E.dh.p) = (k : ZMod E.dh.p) ^ a3 := by
        rw [← hQ, mul_pow] at cR
        exact mul_right_cancel₀ (pow_ne_zero _ hQ0) cR
      have hl : (l : ZMod E.dh.p) = (k : ZMod E.dh.p) ^ (a3 * e.b3) := by
        rw [hcmp, cast_modpow, hRk, pow_mul]
      have n2 := elem_ne_one hG h2.1
      have n3 := elem_ne_one hG h2.2.1
      have n2' := elem_ne_one hG p2
      have n3' := elem_ne_one hG p3
      rw [c2] at n2
      rw [c3] at n3
      rw [cast_modpow] at n2' n3'
      rw [← cancel_exp hG (pow_mul_ne_one hG (pow_mul_ne_one hG n2 n2') (pow_mul_ne_one hG n3 n3'))]
      refine (final_iff hG (s := s) (t := e.r4) ?_ cPb ?_ cQb hQ hP).mp hl
      · rw [cP, ← pow_mul _ e.b3, Nat.mul_comm]
      · rw [cQ, ← pow_mul _ e.b2, Nat.mul_comm]

/-- The hypotheses are met by the concrete exchange, with `x` = 26 derived from the secret. -/
example : ToySmp.nums ToySmp.m1 = [9, 78, 3, 9, 31, 10] ∧ ToySmp.nums ToySmp.m2 = [9, 172, 6, 9, 125, 2, 6, 16, 41, 4, 10] ∧
    ToySmp.nums ToySmp.m3 = [16, 18, 25, 1, 7, 12, 83, 3] ∧ Element smallEnv.dh 9 ∧
    9 % smallEnv.dh.p = smallEnv.dh.g ^ 5 % smallEnv.dh.p ∧
    16 % smallEnv.dh.p = (9 ^ 5) ^ 5 % smallEnv.dh.p ∧
    18 % smallEnv.dh.p = smallEnv.dh.g ^ 5 * (9 ^ 5) ^ 26 % smallEnv.dh.p ∧
    12 * 16 ^ 5 % smallEnv.dh.p = 18 ^ 5 % smallEnv.dh.p := by
  refine ⟨?_, ?_, ?_, ?_, ?_, ?_, ?_, ?_⟩ <;> decide +kernel

/-- C51 (OTRv3), against a peer that need not follow the protocol, initiator's side: the client sent message 1,
accepted message 2 with `g2b = g^b2`, `g3b = g^b3`, `Pb` and `Qb` formed from some number `y`, and message 4 with
`Rb`, all as the proofs in them claim.  If the client reports success, then `y` is the number derived from its
own user's secret, up to multiples of the order of the group. -/
theorem C51_initiator {E : Env} (hG : SmpGroup E.dh) {host : SMPHost} {key : DSAPublicKey} {h : List SmpEv}
    {A A1 A2 A3 : SMPContext} {m1 m2 m3 m4 : TLV} {r1 r3 r5 : Rand} {rep : Option TLV} {secret q : Bytes}
    (lA : SmpLife E h A) (hk : host.key = some key) (hq : ∀ b ∈ q, b ≠ 0)
    (hm1 : start E host secret q r1 A = (.ok m1, A1))
    (hm2 : handle E host m2 r3 A1 = (.ok (some m3), A2)) (hA2 : A2.status = .inProgress)
    (hm4 : handle E host m4 r5 A2 = (.ok rep, A3)) (hA3 : A3.status = .completed)
    {g2a g3a c2 D2 c3 D3 b2 b3 g2b g3b Pb Qb d2 F2 d3 F3 dP F5 F6 Pa Qa Ra cP D5 D6 cR D7 Rb dR F7 t y : Nat}
    (v1 : numbers m1 = .ok [g2a, c2, D2, g3a, c3, D3])
    (v2 : numbers m2 = .ok [g2b, d2, F2, g3b, d3, F3, Pb, Qb, dP, F5, F6])
    (v3 : numbers m3 = .ok [Pa, Qa, cP, D5, D6, Ra, cR, D7])
    (v4 : numbers m4 = .ok [Rb, dR, F7])
    (p2 : Element E.dh g2a) (p3 : Element E.dh g3a)
    (e2 : g2b % E.dh.p = E.dh.g ^ b2 % E.dh.p) (e3 : g3b % E.dh.p = E.dh.g ^ b3 % E.dh.p)
    (eP : Pb % E.dh.p = (g3a ^ b3) ^ t % E.dh.p) (eQ : Qb % E.dh.p = E.dh.g ^ t * (g2a ^ b2) ^ y % E.dh.p)
    (eR : Rb * Qb ^ b3 % E.dh.p = Qa ^ b3 % E.dh.p) :
    secretNumber E (fingerprint3 E key) A.their A.ssid secret % E.dh.q = y % E.dh.q := by
  have := Fact.mk hG.prime
  have l1 := SmpLife.started lA hm1
  have s2 := handle_inv hG (life_tied hG l1).nonzero hm2
  have s4 := handle_inv hG (life_tied hG (SmpLife.received l1 hm2)).nonzero hm4
  have hw := values1_ok hG (random E r1 0) (random E r1 1) (random E r1 2) (random E r1 3)
  unfold start at hm1
  split at hm1
  case _ =>
    rw [hk] at hm1
    obtain ⟨h1, h2⟩ := Prod.mk.inj hm1
    have h1 := Res.ok.inj h1
    have hn : numbers m1 = .ok (values1 E (random E r1 0) (random E r1 1) (random E r1 2) (random E r1 3)) := by
      subst h1
      cases q with
      | nil => exact numbers_w (by decide) (by simp [values1]) hw
      | cons b q => exact numbers_question hq rfl hw
    have hn' := v1.symm.trans hn
    simp only [values1, Res.ok.injEq, List.cons.injEq] at hn'
    obtain ⟨rfl, -, -, rfl, -⟩ := hn'
    subst h2
    generalize random E r1 0 = a2 at *
    generalize random E r1 1 = a3 at *
    cases s2 with
    | declined => cases hA2
    | rejected => cases hA2
    | one _ hst => cases hst
    | three _ hst => cases hst
    | @two x a2' a3' g2b' g3b' Pb' Qb' k l ht hst hc hkl hll hQ hP =>
      simp only [SMPState.expect2.injEq] at hst
      obtain ⟨hx, rfl, rfl⟩ := hst
      obtain ⟨_, _, _, _, _, _, _, hn2, hp2, _⟩ := hc
      rw [v2] at hn2
      cases hn2
      simp only [Proper2] at hp2
      have hw3 := numbers_w (typ := T3) (by decide) (by simp [values3])
        (values3_ok hG (modpow g2b a2 E.dh.p) (modpow g3b a3 E.dh.p) x a3 k (Exps3.draw E r3))
      have hv3' := v3.symm.trans hw3
      simp only [values3, Res.ok.injEq, List.cons.injEq] at hv3'
      obtain ⟨ePa, eQa, -⟩ := hv3'
      rw [← ePa] at hP
      rw [← eQa] at hQ
      cases s4 with
      | abort => cases hA3
      | declined => cases hA3
      | rejected => cases hA3
      | one _ hst' => cases hst'
      | two _ hst' => cases hst'
      | three _ hst' => cases hst'
      | @four g3b' l' k' a3' Rb' h5 hst' hc4 =>
        simp only [after2, SMPState.expect4.injEq] at hst'
        obtain ⟨rfl, rfl, rfl, rfl⟩ := hst'
        obtain ⟨_, _, hn4, _⟩ := hc4
        rw [v4] at hn4
        cases hn4
        have hcmp : l = modpow Rb a3 E.dh.p := by
          simp only at hA3
          by_contra hne
          rw [if_neg hne] at hA3
          cases hA3
        generalize Exps3.draw E r3 = e at *
        change secretNumber E (fingerprint3 E key) A.their A.ssid secret = x at hx
        rw [hx]
        have c2 : (g2b : ZMod E.dh.p) = (E.dh.g : ZMod E.dh.p) ^ b2 := by
          have := (ZMod.natCast_eq_natCast_iff' _ _ _).mpr e2; simpa using this
        have c3 : (g3b : ZMod E.dh.p) = (E.dh.g : ZMod E.dh.p) ^ b3 := by
          have := (ZMod.natCast_eq_natCast_iff' _ _ _).mpr e3; simpa using this
        have cPb : (Pb : ZMod E.dh.p) = ((E.dh.g : ZMod E.dh.p) ^ (a3 * b3)) ^ t := by
          have := (ZMod.natCast_eq_natCast_iff' _ _ _).mpr eP
          rw [pow_mul]
          simpa [cast_modpow] using this
        have cQb : (Qb : ZMod E.dh.p) = (E.dh.g : ZMod E.dh.p) ^ t * ((E.dh.g : ZMod E.dh.p) ^ (a2 * b2)) ^ y := by
          have := (ZMod.natCast_eq_natCast_iff' _ _ _).mpr eQ
          rw [pow_mul _ a2]
          simpa [cast_modpow] using this
        have cR : (Rb : ZMod E.dh.p) * (Qb : ZMod E.dh.p) ^ b3 = (Qa : ZMod E.dh.p) ^ b3 := by
          have := (ZMod.natCast_eq_natCast_iff' _ _ _).mpr eR
          simpa using this
        have cPa : (Pa : ZMod E.dh.p) = ((E.dh.g : ZMod E.dh.p) ^ (a3 * b3)) ^ e.r4 := by
          rw [ePa, cast_modpow, cast_modpow, c3, ← pow_mul _ b3, Nat.mul_comm b3]
        have cQa : (Qa : ZMod E.dh.p) = (E.dh.g : ZMod E.dh.p) ^ e.r4 * ((E.dh.g : ZMod E.dh.p) ^ (a2 * b2)) ^ x := by
          rw [eQa, cast_pow2, cast_modpow, c2, ← pow_mul _ b2, Nat.mul_comm b2]
        have hQ0 := elem_ne_zero hG hp2.2.2.2.1
        have hRk : (Rb : ZMod E.dh.p) = (k : ZMod E.dh.p) ^ b3 := by
          rw [← hQ, mul_pow] at cR
          exact mul_right_cancel₀ (pow_ne_zero _ hQ0) cR
        have hl : (l : ZMod E.dh.p) = (k : ZMod E.dh.p) ^ (a3 * b3) := by
          rw [hcmp, cast_modpow, hRk, ← pow_mul, Nat.mul_comm]
        have n2 := elem_ne_one hG p2
        have n3 := elem_ne_one hG p3
        have n2' := elem_ne_one hG hp2.1
        have n3' := elem_ne_one hG hp2.2.1
        rw [c2] at n2'
        rw [c3] at n3'
        rw [cast_modpow] at n2 n3
        rw [← cancel_exp hG (pow_mul_ne_one hG (pow_mul_ne_one hG n2 n2') (pow_mul_ne_one hG n3 n3'))]
        exact (final_iff hG (s := e.r4) (t := t) cPa cPb cQa cQb hQ hP).mp hl
  case _ => cases hm1

/-- The hypotheses are met by the concrete exchange, with `y` = 26 derived from the secret. -/
example : ToySmp.nums ToySmp.m4 = [12, 255, 6] ∧ Element smallEnv.dh 9 ∧
    9 % smallEnv.dh.p = smallEnv.dh.g ^ 5 % smallEnv.dh.p ∧
    6 % smallEnv.dh.p = (9 ^ 5) ^ 3 % smallEnv.dh.p ∧
    16 % smallEnv.dh.p = smallEnv.dh.g ^ 3 * (9 ^ 5) ^ 26 % smallEnv.dh.p ∧
    12 * 16 ^ 5 % smallEnv.dh.p = 18 ^ 5 % smallEnv.dh.p := by
  refine ⟨?_, ?_, ?_, ?_, ?_, ?_⟩ <;> decide +kernel

/-! ## C52: errors reset SMP -/

/-- C52 (OTRv3), part 1: at any time, every message of SMP is handled without a crash (if the client has its
key).  Either SMP goes on, or it is over and can be started again at once. -/
theorem C52_otr3_restart {E : Env} (hG : SmpGroup E.dh) {h : List SmpEv} {c : SMPContext} (hl : SmpLife E h c)
    {host : SMPHost} (hk : host.key ≠ .none) {t : TLV} (ht : t.typ ∈ [2, 3, 4, 5, 6, 7]) (rnd : Rand) :
    ∃ r c', handle E host t rnd c = (.ok r, c') ∧
      (c'.status = .inProgress ∨ (c'.status = .aborted ∨ c'.status = .completed) ∧
        ∀ secret q rnd', ∃ m c'', start E host secret q rnd' c' = (.ok m, c'') ∧ c''.status = .inProgress) := by
  have ht' : isSmpTlv t = true := by
    simp only [List.mem_cons, List.not_mem_nil, or_false] at ht
    simp only [isSmpTlv, Bool.or_eq_true, beq_iff_eq, T1, T2, T3, T4, TAbort, T1Q]
    tauto
  rcases handle_step (host := host) (rnd := rnd) hG (life_tied hG hl).nonzero ht' with ⟨r, c', h1, hs⟩ | ⟨h1, _⟩
  · refine ⟨r, c', h1, ?_⟩
    have htied := life_tied hG (SmpLife.received hl h1)
    by_cases hin : c'.status = .inProgress
    · exact .inl hin
    · refine .inr ⟨?_, fun secret q rnd' => ?_⟩
      · cases hs with
        | abort => exact .inl rfl
        | declined => exact .inl rfl
        | rejected => exact .inl rfl
        | one => exact absurd rfl hin
        | two _ hst => exact absurd (by
            by_contra hne
            have := (life_tied hG hl).idle.mpr hne
            rw [hst] at this
            cases this) hin
        | three => simp only; split <;> simp
        | four => simp only; split <;> simp
      · have hst := htied.idle.mpr hin
        obtain ⟨key, hk'⟩ := Option.ne_none_iff_exists'.mp hk
        simp only [start, hst, hk']
        exact ⟨_, _, rfl, rfl⟩
  · exact absurd h1 hk

/-- C52 (OTRv3), part 2: a message of a type the client does not wait for, or one that it cannot accept
(malformed, out of range, or with an invalid proof), ends SMP: the client replies with an abort and reports that
SMP was aborted. -/
theorem C52_otr3_reject {E : Env} (hG : SmpGroup E.dh) {h : List SmpEv} {c : SMPContext} (hl : SmpLife E h c)
    {host : SMPHost} (hk : host.key ≠ .none) {t : TLV} (ht : t.typ ∈ [2, 3, 4, 5, 7])
    (hbad : t.typ ∉ awaited c.state ∨ ¬ Acceptable E t c.state) (rnd : Rand) :
    ∃ c', handle E host t rnd c = (.ok (some ⟨6, []⟩), c') ∧ c'.status = .aborted := by
  have ht' : isSmpTlv t = true := by
    simp only [List.mem_cons, List.not_mem_nil, or_false] at ht
    simp only [isSmpTlv, Bool.or_eq_true, beq_iff_eq, T1, T2, T3, T4, TAbort, T1Q]
    tauto
  have hna : t.typ ≠ TAbort := by
    intro h6
    rw [h6] at ht
    revert ht
    decide
  rcases handle_step (host := host) (rnd := rnd) hG (life_tied hG hl).nonzero ht' with ⟨r, c', h1, hs⟩ | ⟨h1, _⟩
  · cases hs with
    | abort h6 => exact absurd h6 hna
    | declined => exact ⟨_, h1, rfl⟩
    | rejected => exact ⟨_, h1, rfl⟩
    | one hty hst hc =>
      exfalso
      rw [hst] at hbad
      rcases hbad with hb | hb
      · exact hb (by rcases hty with h | h <;> rw [h] <;> decide)
      · exact hb ⟨_, _, hc⟩
    | two hty hst hc =>
      exfalso
      rw [hst] at hbad
      rcases hbad with hb | hb
      · exact hb (by rw [hty]; simp [awaited, T2])
      · exact hb ⟨_, _, _, _, hc⟩
    | three hty hst hn hp h6 h7 hk2 hl2 hQ hP =>
      exfalso
      rw [hst] at hbad
      rcases hbad with hb | hb
      · exact hb (by rw [hty]; simp [awaited, T3])
      · exact hb ⟨_, _, _, _, _, _, _, _, _, hn, hp, (quotient_iff _ _ _).mpr hQ, h6, h7⟩
    | four hty hst hc =>
      exfalso
      rw [hst] at hbad
      rcases hbad with hb | hb
      · exact hb (by rw [hty]; simp [awaited, T4])
      · exact hb ⟨_, hc⟩
  · exact absurd h1 hk

/-- C52 (OTRv3), part 3: when the user has no answer, and when the peer aborts, SMP ends. -/
theorem C52_otr3_abort {E : Env} (host : SMPHost) (v : Bytes) (rnd : Rand) (c : SMPContext) :
    ∃ c', handle E host ⟨6, v⟩ rnd c = (.ok .none, c') ∧ c'.status = .aborted ∧
      ∀ secret q rnd', host.key ≠ .none → ∃ m c'', start E host secret q rnd' c' = (.ok m, c'') := by
  refine ⟨{ c with status := .aborted, state := .expect1 }, ?_, rfl, ?_⟩
  · rfl
  · intro secret q rnd' hk
    obtain ⟨key, hk'⟩ := Option.ne_none_iff_exists'.mp hk
    simp only [start, hk']
    exact ⟨_, _, rfl⟩

/-- Concrete contexts in which other messages are awaited: message 3 out of order, and message 2 in order but
without numbers, and the message that is accepted. -/
example : SmpLife smallEnv [.started ToySmp.m1] ToySmp.A1 ∧ (4 : UInt16) ∉ awaited ToySmp.A1.state ∧
    handle smallEnv ToySmp.hostA ToySmp.m3 (smallRand 1) ToySmp.A1 =
      (.ok (some ⟨6, []⟩), { ToySmp.A1 with status := .aborted, state := .expect1 }) ∧
    handle smallEnv ToySmp.hostA ⟨3, [0, 0, 0, 0]⟩ (smallRand 1) ToySmp.A1 =
      (.ok (some ⟨6, []⟩), { ToySmp.A1 with status := .aborted, state := .expect1 }) ∧
    handle smallEnv ToySmp.hostA ToySmp.m2 (smallRand 1) ToySmp.A1 = (.ok (some ToySmp.m3), ToySmp.A2) :=
  ⟨ToySmp.lifeA1, by decide +kernel, by decide +kernel, by decide +kernel, ToySmp.r3⟩

/-! ## C53: success only after all checks -/

/-- C53 (OTRv3): whatever was received before, when a client reports success, then this very exchange was
checked from start to end.  Either the client was the responder: it received message 1 with `g2a`, `g3a` in range
and proven, sent message 2 with `g2b`, `g3b`, `Pb`, `Qb`, and just received message 3 with `Pa`, `Qa`, `Ra` in range
and proven for these values, and the comparison holds.  Or it was the initiator: it sent message 1, received
message 2 with all values in range and proven, sent message 3, just received message 4 with `Rb` in range and
proven, and the comparison holds.  No other event came in between. -/
theorem C53_otr3 {E : Env} (hG : SmpGroup E.dh) {h : List SmpEv} {c : SMPContext} {t : TLV} {r : Option TLV}
    (hl : SmpLife E (h ++ [.received t r .completed]) c) :
    (∃ h' m1 m2 b2 b3 g2a g3a Pb Qb Pa Qa Ra k, h = h' ++ [.received m1 (some m2) .inProgress] ∧
      Checked1 E g2a g3a m1 ∧ Sent2 (E.dh.g ^ b2 % E.dh.p) (E.dh.g ^ b3 % E.dh.p) Pb Qb m2 ∧
      IsQuotient E.dh.p k Qa Qb ∧ Checked3 E b2 b3 g2a g3a k Pa Qa Ra t ∧
      Pa % E.dh.p = Ra ^ b3 * Pb % E.dh.p) ∨
    (∃ h' m1 m2 m3 a2 a3 g2b g3b Pb Qb Pa Qa Ra Rb k, h = h' ++ [.started m1, .received m2 (some m3) .inProgress] ∧
      Sent1 (E.dh.g ^ a2 % E.dh.p) (E.dh.g ^ a3 % E.dh.p) m1 ∧ Checked2 E a2 a3 g2b g3b Pb Qb m2 ∧
      Sent3 Pa Qa Ra m3 ∧ IsQuotient E.dh.p k Qa Qb ∧ Checked4 E g3b k Rb t ∧
      Pa % E.dh.p = Rb ^ a3 * Pb % E.dh.p) := by
  generalize hh : h ++ [SmpEv.received t r .completed] = hist at hl
  cases hl with
  | new => simp at hh
  | started hl hs => have := (List.append_inj' hh rfl).2; cases this
  | aborted hl hs => have := (List.append_inj' hh rfl).2; cases this
  | @received h0 c0 _ host t' rnd r' hl hs =>
    obtain ⟨rfl, he⟩ := List.append_inj' hh rfl
    simp only [List.cons.injEq, SmpEv.received.injEq, and_true] at he
    obtain ⟨rfl, rfl, hst⟩ := he
    have tied := life_tied hG hl
    have step := handle_inv hG tied.nonzero hs
    cases step with
    | abort => cases hst
    | declined => cases hst
    | rejected => cases hst
    | one => cases hst
    | two _ hst' =>
      simp only [after2] at hst
      rw [Tied, hst'] at tied
      rw [tied.1] at hst
      cases hst
    | @three g3a g2 g3 b3 Pb Qb Pa Qa Ra cP D5 D6 cR D7 k l ht hst' hn hp h6 h7 hk hl' hQ hP =>
      left
      rw [Tied, hst'] at tied
      obtain ⟨_, h', m1, m2, g2a, b2, rfl, hc1, rfl, rfl, hs2, hP0, hQ0⟩ := tied
      have hcmp : l = modpow Ra b3 E.dh.p := by
        simp only at hst
        by_contra hne
        rw [if_neg hne] at hst
        cases hst
      refine ⟨h', m1, m2, b2, b3, g2a, g3a, Pb, Qb, Pa, Qa, Ra, k, rfl, hc1, hs2, (quotient_iff _ _ _).mpr hQ,
        ⟨cP, D5, D6, cR, D7, hn, hp, provesPQ_mod.mp h6, h7⟩, ?_⟩
      rw [← ZMod.natCast_eq_natCast_iff', ← hP, hcmp, cast_modpow]
      push_cast
      rfl
    | @four g3b l k a3 Rb ht hst' hc =>
      right
      rw [Tied, hst'] at tied
      obtain ⟨_, h', m1, m2, m3, a2, g2b, Pb, Qb, Pa, Qa, Ra, rfl, hs1, hc2, hs3, hQ, hP⟩ := tied
      have hcmp : l = modpow Rb a3 E.dh.p := by
        simp only at hst
        by_contra hne
        rw [if_neg hne] at hst
        cases hst
      refine ⟨h', m1, m2, m3, a2, a3, g2b, g3b, Pb, Qb, Pa, Qa, Ra, Rb, k, rfl, hs1, hc2, hs3, hQ, hc, ?_⟩
      have := (quotient_iff _ _ _).mp hP
      rw [← ZMod.natCast_eq_natCast_iff', ← this, hcmp, cast_modpow]
      push_cast
      rfl

/-- Both clients report success in the concrete exchange. -/
example : SmpLife smallEnv ([.received ToySmp.m1 (some ToySmp.m2) .inProgress] ++
      [.received ToySmp.m3 (some ToySmp.m4) .completed]) ToySmp.B2 ∧
    SmpLife smallEnv ([.started ToySmp.m1, .received ToySmp.m2 (some ToySmp.m3) .inProgress] ++
      [.received ToySmp.m4 .none .completed]) ToySmp.A3 := ⟨ToySmp.lifeB2, ToySmp.lifeA3⟩

/-! ## C54: aborting terminates -/

/-- C54 (OTRv3): a reply costs less than the message it answers, whatever the state of the receiver. -/
theorem C54_otr3_reply {E : Env} (hG : SmpGroup E.dh) {h : List SmpEv} {host : SMPHost} {t : TLV} {rnd : Rand}
    {c c' : SMPContext} (hl : SmpLife E h c) {r : TLV} (hh : handle E host t rnd c = (.ok (some r), c')) :
    cost r < cost t := by
  have hty : t.typ ≠ 6 → cost abortTlv < cost t := by
    intro h6
    have e : cost abortTlv = 1 := rfl
    rw [e, cost, if_neg h6]
    repeat' split
    all_goals simp
  have step := handle_inv hG (life_tied hG hl).nonzero hh
  cases step with
  | declined h => exact hty (by rcases h with h | h <;> rw [h] <;> decide)
  | rejected h => exact hty h
  | one h =>
    have e : cost t = 5 := by rcases h with h | h <;> rw [cost, h] <;> decide
    rw [e]
    exact (by decide : 4 < 5)
  | two h =>
    have e : cost t = 4 := by rw [cost, h]; decide
    rw [e]
    exact (by decide : 3 < 4)
  | three h =>
    have e : cost t = 3 := by rw [cost, h]; decide
    rw [e]
    exact (by decide : 2 < 3)

/-- C54 (OTRv3): take two clients in any states and any messages on their way, for example after one of them
aborted.  If no user starts SMP again, at most `cost` messages are delivered in total, in whatever order: each
message adds at most 5. -/
theorem C54_otr3 {E : Env} (hG : SmpGroup E.dh) {hA hB : List SmpEv} {s s' : SmpNet} {n : Nat}
    (lA : SmpLife E hA s.a) (lB : SmpLife E hB s.b) (hd : SmpNet.Delivers E n s s') :
    n ≤ s.cost ∧ s.cost ≤ 5 * (s.toA.length + s.toB.length) := by
  constructor
  · induction hd generalizing hA hB with
    | zero => exact Nat.zero_le _
    | @succ n s s1 s2 h1 _ ih =>
      cases h1 with
      | @a a b a' pre t post toB host rnd r hh =>
        have := ih (SmpLife.received lA hh) lB
        cases r with
        | none =>
          have h5 : 1 ≤ cost t := by unfold cost; repeat' split
                                     all_goals simp
          simp only [SmpNet.cost, List.map_append, List.sum_append, List.map_cons, List.sum_cons, Option.toList,
            List.append_nil] at this ⊢
          omega
        | some r =>
          have h5 := C54_otr3_reply hG lA hh
          simp only [SmpNet.cost, List.map_append, List.sum_append, List.map_cons, List.sum_cons, Option.toList,
            List.map_nil, List.sum_nil] at this ⊢
          omega
      | @b a b b' toA pre t post host rnd r hh =>
        have := ih lA (SmpLife.received lB hh)
        cases r with
        | none =>
          have h5 : 1 ≤ cost t := by unfold cost; repeat' split
                                     all_goals simp
          simp only [SmpNet.cost, List.map_append, List.sum_append, List.map_cons, List.sum_cons, Option.toList,
            List.append_nil] at this ⊢
          omega
        | some r =>
          have h5 := C54_otr3_reply hG lB hh
          simp only [SmpNet.cost, List.map_append, List.sum_append, List.map_cons, List.sum_cons, Option.toList,
            List.map_nil, List.sum_nil] at this ⊢
          omega
  · have hsum : ∀ l : List TLV, (l.map cost).sum ≤ 5 * l.length := by
      intro l
      induction l with
      | nil => simp
      | cons t l ih =>
        have : cost t ≤ 5 := by unfold cost; repeat' split
                                all_goals simp
        simp only [List.map_cons, List.sum_cons, List.length_cons]
        omega
    have := hsum (s.toA ++ s.toB)
    rw [List.length_append] at this
    exact this

/-- Alice aborts while Bob's message 2 is on its way.  Alice does not expect it and aborts once more; Bob takes
both aborts without a reply: three messages. -/
example : ∃ A1' A2' B2', SMP.abort ToySmp.A1 = (.ok ⟨6, []⟩, A1') ∧
    SmpNet.Delivers smallEnv 3 ⟨A1', ToySmp.B1, [ToySmp.m2], [⟨6, []⟩]⟩ ⟨A2', B2', [], []⟩ ∧ B2'.status = .aborted := by
  refine ⟨_, { ToySmp.A1 with status := .aborted, state := .expect1 }, { ToySmp.B1 with status := .aborted, state := .expect1 }, rfl, ?_, rfl⟩
  refine .succ (.a (pre := []) (post := []) (host := ToySmp.hostA) (rnd := smallRand 1) (r := some ⟨6, []⟩) (a' :=
    { ToySmp.A1 with status := .aborted, state := .expect1 }) (by decide +kernel)) ?_
  refine .succ (.b (pre := []) (post := [⟨6, []⟩]) (host := ToySmp.hostA) (rnd := smallRand 1) (r := .none) rfl) ?_
  refine .succ (.b (pre := []) (post := []) (host := ToySmp.hostA) (rnd := smallRand 1) (r := .none) rfl) ?_
  exact .zero _

/-! ## C55: one exchange at a time -/

/-- C55 (OTRv3): while SMP is in progress, starting it fails with `SMPInProgress` and changes nothing; otherwise
it succeeds. -/
theorem C55_otr3 {E : Env} (hG : SmpGroup E.dh) {h : List SmpEv} {c : SMPContext} (hl : SmpLife E h c)
    {host : SMPHost} (hk : host.key ≠ .none) (secret q : Bytes) (rnd : Rand) :
    (c.status = .inProgress → start E host secret q rnd c = (.err .smpInProgress, c)) ∧
    (c.status ≠ .inProgress → ∃ m c', start E host secret q rnd c = (.ok m, c') ∧ c'.status = .inProgress ∧
      (m.typ = 2 ∧ q = [] ∨ m.typ = 7 ∧ ∃ rest, m.value = q ++ [0] ++ rest)) := by
  constructor
  · intro hin
    have : c.state ≠ .expect1 := fun h => (life_tied hG hl).idle.mp h hin
    unfold start
    split
    · exact absurd ‹_› this
    · rfl
  · intro hin
    have hst := (life_tied hG hl).idle.mpr hin
    obtain ⟨key, hk'⟩ := Option.ne_none_iff_exists'.mp hk
    simp only [start, hst, hk']
    refine ⟨_, _, rfl, rfl, ?_⟩
    cases q with
    | nil => exact .inl ⟨rfl, rfl⟩
    | cons b q =>
      right
      simp only [List.isEmpty_cons, Bool.false_eq_true, if_false]
      exact ⟨rfl, _, rfl⟩

example : SmpLife smallEnv [.started ToySmp.m1] ToySmp.A1 ∧ ToySmp.A1.status = .inProgress ∧
    start smallEnv ToySmp.hostA ToySmp.s' [] (smallRand 2) ToySmp.A1 = (.err .smpInProgress, ToySmp.A1) :=
  ⟨ToySmp.lifeA1, ToySmp.running.1, by decide +kernel⟩

end Otrr.Props
