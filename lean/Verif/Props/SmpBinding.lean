import Verif.Spec.SmpBinding
import Verif.Props.Smp
import Verif.Props.Smp4
import Verif.Props.SessionLife
/-! C105: the SMP exposes whoever sits between the users. -/

namespace Otrr.Props
open Otrr Otrr.Spec

theorem tied3_len {E : Env} {c : SMPContext} (h : Tied3 E c) : c.ssid.length = 8 ∧ c.their.length = 20 := by
  obtain ⟨⟨x, h1⟩, pk, h2⟩ := h
  rw [h1, h2, List.length_take, E.sha256_len, fingerprint3, E.sha1_len]
  exact ⟨rfl, rfl⟩

theorem tied4_len {E : Env} {c : SMP4Context} (h : Tied4 E c) : c.ssid.length = 8 ∧ c.us.length = 56 ∧ c.them.length = 56 := by
  obtain ⟨⟨x, h1⟩, ⟨H, F, h2⟩, H', F', h3⟩ := h
  rw [h1, h2, h3, kdf, fingerprint4, fingerprint4, kdf2, kdf2, E.shake_len, E.shake_len, E.shake_len]
  exact ⟨rfl, rfl, rfl⟩

/-- Nothing of what is compared can be traded for something else: SSID and fingerprints have fixed lengths. -/
theorem compared3_inj {i r s x i' r' s' x' : Bytes} (h1 : i.length = i'.length) (h2 : r.length = r'.length) (h3 : s.length = s'.length) :
    compared3 i r s x = compared3 i' r' s' x' ↔ i = i' ∧ r = r' ∧ s = s' ∧ x = x' := by
  constructor
  · intro h
    simp only [compared3, List.append_assoc] at h
    obtain ⟨_, h⟩ := List.append_inj h rfl
    obtain ⟨e1, h⟩ := List.append_inj h h1
    obtain ⟨e2, h⟩ := List.append_inj h h2
    obtain ⟨e3, e4⟩ := List.append_inj h h3
    exact ⟨e1, e2, e3, e4⟩
  · rintro ⟨rfl, rfl, rfl, rfl⟩; rfl

theorem compared4_inj {i r s x i' r' s' x' : Bytes} (h1 : i.length = i'.length) (h2 : r.length = r'.length) (h3 : s.length = s'.length)
    (h4 : x.length < 2 ^ 32) (h5 : x'.length < 2 ^ 32) :
    compared4 i r s x = compared4 i' r' s' x' ↔ i = i' ∧ r = r' ∧ s = s' ∧ x = x' := by
  constructor
  · intro h
    simp only [compared4, List.append_assoc] at h
    obtain ⟨_, h⟩ := List.append_inj h rfl
    obtain ⟨e1, h⟩ := List.append_inj h h1
    obtain ⟨e2, h⟩ := List.append_inj h h2
    obtain ⟨e3, e4⟩ := List.append_inj h h3
    refine ⟨e1, e2, e3, ?_⟩
    exact (SMP4.wData_inj (b := []) (b' := []) (by rw [List.append_nil, List.append_nil]; exact e4) h4 h5).1
  · rintro ⟨rfl, rfl, rfl, rfl⟩; rfl

section otr3
open SMP

/-- C105 (OTRv3): two users run the SMP, and somebody passes the messages of the SMP on between their clients, unchanged, out of one session
and into another, say.  Each client is told that the SMP succeeded exactly if both see the same SSID and each other's fingerprint, and the
users gave the same secret; if not, both are told that it failed.  Only a collision of the hash of what is compared could change this, and the
numbers in the messages must be in range, as in C50. -/
theorem C105_otr3 {E : Env} (hG : SmpGroup E.dh) {hostA hostB : SMPHost} {kA kB : DSAPublicKey} {A B : SMPContext}
    {hA hB : List SmpEv} (lA : SmpLife E hA A) (lB : SmpLife E hB B) (tA : Tied3 E A) (tB : Tied3 E B) {q sA sB : Bytes}
    (hkA : hostA.key = some kA) (hkB : hostB.key = some kB) (iA : A.status ≠ .inProgress) (iB : B.status ≠ .inProgress)
    (hq : ∀ b ∈ q, b ≠ 0) (hans : hostB.secret q = some sB)
    (hcol : compared3 (fingerprint3 E kA) A.their A.ssid sA ≠ compared3 B.their (fingerprint3 E kB) B.ssid sB →
      number3 E (compared3 (fingerprint3 E kA) A.their A.ssid sA) ≠ number3 E (compared3 B.their (fingerprint3 E kB) B.ssid sB))
    (r1 r2 r3 r4 r5 : Rand) :
    ∃ m1 A1 v1, start E hostA sA q r1 A = (.ok m1, A1) ∧ A1.status = .inProgress ∧ numbers m1 = .ok v1 ∧
      (Proper1 E.dh v1 →
    ∃ m2 B1 v2, handle E hostB m1 r2 B = (.ok (some m2), B1) ∧ B1.status = .inProgress ∧ numbers m2 = .ok v2 ∧
      (Proper2 E.dh v2 →
    ∃ m3 A2 v3, handle E hostA m2 r3 A1 = (.ok (some m3), A2) ∧ A2.status = .inProgress ∧ numbers m3 = .ok v3 ∧
      (Proper3 E.dh v3 →
    ∃ m4 B2 v4, handle E hostB m3 r4 B1 = (.ok (some m4), B2) ∧ Tells (SameView3 E kA kB A B sA sB) B2.status ∧ numbers m4 = .ok v4 ∧
      (Proper4 E.dh v4 →
    ∃ A3, handle E hostA m4 r5 A2 = (.ok .none, A3) ∧ Tells (SameView3 E kA kB A B sA sB) A3.status)))) := by
  have hiff := compared3_inj (i := fingerprint3 E kA) (r := A.their) (s := A.ssid) (x := sA) (i' := B.their) (r' := fingerprint3 E kB)
    (s' := B.ssid) (x' := sB) (by rw [(tied3_len tB).2, fingerprint3, E.sha1_len]) (by rw [(tied3_len tA).2, fingerprint3, E.sha1_len])
    (by rw [(tied3_len tA).1, (tied3_len tB).1])
  have tell : ∀ st, st = outcome E (computeSecret E (fingerprint3 E kA) A.their A.ssid sA)
      (computeSecret E B.their (fingerprint3 E kB) B.ssid sB) → Tells (SameView3 E kA kB A B sA sB) st := by
    rintro _ rfl
    constructor
    · rintro ⟨h1, h2, h3, h4⟩
      rw [outcome, if_pos]
      rw [h1, h2, h3, h4]
    · intro hn
      rw [outcome, if_neg]
      exact hcol fun h => hn (by obtain ⟨h1, h2, h3, h4⟩ := hiff.mp h; exact ⟨h2, h1.symm, h3, h4⟩)
  obtain ⟨m1, A1, v1, h1, h2, _, h3, k⟩ := run3_any hG (sA := sA) hkA hkB ((life_tied hG lA).idle.mpr iA) ((life_tied hG lB).idle.mpr iB)
    hq hans rfl rfl r1 r2 r3 r4 r5 (hostA3 := hostA) (hostB4 := hostB) (hostA5 := hostA)
  refine ⟨m1, A1, v1, h1, h2, h3, fun p => ?_⟩
  obtain ⟨m2, B1, v2, h1, h2, _, h3, k⟩ := k p
  refine ⟨m2, B1, v2, h1, h2, h3, fun p => ?_⟩
  obtain ⟨m3, A2, v3, h1, h2, _, h3, k⟩ := k p
  refine ⟨m3, A2, v3, h1, h2, h3, fun p => ?_⟩
  obtain ⟨m4, B2, v4, h1, h2, _, _, _, _, h3, k⟩ := k p
  refine ⟨m4, B2, v4, h1, tell _ h2, h3, fun p => ?_⟩
  obtain ⟨A3, h1, h2, _⟩ := k p
  exact ⟨A3, h1, tell _ h2⟩

namespace ToyMitm3
open ToySmp (kA kB hostA hostB s q nums tlv)

/-- The key of somebody between Alice and Bob, and what Alice and Bob know of their sessions with them. -/
def kM : DSAPublicKey := ⟨23, 2 ^ 159 + 5, 3, 2⟩
@[irreducible] def A0 : SMPContext := SMP.new ((smallEnv.sha256 [0, 1]).take 8) (fingerprint3 smallEnv kM)
@[irreducible] def B0 : SMPContext := SMP.new ((smallEnv.sha256 [0, 2]).take 8) (fingerprint3 smallEnv kM)
@[irreducible] def m1 : TLV := match (start smallEnv hostA s q (smallRand 1) A0).1 with | .ok t => t | _ => default
@[irreducible] def A1 : SMPContext := (start smallEnv hostA s q (smallRand 1) A0).2
@[irreducible] def m2 : TLV := tlv (handle smallEnv (hostB s) m1 (smallRand 1) B0)
@[irreducible] def B1 : SMPContext := (handle smallEnv (hostB s) m1 (smallRand 1) B0).2
@[irreducible] def m3 : TLV := tlv (handle smallEnv hostA m2 (smallRand 1) A1)
@[irreducible] def A2 : SMPContext := (handle smallEnv hostA m2 (smallRand 1) A1).2
@[irreducible] def m4 : TLV := tlv (handle smallEnv (hostB s) m3 (smallRand 1) B1)
@[irreducible] def B2 : SMPContext := (handle smallEnv (hostB s) m3 (smallRand 1) B1).2
@[irreducible] def A3 : SMPContext := (handle smallEnv hostA m4 (smallRand 1) A2).2

theorem meets : A0.status ≠ .inProgress ∧ B0.status ≠ .inProgress ∧ (∀ b ∈ q, b ≠ 0) ∧
    number3 smallEnv (compared3 (fingerprint3 smallEnv kA) A0.their A0.ssid s) ≠
      number3 smallEnv (compared3 B0.their (fingerprint3 smallEnv kB) B0.ssid s) := by decide +kernel

theorem run : Proper1 smallEnv.dh (nums m1) ∧ Proper2 smallEnv.dh (nums m2) ∧ Proper3 smallEnv.dh (nums m3) ∧
    Proper4 smallEnv.dh (nums m4) ∧ B2.status = .aborted ∧ A3.status = .aborted := by decide +kernel

end ToyMitm3

/-- The hypotheses of `C105_otr3` are met by a run through somebody in the middle, in which every number is in range; both users gave the
same secret, and both are told that it failed. -/
example : ∃ (E : Env) (hostA hostB : SMPHost) (kA kB : DSAPublicKey) (A B : SMPContext) (s q : Bytes), SmpGroup E.dh ∧
    SmpLife E [] A ∧ SmpLife E [] B ∧ Tied3 E A ∧ Tied3 E B ∧ hostA.key = some kA ∧ hostB.key = some kB ∧ A.status ≠ .inProgress ∧
    B.status ≠ .inProgress ∧ (∀ b ∈ q, b ≠ 0) ∧ hostB.secret q = some s ∧
    number3 E (compared3 (fingerprint3 E kA) A.their A.ssid s) ≠ number3 E (compared3 B.their (fingerprint3 E kB) B.ssid s) :=
  ⟨smallEnv, ToySmp.hostA, ToySmp.hostB ToySmp.s, ToySmp.kA, ToySmp.kB, ToyMitm3.A0, ToyMitm3.B0, ToySmp.s, ToySmp.q, toy_smpGroup,
    by unfold ToyMitm3.A0; exact .new _ _, by unfold ToyMitm3.B0; exact .new _ _,
    by unfold ToyMitm3.A0; exact ⟨⟨[1], rfl⟩, _, rfl⟩, by unfold ToyMitm3.B0; exact ⟨⟨[2], rfl⟩, _, rfl⟩, rfl, rfl,
    ToyMitm3.meets.1, ToyMitm3.meets.2.1, ToyMitm3.meets.2.2.1, rfl, ToyMitm3.meets.2.2.2⟩

end otr3

section otr4
open SMP4

/-- C105 (OTRv4). -/
theorem C105_otr4 {E : Env} (hc : SmpCurve E.curve) {hostA hostB : SMPHost} {A B : SMP4Context} {hA hB : List SmpEv}
    (_lA : SmpLife4 E hA A) (lB : SmpLife4 E hB B) (tA : Tied4 E A) (tB : Tied4 E B) {q sA sB : Bytes} (iA : A.status ≠ .inProgress)
    (iB : B.status ≠ .inProgress) (hq : q.length < 2 ^ 32) (hsA : sA.length < 2 ^ 32) (hsB : sB.length < 2 ^ 32)
    (hans : hostB.secret q = some sB)
    (hcol : compared4 A.us A.them A.ssid sA ≠ compared4 B.them B.us B.ssid sB →
      number4 E (compared4 A.us A.them A.ssid sA) ≠ number4 E (compared4 B.them B.us B.ssid sB)) (r1 r2 r3 r4 r5 : Rand)
    (ha : ∀ i ∈ [0, 1], random E r1 i % E.curve.q ≠ 0) (hb : ∀ i ∈ [0, 1, 4], random E r2 i % E.curve.q ≠ 0)
    (hQ : (random E r2 4 + random E r1 0 * random E r2 0 * secretNumber4 E B.them B.us B.ssid sB) % E.curve.q ≠ 0) :
    ∃ m1 A1 v1, start E sA q r1 A = (.ok m1, A1) ∧ A1.status = .inProgress ∧ Carries E.curve q v1 m1 ∧
      (Nontrivial4 v1 →
    ∃ m2 B1 v2, handle E hostB m1 r2 B = (.ok (some m2), B1) ∧ B1.status = .inProgress ∧ Carries E.curve [] v2 m2 ∧
      (Nontrivial4 v2 →
    ∃ m3 A2 v3, handle E hostA m2 r3 A1 = (.ok (some m3), A2) ∧ A2.status = .inProgress ∧ Carries E.curve [] v3 m3 ∧
      (Nontrivial4 v3 →
    ∃ m4 B2 v4, handle E hostB m3 r4 B1 = (.ok (some m4), B2) ∧ Tells (SameView4 A B sA sB) B2.status ∧ Carries E.curve [] v4 m4 ∧
      (Nontrivial4 v4 →
    ∃ A3, handle E hostA m4 r5 A2 = (.ok .none, A3) ∧ Tells (SameView4 A B sA sB) A3.status)))) := by
  have hiff := compared4_inj (i := A.us) (r := A.them) (s := A.ssid) (x := sA) (i' := B.them) (r' := B.us) (s' := B.ssid) (x' := sB)
    (by rw [(tied4_len tA).2.1, (tied4_len tB).2.2]) (by rw [(tied4_len tA).2.2, (tied4_len tB).2.1])
    (by rw [(tied4_len tA).1, (tied4_len tB).1]) hsA hsB
  have tell : ∀ st, st = outcome E (computeSecret E A.us A.them A.ssid sA) (computeSecret E B.them B.us B.ssid sB) →
      Tells (SameView4 A B sA sB) st := by
    rintro _ rfl
    constructor
    · rintro ⟨h1, h2, h3, h4⟩
      rw [outcome, if_pos]
      rw [h1, h2, h3, h4]
    · intro hn
      rw [outcome, if_neg]
      exact hcol fun h => hn (hiff.mp h)
  obtain ⟨m1, A1, v1, h1, h2, _, _, h3, k⟩ := run4_any hc (sA := sA) iA ((life_tied hc.good lB).idle.mpr iB) hq hans r1 r2 r3 r4 r5 ha hb
    rfl rfl hQ (hostA3 := hostA) (hostB4 := hostB) (hostA5 := hostA)
  refine ⟨m1, A1, v1, h1, h2, h3, fun p => ?_⟩
  obtain ⟨m2, B1, v2, h1, h2, _, _, h3, k⟩ := k p
  refine ⟨m2, B1, v2, h1, h2, h3, fun p => ?_⟩
  obtain ⟨m3, A2, v3, h1, h2, _, _, h3, k⟩ := k p
  refine ⟨m3, A2, v3, h1, h2, h3, fun p => ?_⟩
  obtain ⟨m4, B2, v4, h1, h2, _, _, _, _, _, _, h3, k⟩ := k p
  refine ⟨m4, B2, v4, h1, tell _ h2, h3, fun p => ?_⟩
  obtain ⟨A3, h1, h2, _⟩ := k p
  exact ⟨A3, h1, tell _ h2⟩

namespace ToyMitm4
open ToySmp4 (host s q rA rB)

/-- The fingerprints of Alice and Bob, and the SSIDs of two sessions. -/
def fp (P F : Point) : Bytes := fingerprint4 toyEnv P F
def ssid (n : UInt8) : Bytes := kdf toyEnv 8 0x04 [n]
@[irreducible] def A0 : SMP4Context := SMP4.new (fp ⟨25, 28⟩ ⟨2, 39⟩) (fp ⟨2, 39⟩ ⟨25, 28⟩) (ssid 1)
/-- Bob is in Alice's session, or in another one. -/
@[irreducible] def B0 (j : UInt8) : SMP4Context := SMP4.new (fp ⟨2, 39⟩ ⟨25, 28⟩) (fp ⟨25, 28⟩ ⟨2, 39⟩) (ssid j)
@[irreducible] def m1 : TLV := match (start toyEnv s q rA A0).1 with | .ok t => t | _ => default
@[irreducible] def A1 : SMP4Context := (start toyEnv s q rA A0).2
@[irreducible] def m2 (j : UInt8) : TLV := ToySmp4.tlv (handle toyEnv (host s) m1 rB (B0 j))
@[irreducible] def B1 (j : UInt8) : SMP4Context := (handle toyEnv (host s) m1 rB (B0 j)).2
@[irreducible] def m3 (j : UInt8) : TLV := ToySmp4.tlv (handle toyEnv (host s) (m2 j) rA A1)
@[irreducible] def A2 (j : UInt8) : SMP4Context := (handle toyEnv (host s) (m2 j) rA A1).2
@[irreducible] def m4 (j : UInt8) : TLV := ToySmp4.tlv (handle toyEnv (host s) (m3 j) rB (B1 j))
@[irreducible] def B2 (j : UInt8) : SMP4Context := (handle toyEnv (host s) (m3 j) rB (B1 j)).2
@[irreducible] def A3 (j : UInt8) : SMP4Context := (handle toyEnv (host s) (m4 j) rA (A2 j)).2

theorem meets : A0.status ≠ .inProgress ∧ (B0 3).status ≠ .inProgress ∧
    number4 toyEnv (compared4 A0.us A0.them A0.ssid s) ≠ number4 toyEnv (compared4 (B0 3).them (B0 3).us (B0 3).ssid s) ∧
    (∀ i ∈ [0, 1], random toyEnv rA i % toyEnv.curve.q ≠ 0) ∧ (∀ i ∈ [0, 1, 4], random toyEnv rB i % toyEnv.curve.q ≠ 0) ∧
    (random toyEnv rB 4 + random toyEnv rA 0 * random toyEnv rB 0 *
      secretNumber4 toyEnv (B0 3).them (B0 3).us (B0 3).ssid s) % toyEnv.curve.q ≠ 0 := by decide +kernel

theorem run : (B2 1).status = .completed ∧ (A3 1).status = .completed ∧ (B2 3).status = .aborted ∧ (A3 3).status = .aborted := by
  decide +kernel

end ToyMitm4

/-- The hypotheses of `C105_otr4` are met by a run between two sessions; both users gave the same secret.  By `ToyMitm4.run`, both are told
that it failed, and are told of success had they been in the same session. -/
example : ∃ (E : Env) (host : SMPHost) (A B : SMP4Context) (s q : Bytes) (r1 r2 : Rand), SmpCurve E.curve ∧ SmpLife4 E [] A ∧
    SmpLife4 E [] B ∧ Tied4 E A ∧ Tied4 E B ∧ A.status ≠ .inProgress ∧ B.status ≠ .inProgress ∧ q.length < 2 ^ 32 ∧ s.length < 2 ^ 32 ∧
    host.secret q = some s ∧
    number4 E (compared4 A.us A.them A.ssid s) ≠ number4 E (compared4 B.them B.us B.ssid s) ∧
    (∀ i ∈ [0, 1], random E r1 i % E.curve.q ≠ 0) ∧ (∀ i ∈ [0, 1, 4], random E r2 i % E.curve.q ≠ 0) ∧
    (random E r2 4 + random E r1 0 * random E r2 0 * secretNumber4 E B.them B.us B.ssid s) % E.curve.q ≠ 0 :=
  ⟨toyEnv, ToySmp4.host ToySmp4.s, ToyMitm4.A0, ToyMitm4.B0 3, ToySmp4.s, ToySmp4.q, ToySmp4.rA, ToySmp4.rB, toy_smpCurve,
    by unfold ToyMitm4.A0; exact .new _ _ _, by unfold ToyMitm4.B0; exact .new _ _ _,
    by unfold ToyMitm4.A0; exact ⟨⟨_, rfl⟩, ⟨_, _, rfl⟩, _, _, rfl⟩, by unfold ToyMitm4.B0; exact ⟨⟨_, rfl⟩, ⟨_, _, rfl⟩, _, _, rfl⟩,
    ToyMitm4.meets.1, ToyMitm4.meets.2.1, by decide, by decide, rfl, ToyMitm4.meets.2.2⟩

end otr4

/-- C105, the session: whatever happened, the SMP of an encrypted session works with an SSID and with fingerprints that come from a key
exchange. -/
theorem C105_session (E : Env) (A : Account) (h : List Ev) (s : Session) (hh : Hist E A h s) (k : UInt32) :
    (∀ x smp, stateOf s k = .encrypted3 x smp → Tied3 E smp ∧ ∃ l, SmpLife E l smp) ∧
    (∀ x smp, stateOf s k = .encrypted4 x smp → Tied4 E smp ∧ ∃ l, SmpLife4 E l smp) := by
  constructor
  · intro x smp hs
    obtain ⟨_, _, l, _, _, hl, t⟩ := (hist_alive hh k).1 x smp hs
    exact ⟨t, l, hl⟩
  · intro x smp hs
    obtain ⟨_, _, l, _, _, hl, t⟩ := (hist_alive hh k).2 x smp hs
    exact ⟨t, l, hl⟩

/-- C105, the SSID: the SSID that a client reports of its session with an instance has 8 bytes, and is the same as long as no new session with
that instance is reported. -/
theorem C105_ssid (E : Env) (A : Account) (h h' : List Ev) (s s' : Session) (hh : Hist E A h s) (k : UInt32) (hl : Later E A s h' s')
    (hn : SameSession k h') (a b : Bytes) (h1 : s.ssid k = .ok a) (h2 : s'.ssid k = .ok b) : b = a ∧ a.length = 8 := by
  have get : ∀ (s : Session) (a : Bytes), s.ssid k = .ok a → (∃ x smp, stateOf s k = .encrypted3 x smp ∧ a = smp.ssid) ∨
      ∃ x smp, stateOf s k = .encrypted4 x smp ∧ a = smp.ssid := by
    intro s a h
    unfold Session.ssid at h
    unfold stateOf
    split at h
    · cases h
    · rename_i i hi
      rw [hi]
      unfold Instance.ssid at h
      split at h
      · rename_i x smp he; cases h; exact .inl ⟨x, smp, he, rfl⟩
      · rename_i x smp he; cases h; exact .inr ⟨x, smp, he, rfl⟩
      · cases h
  have hg := later_goes hh hl hn
  have hs := C105_session E A h s hh k
  rcases get s' b h2 with ⟨x', smp', e', rfl⟩ | ⟨x', smp', e', rfl⟩
  · obtain ⟨x, smp, l, e, _, ⟨e1, _⟩, _⟩ := hg.1 x' smp' e'
    rcases get s a h1 with ⟨y, smp2, e2, rfl⟩ | ⟨y, smp2, e2, rfl⟩
    · rw [e] at e2; cases e2
      exact ⟨e1, (tied3_len (hs.1 _ _ e).1).1⟩
    · rw [e] at e2; cases e2
  · obtain ⟨x, smp, l, e, _, ⟨e1, _⟩, _⟩ := hg.2 x' smp' e'
    rcases get s a h1 with ⟨y, smp2, e2, rfl⟩ | ⟨y, smp2, e2, rfl⟩
    · rw [e] at e2; cases e2
    · rw [e] at e2; cases e2
      exact ⟨e1, (tied4_len (hs.2 _ _ e).1).1⟩

theorem ssid_some {s : Session} {k : UInt32} (h : s.status k = some .encrypted) : ∃ a, s.ssid k = .ok a := by
  unfold Session.status at h
  unfold Session.ssid
  cases hi : lookup s.instances k with
  | none => rw [hi] at h; cases h
  | some i =>
    rw [hi] at h
    obtain ⟨_, _, state, _, _⟩ := i
    cases state <;> first | exact ⟨_, rfl⟩ | cases h

/-- The hypotheses of `C105_ssid` are met: Bob sends a message in the OTRv4 session. -/
example : ∃ h h' a b, Hist ToySession.tinyEnv ToySession.acB h ToySession.d3.after ∧ h' ≠ [] ∧
    Later ToySession.tinyEnv ToySession.acB ToySession.d3.after h' ToySession.d6.after ∧ SameSession 0x100 h' ∧
    ToySession.d3.after.ssid 0x100 = .ok a ∧ ToySession.d6.after.ssid 0x100 = .ok b := by
  obtain ⟨h, hh⟩ := ToySession.hist_d3
  obtain ⟨_, _, h1, _, _, h3, _, _⟩ := ToyLife.run
  obtain ⟨o, h1⟩ := ToyLife.texts_some h1
  obtain ⟨a, ha⟩ := ssid_some ToySession.status_d3
  obtain ⟨b, hb⟩ := ssid_some h3
  refine ⟨h, _, a, b, hh, by simp, Later.step (op := .send 0x100 [104, 105]) (c := ToySession.callB 1000 6) (e := ToySession.d6) .here
    (by unfold ToySession.d6; rfl) (by rw [h1]; nofun), ?_, ha, hb⟩
  intro e he
  have he := List.mem_singleton.mp (show e ∈ [_] from he)
  subst he
  simp only [h1]
  nofun

end Otrr.Props
