import Verif.Lemmas.SessionExchange3
import Verif.Props.Data3
import Verif.Lemmas.SessionMeetToy3
/-! C82: two clients exchange keys and talk with OTRv3. -/

namespace Otrr.Props
open Otrr Otrr.Spec Otrr.Session

theorem akeOf_inst (s : Session) (k : UInt32) : akeOf s k = (s.inst k).ake := by
  unfold akeOf inst
  cases lookup s.instances k <;> rfl

/-- Receiving a query, when the policy selects OTRv3. -/
theorem offer3_run {E : Env} {B : Account} {c : Call} {s : Session} (hi : Inv E s) {q : Bytes} {vs : List Version} (hf : matchFragment q = false)
    (hp : parse E q = .ok (.query vs)) (h3 : .v3 ∈ vs) (ha : AllowsV3 B) (no4 : ¬ (.v4 ∈ vs ∧ AllowsV4 B)) {r : EncodedMessageType} {d : AKEState}
    {t : Bytes} (h : AKE.initiate E (c.rnd.sub 0) (s.inst 0).ake = (.ok r, d))
    (ht : serialize (.encoded ⟨.v3, B.tag, 0, r⟩) = .ok t) (hl : t.length ≤ c.messageSize) :
    ((Op.receive q).run E B c s).result = .ok (.user .none) ∧ ((Op.receive q).run E B c s).sent = [t] ∧
      ((Op.receive q).run E B c s).after.inst 0 = { s.inst 0 with ake := d } ∧
      ∀ k, k ≠ 0 → ((Op.receive q).run E B c s).after.inst k = s.inst k := by
  have hb : Best B vs .v3 := ⟨h3, ha, no4⟩
  have h0 : (s.inst 0).receiver = 0 := hi.receiver 0
  have hrun : Instance.initiate E B c .v3 ⟨s.inst 0, []⟩ = (.ok .none, ⟨{ s.inst 0 with ake := d }, [t]⟩) :=
    Instance.initiate3_eq h (by rw [h0]; exact ht) hl
  have hr : receive E B c q ⟨s, []⟩ =
      (.ok .none, ⟨{ s with instances := insertKey s.instances 0 { s.inst 0 with ake := d } }, [t]⟩) := by
    simp only [receive, not_disabled hb.some, Bool.false_eq_true, if_false, hf, receiveWhole, StM.bind_run, StM.lift, hp, answerOffer,
      select_best hb, Session.initiate, entry, INSTANCE_ZERO]
    have : (lookup s.instances 0).getD (.new 0) = s.inst 0 := rfl
    rw [this, hrun]
    rfl
  refine ⟨?_, ?_, ?_, fun k hk => ?_⟩
  · rw [Op.run, perform_result, hr]; rfl
  · rw [Op.run, perform_sent, hr]
  · rw [Op.run, perform_after, hr]; exact inst_insert
  · rw [Op.run, perform_after, hr]
    unfold inst
    rw [lookup_insertKey, if_neg (Ne.symm hk)]

/-- `C82_exchange3`, and that the messages arrive. -/
theorem exchange3 (E : Env) (A B : Account) (keyA keyB : DSAKeypair) (hA hB : List Ev) (sA sB : Session) (hhA : Hist E A hA sA)
    (hhB : Hist E B hB sB) (cB1 cA2 cB3 cA4 cB5 : Call) (meet : CanMeet3 E A B keyA keyB cA2 cB1) (ready3 : Ready3 E keyB cB3)
    (ready4 : Ready3 E keyA cA4) (q : Bytes) (vs : List Version) (hf : matchFragment q = false) (hq : parse E q = .ok (.query vs))
    (h3 : .v3 ∈ vs) (no4 : ¬ (.v4 ∈ vs ∧ AllowsV4 B))
    (idleA : NotAwaitingReveal (akeOf sA B.tag) ∧ ∀ kp r, akeOf sA B.tag ≠ .awaitingDHKey kp r)
    (nA4 : NotV4 sA B.tag) (nB4 : NotV4 sB A.tag) :
    let e1 := (Op.receive q).run E B cB1 sB
    e1.result = .ok (.user .none) ∧ ∃ mC tC, Sends e1 ⟨.v3, B.tag, 0, .dhCommit mC⟩ tC ∧
    let e2 := (Op.receive tC).run E A cA2 sA
    e2.result = .ok (.user .none) ∧ ∃ mK tK, Sends e2 ⟨.v3, A.tag, B.tag, .dhKey mK⟩ tK ∧
    let e3 := (Op.receive tK).run E B cB3 e1.after
    e3.result = .ok (.user .none) ∧ ∃ mR tR, parse E tR = .ok (.encoded ⟨.v3, B.tag, A.tag, .revealSignature mR⟩) ∧ Sends e3 ⟨.v3, B.tag, A.tag, .revealSignature mR⟩ tR ∧
    ((∃ b ∈ mR.sigMac, b ≠ 0) →
    let e4 := (Op.receive tR).run E A cA4 e2.after
    e4.result = .ok (.user (.sessionStarted B.tag)) ∧ ∃ mS tS, parse E tS = .ok (.encoded ⟨.v3, A.tag, B.tag, .signature mS⟩) ∧ Sends e4 ⟨.v3, A.tag, B.tag, .signature mS⟩ tS ∧
    ((∃ b ∈ mS.sigMac, b ≠ 0) →
    let e5 := (Op.receive tS).run E B cB5 e3.after
    e5.result = .ok (.user (.sessionStarted A.tag)) ∧ e5.sent = [] ∧ Connected3 E A B (Either3 E) e4.after e5.after ∧
    ∃ ssid, Acquainted3 E A B keyA.pk keyB.pk ssid e4.after e5.after ∧ Acquainted3 E B A keyB.pk keyA.pk ssid e5.after e4.after)) := by
  have hiA := hist_inv hhA
  have hiB := hist_inv hhB
  have nA := tag_ne_zero meet.tags.1
  have nB := tag_ne_zero meet.tags.2
  have hG := meet.group
  have hp0 : 0 < E.dh.p := by have := hG.1; omega
  have hfit := fits_of_small meet.small.1
  obtain ⟨sm1, sm2, sm3⟩ := meet.small
  have hvA : Version.v3 = .v3 ∧ AllowsV3 A ∨ Version.v3 = .v4 ∧ AllowsV4 A := .inl ⟨rfl, meet.allow.1⟩
  have hvB : Version.v3 = .v3 ∧ AllowsV3 B ∨ Version.v3 = .v4 ∧ AllowsV4 B := .inl ⟨rfl, meet.allow.2⟩
  let x := beNat ((cB1.rnd.sub 0).bytes [0] 192)
  let y := beNat ((cA2.rnd.sub 0).bytes [0] 192)
  let r := (cB1.rnd.sub 0).bytes [1] 16
  let kb := DH.Keypair.new E.dh x
  let ka := DH.Keypair.new E.dh y
  have rx : InRange E.dh kb.pub := meet.drawB.1
  have ry : InRange E.dh ka.pub := meet.drawA.1
  have szx : (wMpi kb.pub).length ≤ (natToBE E.dh.p).length + 4 := pub_size hG x
  have szy : (wMpi ka.pub).length ≤ (natToBE E.dh.p).length + 4 := pub_size hG y
  obtain ⟨mR, b2, i3, rest⟩ := exchange hfit hp0 meet.keys.1 meet.keys.2 x y r rx ry
  -- Bob begins
  let mC := AKE.dhCommitOf E kb r
  have i1 : AKE.initiate E (cB1.rnd.sub 0) (sB.inst 0).ake = (.ok (.dhCommit mC), .awaitingDHKey kb r) := rfl
  have lenC : mC.gxEncrypted.length = (wMpi kb.pub).length := aesCrypt_length ..
  have lenH : mC.gxHashed.length = 32 := E.sha256_len _
  obtain ⟨tC, sC, pC⟩ := C03_transport E meet.curve ⟨.v3, B.tag, 0, .dhCommit mC⟩ (.inr meet.tags.2) (.inl rfl) rfl
    (show _ ∧ _ from ⟨by omega, by omega⟩)
  have lC : tC.length ≤ cB1.messageSize := by
    have h1 := text_length sC (show wBody (.dhCommit mC) = .ok (wDHCommit mC) from rfl)
    have h2 := meet.room.2
    unfold Roomy3 at h2
    simp only [wDHCommit, List.length_append, wData_length] at h1
    omega
  obtain ⟨r1, o1, a1, f1⟩ := offer3_run (c := cB1) hiB hf hq h3 meet.allow.2 no4 i1 sC lC
  refine ⟨r1, mC, tC, ⟨sC, o1⟩, ?_⟩
  -- Alice answers
  have i2 : AKE.handleDhCommit E mC (cA2.rnd.sub 0) (sA.inst B.tag).ake =
      (.ok (.dhKey ⟨ka.pub⟩), .awaitingRevealSignature ka mC.gxEncrypted mC.gxHashed) := by
    rw [akeOf_inst] at idleA
    obtain ⟨n1, n2⟩ := idleA
    rw [AKE.handleDhCommit, transact_ok]
    cases hs : (sA.inst B.tag).ake with
    | none => rfl
    | awaitingDHKey kp r => exact absurd hs (n2 kp r)
    | awaitingRevealSignature kp e h => exact absurd hs (n1 kp e h)
    | awaitingSignature kp gy s prev => rfl
  obtain ⟨tK, sK, pK⟩ := C03_transport E meet.curve ⟨.v3, A.tag, B.tag, .dhKey ⟨ka.pub⟩⟩ (.inr meet.tags.1) (.inr meet.tags.2) rfl
    (show FitsMpi _ from fits_mono hfit (Nat.le_of_lt (pub_lt hp0 y)))
  have lK : tK.length ≤ cA2.messageSize := by
    have h1 := text_length sK (show wBody (.dhKey ⟨ka.pub⟩) = .ok (wDHKey ⟨ka.pub⟩) from rfl)
    have h2 := meet.room.1
    unfold Roomy3 at h2
    simp only [wDHKey] at h1
    omega
  obtain ⟨x2, _, st2, _, _, r2, o2, a2, _⟩ := text_run (A := A) (c := cA2) hiA (encoded_notFragment sC) pC hvA nB
    (header_first pC nB rfl (.inr ⟨_, rfl⟩)) (x := fun i => { i with ake := .awaitingRevealSignature ka mC.gxEncrypted mC.gxHashed })
    fun i h1 _ h4 _ => Instance.process_dhCommit h1 (by rw [h4]; exact i2) sK lK
  refine ⟨r2, ⟨ka.pub⟩, tK, ⟨sK, o2⟩, ?_⟩
  -- Bob reveals
  have i3' := i3
  rw [AKE.handleDhKey, transact_ok] at i3'
  obtain ⟨_, hd, _, e3⟩ := AKE.answerDhKey_ok i3'
  cases hd
  simp only [Prod.mk.injEq, EncodedMessageType.revealSignature.injEq] at e3
  obtain ⟨e3, e3'⟩ := e3
  have lenE : mR.sigEncrypted.length = (wPublicKey keyB.pk).length + 44 := by
    rw [e3]
    exact (aesCrypt_length ..).trans (identityOf_length ..)
  have lenM : mR.sigMac.length = 20 := by rw [e3]; exact identityMac_length ..
  have lenR : mR.key.length = 16 := by rw [e3]; exact (cB1.rnd.sub 0).length_bytes [1] 16
  obtain ⟨tR, sR, pR⟩ := C03_transport E meet.curve ⟨.v3, B.tag, A.tag, .revealSignature mR⟩ (.inr meet.tags.2) (.inr meet.tags.1) rfl
    (show _ ∧ _ ∧ _ from ⟨lenR, by omega, lenM⟩)
  have lR : tR.length ≤ cB3.messageSize := by
    have h1 := text_length sR (show wBody (.revealSignature mR) = .ok (wRevealSignature mR) from rfl)
    have h2 := ready3.2
    unfold Roomy3 at h2
    simp only [wRevealSignature, List.length_append, wData_length] at h1
    omega
  have hi1 : Inv E ((Op.receive q).run E B cB1 sB).after := hiB.run _
  obtain ⟨x3, _, st3, _, _, r3, o3, a3, _⟩ := text_run (A := B) (c := cB3) hi1 (encoded_notFragment sK) pK hvB nA
    (header_ok pK nA rfl nB) (x := fun i => { i with ake := b2 })
    fun i h1 _ h4 _ => Instance.process_dhKey h1 (by
      rw [h4, ready3.1]
      unfold handedAke
      rw [a1]
      exact i3) sR lR
  refine ⟨r3, mR, tR, pR, ⟨sR, o3⟩, fun gR => ?_⟩
  -- Alice completes
  obtain ⟨matA, mS, i4, rest⟩ := rest (anyNonzero_of meet.drawB.2) (anyNonzero_of gR)
  have i4' := i4
  rw [AKE.handleRevealSignature, transact_ok] at i4'
  simp only [Res.bind_eq_ok, Res.pure_def, Res.ok.injEq, Prod.mk.injEq] at i4'
  obtain ⟨_, i4', rfl, -⟩ := i4'
  obtain ⟨gx, pk, keyid, sg, dsa, _, hd, _, _, hgx, rgx, _, _, _, hmat, hsig⟩ := AKE.answerRevealSignature_ok i4'
  cases hd
  simp only [EncodedMessageType.signature.injEq] at hsig
  have lenE' : mS.sigEncrypted.length = (wPublicKey keyA.pk).length + 44 := by
    rw [hsig]
    exact (aesCrypt_length ..).trans (identityOf_length ..)
  have lenM' : mS.sigMac.length = 20 := by rw [hsig]; exact identityMac_length ..
  obtain ⟨tS, sS, pS⟩ := C03_transport E meet.curve ⟨.v3, A.tag, B.tag, .signature mS⟩ (.inr meet.tags.1) (.inr meet.tags.2) rfl
    (show _ ∧ _ from ⟨by omega, lenM'⟩)
  have lS : tS.length ≤ cA4.messageSize := by
    have h1 := text_length sS (show wBody (.signature mS) = .ok (wSignature mS) from rfl)
    have h2 := ready4.2
    unfold Roomy3 at h2
    simp only [wSignature, List.length_append, wData_length] at h1
    omega
  have rA : InRange E.dh matA.ourDh.pub ∧ InRange E.dh matA.theirDh := by rw [hmat]; exact ⟨ry, rgx⟩
  obtain ⟨xA, hxA, oA, tA⟩ := enc3_new hG (our := A.tag) (their := B.tag) rA.1 rA.2 (cA4.rnd.sub 1)
  have hi2 : Inv E ((Op.receive tC).run E A cA2 sA).after := hiA.run _
  have nA4' : ∀ x m, (((Op.receive tC).run E A cA2 sA).after.inst B.tag).state ≠ .encrypted4 x m := by
    intro u m
    rw [a2]
    show x2.state ≠ _
    rw [st2]
    have := nA4 u m
    rwa [stateOf_inst] at this
  obtain ⟨x4, _, _, _, _, r4, o4, a4, _⟩ := text_run (A := A) (c := cA4) hi2 (encoded_notFragment sR) pR hvA nB
    (header_ok pR nB rfl nA) (x := fun i => { i with ake := .none, state := .encrypted3 xA (SMP.new matA.ssid (fingerprint3 E matA.theirDsa)) })
    fun i h1 h3 h4 _ => Instance.process_revealSignature h1 (by
      rw [h4, ready4.1]
      show AKE.handleRevealSignature E (some keyA) mR (inst _ B.tag).ake = _
      rw [a2]
      exact i4) (by rw [h3]; exact nA4') hxA sS lS
  refine ⟨r4, mS, tS, pS, ⟨sS, o4⟩, fun gS => ?_⟩
  -- Bob completes
  obtain ⟨matB, i5, agree, dhA, dhB⟩ := rest (anyNonzero_of gS)
  have rB : InRange E.dh matB.ourDh.pub ∧ InRange E.dh matB.theirDh := by
    rw [agree.dh.2, dhA, dhB]
    exact ⟨rx, ry⟩
  obtain ⟨xB, hxB, oB, tB⟩ := enc3_new hG (our := B.tag) (their := A.tag) rB.1 rB.2 (cB5.rnd.sub 1)
  have hi3 := hi1.run (A := B) (c := cB3) (Op.receive tK)
  have nB4' : ∀ x m, (((Op.receive tK).run E B cB3 ((Op.receive q).run E B cB1 sB).after).after.inst A.tag).state ≠ .encrypted4 x m := by
    intro u m
    rw [a3]
    show x3.state ≠ _
    rw [st3]
    show (inst _ A.tag).state ≠ _
    rw [f1 _ nA]
    have := nB4 u m
    rwa [stateOf_inst] at this
  obtain ⟨x5, _, _, _, _, r5, o5, a5, _⟩ := text_run (A := B) (c := cB5) hi3 (encoded_notFragment sS) pS hvB nA
    (header_ok pS nA rfl nB) (x := fun i => { i with ake := .none, state := .encrypted3 xB (SMP.new matB.ssid (fingerprint3 E matB.theirDsa)) })
    fun i h1 h3 h4 _ => Instance.process_signature h1 (by
      rw [h4]
      show AKE.handleSignature E mS (inst _ A.tag).ake = _
      rw [a3]
      exact i5) (by rw [h3]; exact nB4') hxB
  have hnA := hxA
  have hnB := hxB
  rw [agree.dh.1, dhA, dhB] at hnA
  rw [agree.dh.2, dhA, dhB] at hnB
  have g1 : stateOf ((Op.receive tR).run E A cA4 ((Op.receive tC).run E A cA2 sA).after).after B.tag =
      .encrypted3 xA (SMP.new matA.ssid (fingerprint3 E matA.theirDsa)) := by rw [stateOf_inst, a4]
  have g2 : stateOf ((Op.receive tS).run E B cB5 ((Op.receive tK).run E B cB3 ((Op.receive q).run E B cB1 sB).after).after).after A.tag =
      .encrypted3 xB (SMP.new matB.ssid (fingerprint3 E matB.theirDsa)) := by rw [stateOf_inst]; exact congrArg Instance.state a5
  refine ⟨r5, o5, ⟨xA, SMP.new matA.ssid (fingerprint3 E matA.theirDsa), xB, SMP.new matB.ssid (fingerprint3 E matB.theirDsa), matA.ssid,
    g1, g2, ?_, ?_, oA, tA, oB, tB, .start hnA hnB, .start hnA hnB, .start hnB hnA⟩, matA.ssid,
    ⟨⟨_, _, _, _, g1, g2, oA, tA, oB, tB, .start hnA hnB⟩, by rw [g1]; nofun, by rw [g2]; nofun, _, _, _, _, g1, g2, rfl, agree.ssid.symm,
      congrArg (fingerprint3 E) agree.dsa.1, congrArg (fingerprint3 E) agree.dsa.2⟩,
    ⟨⟨_, _, _, _, g2, g1, oB, tB, oA, tA, .start hnB hnA⟩, by rw [g2]; nofun, by rw [g1]; nofun, _, _, _, _, g2, g1, agree.ssid.symm, rfl,
      congrArg (fingerprint3 E) agree.dsa.2, congrArg (fingerprint3 E) agree.dsa.1⟩⟩
  · exact ssid_of_inst (by rw [a4]; rfl)
  · rw [agree.ssid]
    refine ssid_of_inst ?_
    rw [show inst _ A.tag = _ from a5]
    rfl

/-- C82: two clients that can meet complete the OTRv3 key exchange, whatever happened in their sessions before: Bob gets a query that
selects OTRv3; Alice has no other exchange with Bob under way that she waits for; there is no OTRv4 session between them.  Each message
is sent as one text and delivered as it is.  Then both clients report the session with the other, and are connected; either may send
first, or start the SMP. -/
theorem C82_exchange3 (E : Env) (A B : Account) (keyA keyB : DSAKeypair) (hA hB : List Ev) (sA sB : Session) (hhA : Hist E A hA sA)
    (hhB : Hist E B hB sB) (cB1 cA2 cB3 cA4 cB5 : Call) (meet : CanMeet3 E A B keyA keyB cA2 cB1) (ready3 : Ready3 E keyB cB3)
    (ready4 : Ready3 E keyA cA4) (q : Bytes) (vs : List Version) (hf : matchFragment q = false) (hq : parse E q = .ok (.query vs))
    (h3 : .v3 ∈ vs) (no4 : ¬ (.v4 ∈ vs ∧ AllowsV4 B))
    (idleA : NotAwaitingReveal (akeOf sA B.tag) ∧ ∀ kp r, akeOf sA B.tag ≠ .awaitingDHKey kp r)
    (nA4 : NotV4 sA B.tag) (nB4 : NotV4 sB A.tag) :
    let e1 := (Op.receive q).run E B cB1 sB
    e1.result = .ok (.user .none) ∧ ∃ mC tC, Sends e1 ⟨.v3, B.tag, 0, .dhCommit mC⟩ tC ∧
    let e2 := (Op.receive tC).run E A cA2 sA
    e2.result = .ok (.user .none) ∧ ∃ mK tK, Sends e2 ⟨.v3, A.tag, B.tag, .dhKey mK⟩ tK ∧
    let e3 := (Op.receive tK).run E B cB3 e1.after
    e3.result = .ok (.user .none) ∧ ∃ mR tR, Sends e3 ⟨.v3, B.tag, A.tag, .revealSignature mR⟩ tR ∧
    ((∃ b ∈ mR.sigMac, b ≠ 0) →
    let e4 := (Op.receive tR).run E A cA4 e2.after
    e4.result = .ok (.user (.sessionStarted B.tag)) ∧ ∃ mS tS, Sends e4 ⟨.v3, A.tag, B.tag, .signature mS⟩ tS ∧
    ((∃ b ∈ mS.sigMac, b ≠ 0) →
    let e5 := (Op.receive tS).run E B cB5 e3.after
    e5.result = .ok (.user (.sessionStarted A.tag)) ∧ e5.sent = [] ∧ Connected3 E A B (Either3 E) e4.after e5.after ∧
    ∃ ssid, Acquainted3 E A B keyA.pk keyB.pk ssid e4.after e5.after ∧ Acquainted3 E B A keyB.pk keyA.pk ssid e5.after e4.after)) := by
  obtain ⟨r1, mC, tC, s1, r2, mK, tK, s2, r3, mR, tR, _, s3, h⟩ := exchange3 E A B keyA keyB hA hB sA sB hhA hhB cB1 cA2 cB3 cA4 cB5 meet ready3
    ready4 q vs hf hq h3 no4 idleA nA4 nB4
  refine ⟨r1, mC, tC, s1, r2, mK, tK, s2, r3, mR, tR, s3, fun g => ?_⟩
  obtain ⟨r4, mS, tS, _, s4, h⟩ := h g
  exact ⟨r4, mS, tS, s4, h⟩

/-! ## Conversations -/

/-- A data message that was sent as a text of reasonable size can be read. -/
theorem data3_wf {E : Env} {x x' : Enc3} {flags : UInt8} {content : Bytes} {m : DataMessage} (he : Enc3.encrypt E flags content x = (.ok m, x'))
    (hfl : flags = 0 ∨ flags = 1) (hd : Decoded m)
    (hf : FitsMpi m.dhY) {v : Version} {a b : UInt32} {t : Bytes} (ht : serialize (.encoded ⟨v, a, b, .data m⟩) = .ok t) (hl : t.length < 2 ^ 32) :
    m.flags = flags ∧ WfMessage E (.data m) := by
  obtain ⟨hk, _⟩ := encrypt_keys he
  obtain ⟨sec, _, _, _, hm, _⟩ := encrypt3_ok hk
  have h0 : m.flags = flags := by rw [hm]; rfl
  refine ⟨h0, ?_⟩
  obtain ⟨body, hb, hlen⟩ := text_ge ht
  have hb' : body = wDataMessage m := (Res.ok.inj hb).symm
  subst hb'
  simp only [wDataMessage, wData, List.length_append] at hlen
  obtain ⟨d1, d2, d3⟩ := hd
  refine ⟨by rw [h0]; exact hfl, d1, d2, hf, d3, by omega, ?_, by omega⟩
  rw [hm]
  exact E.hmacSha1_len _ _

/-- One text of a conversation, seen from both sides. -/
theorem turn3 {E : Env} (hC : GoodCurve E.curve) {S R : Account} {h : List Ev} {sS sR : Session}
    (hhS : Hist E S h sS) (hiR : Inv E sR) (aS : AllowsV3 S) (aR : AllowsV3 R) (tS : 0x100 ≤ S.tag) (tR : 0x100 ≤ R.tag) {x y : Enc3} {mx my : SMPContext}
    (hx : stateOf sS R.tag = .encrypted3 x mx) (hy : stateOf sR S.tag = .encrypted3 y my) {c c' : Call} {content text : Bytes}
    (hs : ((Op.send R.tag content).run E S c sS).result = .ok (.texts [text])) (hl : text.length < 2 ^ 32) :
    ∃ m x', Enc3.encrypt E 0 (noNul content) x = (.ok m, x') ∧
      stateOf ((Op.send R.tag content).run E S c sS).after R.tag = .encrypted3 x' mx ∧
      (Decoded m → FitsMpi m.dhY → ∀ r y', Enc3.handle E m (authenticatorData 3 S.tag R.tag m) (c'.rnd.bytes [0] 192) y = (r, y') →
        (r = .ok (received (noNul content) []) →
          ((Op.receive text).run E R c' sR).result = .ok (.user (.confidential S.tag (noNul content) [])) ∧
          ((Op.receive text).run E R c' sR).sent = [] ∧ stateOf ((Op.receive text).run E R c' sR).after S.tag = .encrypted3 y' my) ∧
        (∀ t, r = .err (.unreadableMessage t) →
          ((Op.receive text).run E R c' sR).result = .err (.unreadableMessage S.tag) ∧
          ((Op.receive text).run E R c' sR).sent = [unreadableText] ∧ stateOf ((Op.receive text).run E R c' sR).after S.tag = .encrypted3 y' my)) := by
  have hst : sS.status R.tag = some .encrypted := status_of_inst (by rw [← stateOf_inst, hx]; rfl) (by decide)
  rcases C16_encrypted E S h sS hhS c R.tag content (.inl aS) hst with hp | ⟨i, s', m, out, hlk, hout, haft, _, henc, htr⟩
  · rw [hs] at hp; cases hp
  rw [hs] at hout
  cases hout
  have hi : i.state = .encrypted3 x mx := by
    rw [stateOf_inst, inst_of_lookup hlk] at hx
    exact hx
  rw [hi] at henc htr
  obtain ⟨x0, x', smp, d, e1, e2, rfl, he⟩ : ∃ x0 x' smp d, PState.encrypted3 x mx = .encrypted3 x0 smp ∧ s' = .encrypted3 x' smp ∧ m = .data d ∧
      Enc3.encrypt E 0 (noNul content) x0 = (.ok d, x') := by
    rcases henc with h | ⟨_, _, _, _, _, h, _⟩
    · exact h
    · cases h
  cases e1
  subst e2
  have htxt : serialize (.encoded ⟨.v3, S.tag, R.tag, .data d⟩) = .ok text := by
    obtain ⟨t, h1, h2⟩ := htr
    rcases h2 with ⟨_, h2⟩ | ⟨h2, ident, fs, _, h3, h4⟩
    · cases h2; exact h1
    · have h5 := fragment_two h3
      rw [← mapM_length h4] at h5
      simp at h5
  refine ⟨d, x', he, ?_, fun hdec hfit r y' hh => ?_⟩
  · rw [haft, stateOf_inst, inst_insert]
  obtain ⟨h0, hwf⟩ := data3_wf he (.inl rfl) hdec hfit htxt hl
  obtain ⟨t, h1, h2⟩ := C03_transport E hC ⟨.v3, S.tag, R.tag, .data d⟩ (.inr tS) (.inr tR) rfl hwf
  rw [htxt] at h1
  cases h1
  constructor
  · rintro rfl
    have hrec : received (noNul content) [] = (.confidential (noNul content) [], false) := by simp [received]
    obtain ⟨i', fl, s1, z, h3, h4, hz, _, hrun⟩ := data_runTo (c := c') (s' := .encrypted3 y' my) (msg := .confidential (noNul content) []) hiR
      (.inl ⟨encoded_notFragment htxt, h2⟩) (.inl ⟨rfl, aR⟩) (tag_ne_zero tS) rfl (tag_ne_zero tR)
      (.inl ⟨y, my, d, y', false, hy, rfl, rfl, by rw [hh, hrec], rfl⟩)
    simp only [Instance.handleDecrypted, StM.bind_run, StM.gets, List.any_nil, Bool.false_eq_true, if_false, StM.pure_run, h4] at hz
    subst hz
    refine ⟨?_, ?_, ?_⟩
    · rw [Op.run, perform_result, hrun]; rfl
    · rw [Op.run, perform_sent, hrun]
    · rw [Op.run, perform_after, hrun, stateOf_inst]
      rw [inst_insert]
      exact h3
  · rintro t rfl
    obtain ⟨i1, s1, _, hki, hrun⟩ := process_run (c := c') (.inl ⟨encoded_notFragment htxt, h2⟩) (.inl ⟨rfl, aR⟩) (tag_ne_zero tS) rfl (tag_ne_zero tR)
      (fun _ h => by cases h) (fun _ h => by cases h)
    have hrec : i1.receiver = S.tag := by rw [hki.same.2]; exact hiR.receiver _
    have hst1 : i1.state = .encrypted3 y my := by rw [hki.same.1, ← hy, stateOf_inst]
    have h3 : i1.state.handle3 E d (authenticatorData 3 S.tag R.tag d) (c'.rnd.bytes [0] 192) = (.err (.unreadableMessage t), .encrypted3 y' my) := by
      rw [hst1, PState.handle3, hh]
      rfl
    have hser : serialize (.error Instance.UNREADABLE) = .ok unreadableText := rfl
    have hp : Instance.process E R c' ⟨.v3, S.tag, R.tag, .data d⟩ ⟨i1, []⟩ =
        (.err (.unreadableMessage S.tag), ⟨{ i1 with state := .encrypted3 y' my }, [unreadableText]⟩) := by
      simp only [Instance.process, StM.bind_run, StM.gets, Instance.attempt, Instance.onState, h3, Instance.handleDecrypted, StM.lift, hser,
        Instance.emit, List.nil_append, h0, hrec]
      rfl
    rw [hp] at hrun
    refine ⟨?_, ?_, ?_⟩
    · rw [Op.run, perform_result, hrun]; rfl
    · rw [Op.run, perform_sent, hrun]
    · rw [Op.run, perform_after, hrun, stateOf_inst]
      rw [inst_insert]

theorem ssid_state3 {s : Session} {k : UInt32} {x : Enc3} {m : SMPContext} (h : stateOf s k = .encrypted3 x m) :
    Session.ssid s k = .ok m.ssid := ssid_of_inst (by rw [← stateOf_inst, h]; rfl)

/-- What a message that was just sent looks like. -/
theorem sent3 {E : Env} (hG : GoodGroup E.dh) (hg : FitsMpi E.dh.p) {a b : Enc3} (hr : Reach3 E ⟨a, b, [], []⟩) {flags : UInt8} {content : Bytes}
    {m : DataMessage} {a' : Enc3} (he : Enc3.encrypt E flags content a = (.ok m, a')) : Decoded m ∧ FitsMpi m.dhY := by
  obtain ⟨KA, KB, l, g⟩ := reach3_link hG hr
  obtain ⟨l', _⟩ := l.send g he
  have hs := l'.sent (m, content) (by simp)
  refine ⟨hs.dec, ?_⟩
  obtain ⟨z, hz⟩ := l.gen (m.senderKeyid.toNat + 1)
  rw [hs.dhY, hz]
  exact fits_mono hg (Nat.le_of_lt (pub_lt (by have := hG.1; omega) z))

/-- The text arrived as it was written, and nothing was sent. -/
def Intact (S : Account) (content : Bytes) (e : Effect) : Prop :=
  e.result = .ok (.user (.confidential S.tag (noNul content) [])) ∧ e.sent = []

/-- One turn: what the receiver gets, and that the clients stay connected. -/
theorem step3 {E : Env} (hC : GoodCurve E.curve) (hG : GoodGroup E.dh) (hg : FitsMpi E.dh.p) {S R : Account} {hS : List Ev} {sS sR : Session}
    (hhS : Hist E S hS sS) (hiR : Inv E sR) (aS : AllowsV3 S) (aR : AllowsV3 R) (tS : 0x100 ≤ S.tag) (tR : 0x100 ≤ R.tag) {x y : Enc3} {mx my : SMPContext}
    (hx : stateOf sS R.tag = .encrypted3 x mx) (hy : stateOf sR S.tag = .encrypted3 y my) (o1 : x.our = S.tag) (o2 : x.their = R.tag) (o3 : y.our = R.tag)
    (o4 : y.their = S.tag) (hr : Reach3 E ⟨x, y, [], []⟩) {c c' : Call} {content text : Bytes}
    (hs : ((Op.send R.tag content).run E S c sS).result = .ok (.texts [text])) (hl : text.length < 2 ^ 32) :
    let e := (Op.receive text).run E R c' sR
    ∃ x' y', stateOf ((Op.send R.tag content).run E S c sS).after R.tag = .encrypted3 x' mx ∧ stateOf e.after S.tag = .encrypted3 y' my ∧
      x'.our = S.tag ∧ x'.their = R.tag ∧ y'.our = R.tag ∧ y'.their = S.tag ∧ Reach3 E ⟨x', y', [], []⟩ ∧
      (Intact S content e ∨ e.result = .err (.unreadableMessage S.tag) ∧ e.sent = [unreadableText]) ∧
      (Turns3 E x y → Intact S content e ∧ Turns3 E y' x') := by
  obtain ⟨m, x', he, hst, hrecv⟩ := turn3 (c' := c') hC hhS hiR aS aR tS tR hx hy hs hl
  obtain ⟨hdec, hfit⟩ := sent3 hG hg hr he
  obtain ⟨_, q1, q2⟩ := encrypt_keys he
  rw [o1] at q1
  rw [o2] at q2
  cases hh : Enc3.handle E m (authenticatorData 3 S.tag R.tag m) (c'.rnd.bytes [0] 192) y with
  | mk r y' =>
  obtain ⟨k1, k2⟩ := hrecv hdec hfit r y' hh
  obtain ⟨_, _, q3, q4, _⟩ := handle_decrypt hh
  rw [o3] at q3
  rw [o4] at q4
  have hsend := Reach3.sendA hr he
  have hcase := C37_partial E hG _ hsend m (noNul content) _ [] [] rfl (noNul_composed content) (c'.rnd.bytes [0] 192)
  simp only [q1, o3, hh] at hcase
  have hr' : r = .ok (received (noNul content) []) ∨ r = .err (.unreadableMessage y.their) := by
    rcases Nat.lt_or_ge (beNat y.keys.theirCtr) (beNat m.ctr) with h | h
    · exact .inl (hcase.1 h)
    · exact .inr (hcase.2 h)
  have hnp : r ≠ .panic := by rcases hr' with h | h <;> rw [h] <;> simp
  have hreach : Reach3 E ⟨x', y', [], []⟩ := .recvB hsend rfl (by simp only [q1, o3]; exact hh) hnp
  have hturn : Turns3 E x y → r = .ok (received (noNul content) []) ∧ Turns3 E y' x' := by
    intro ht
    have := C37_turns E hG x y ht 0 _ _ [] (noNul_composed content) m x' he (c'.rnd.bytes [0] 192)
    simp only [o1, o3, hh] at this
    exact ⟨this, .turn ht he (by rw [o1, o3]; exact hh) hnp⟩
  have hst' : stateOf ((Op.receive text).run E R c' sR).after S.tag = .encrypted3 y' my := by
    rcases hr' with h | h
    · exact (k1 h).2.2
    · exact (k2 _ h).2.2
  refine ⟨x', y', hst, hst', q1, q2, q3, q4, hreach, ?_, fun ht => ?_⟩
  · rcases hr' with h | h
    · exact .inl ⟨(k1 h).1, (k1 h).2.1⟩
    · exact .inr ⟨(k2 _ h).1, (k2 _ h).2.1⟩
  · obtain ⟨h1, h2⟩ := hturn ht
    exact ⟨⟨(k1 h1).1, (k1 h1).2.1⟩, h2⟩

/-- Who sent the text of a turn. -/
def Turn.sender (A B : Account) (t : Turn) : Account := if t.alice then A else B

/-- What holds of a conversation, if the turns of the states are kept track of. -/
theorem talk3 (E : Env) (hC : GoodCurve E.curve) (hG : GoodGroup E.dh) (hg : FitsMpi E.dh.p) (A B : Account)
    (allow : AllowsV3 A ∧ AllowsV3 B) (tags : 0x100 ≤ A.tag ∧ 0x100 ≤ B.tag) (hA hB : List Ev) (sA sB sA' sB' : Session) (ts : List Turn)
    (hhA : Hist E A hA sA) (hhB : Hist E B hB sB) (P : Enc3 → Enc3 → Prop) (hcon : Connected3 E A B P sA sB) (ht : Talk E A B sA sB ts sA' sB') :
    (∀ t ∈ ts, Intact (Turn.sender A B t) t.content t.effect ∨
      t.effect.result = .err (.unreadableMessage (Turn.sender A B t).tag) ∧ t.effect.sent = [unreadableText]) ∧
    Connected3 E A B (fun _ _ => True) sA' sB' ∧
    (Alternate ts → (∀ a b, P a b → ∀ t, ts.head? = some t → if t.alice then Turns3 E a b else Turns3 E b a) →
      ∀ t ∈ ts, Intact (Turn.sender A B t) t.content t.effect) := by
  induction ht generalizing hA hB P with
  | nil =>
    obtain ⟨xA, mA, xB, mB, ssid, h1, h2, h3, h4, o1, o2, o3, o4, hr, _⟩ := hcon
    exact ⟨by simp, ⟨xA, mA, xB, mB, ssid, h1, h2, h3, h4, o1, o2, o3, o4, hr, trivial⟩, by simp⟩
  | @alice sA sB content text c c' ts sA' sB' hs hl hfr htalk ih =>
    obtain ⟨xA, mA, xB, mB, ssid, h1, h2, h3, h4, o1, o2, o3, o4, hr, hP⟩ := hcon
    obtain ⟨x', y', k1, k2, q1, q2, q3, q4, hr', hout, hturn⟩ := step3 (c' := c') hC hG hg hhA (hist_inv hhB) allow.1 allow.2 tags.1 tags.2 h1 h2 o1 o2 o3 o4 hr hs hl
    have hA2 := Hist.step hhA (op := .send B.tag content) (c := c) rfl (by rw [hs]; simp)
    have hB2 := Hist.step hhB (op := .receive text) (c := c') rfl (by
      rcases hout with h | h
      · rw [h.1]; simp
      · rw [h.1]; simp)
    obtain ⟨w1, w2, w3⟩ := ih _ _ hA2 hB2 (fun a b => a = x' ∧ b = y') ⟨x', mA, y', mB, ssid, k1, k2, by rw [ssid_state3 k1, ← h3, ssid_state3 h1],
      by rw [ssid_state3 k2, ← h4, ssid_state3 h2], q1, q2, q3, q4, hr', rfl, rfl⟩
    refine ⟨?_, w2, fun halt hfirst => ?_⟩
    · intro t ht
      rcases List.mem_cons.mp ht with rfl | ht
      · exact hout
      · exact w1 t ht
    · obtain ⟨hi, hnext⟩ := hturn (hfirst xA xB hP _ rfl)
      intro t ht
      rcases List.mem_cons.mp ht with rfl | ht
      · exact hi
      · refine w3 ?_ ?_ t ht
        · cases ts with
          | nil => exact trivial
          | cons u us => exact halt.2
        · rintro a b ⟨rfl, rfl⟩ u hu
          cases ts with
          | nil => cases hu
          | cons v vs =>
            cases hu
            have : u.alice = false := by
              cases hb : u.alice with
              | false => rfl
              | true => exact absurd hb.symm halt.1
            rw [this]
            exact hnext
  | @bob sA sB content text c c' ts sA' sB' hs hl hfr htalk ih =>
    obtain ⟨xA, mA, xB, mB, ssid, h1, h2, h3, h4, o1, o2, o3, o4, hr, hP⟩ := hcon
    obtain ⟨x', y', k1, k2, q1, q2, q3, q4, hr', hout, hturn⟩ := step3 (c' := c') hC hG hg hhB (hist_inv hhA) allow.2 allow.1 tags.2 tags.1 h2 h1 o3 o4 o1 o2
      (reach3_swap hr) hs hl
    have hB2 := Hist.step hhB (op := .send A.tag content) (c := c) rfl (by rw [hs]; simp)
    have hA2 := Hist.step hhA (op := .receive text) (c := c') rfl (by
      rcases hout with h | h
      · rw [h.1]; simp
      · rw [h.1]; simp)
    obtain ⟨w1, w2, w3⟩ := ih _ _ hA2 hB2 (fun a b => a = y' ∧ b = x') ⟨y', mA, x', mB, ssid, k2, k1, by rw [ssid_state3 k2, ← h3, ssid_state3 h1],
      by rw [ssid_state3 k1, ← h4, ssid_state3 h2], q3, q4, q1, q2, reach3_swap hr', rfl, rfl⟩
    refine ⟨?_, w2, fun halt hfirst => ?_⟩
    · intro t ht
      rcases List.mem_cons.mp ht with rfl | ht
      · exact hout
      · exact w1 t ht
    · obtain ⟨hi, hnext⟩ := hturn (hfirst xA xB hP _ rfl)
      intro t ht
      rcases List.mem_cons.mp ht with rfl | ht
      · exact hi
      · refine w3 ?_ ?_ t ht
        · cases ts with
          | nil => exact trivial
          | cons u us => exact halt.2
        · rintro a b ⟨rfl, rfl⟩ u hu
          cases ts with
          | nil => cases hu
          | cons v vs =>
            cases hu
            have : u.alice = true := by
              cases hb : u.alice with
              | true => rfl
              | false => exact absurd hb.symm halt.1
            rw [this]
            exact hnext

/-- C82: two clients that completed the OTRv3 key exchange and take turns from then on: the texts arrive as they were written (without NUL
bytes), nothing else is sent, and the clients stay connected. -/
theorem C82_turns3 (E : Env) (hC : GoodCurve E.curve) (hG : GoodGroup E.dh) (hg : FitsMpi E.dh.p) (A B : Account)
    (allow : AllowsV3 A ∧ AllowsV3 B) (tags : 0x100 ≤ A.tag ∧ 0x100 ≤ B.tag) (hA hB : List Ev) (sA sB sA' sB' : Session) (ts : List Turn)
    (hhA : Hist E A hA sA) (hhB : Hist E B hB sB) (hcon : Connected3 E A B (Either3 E) sA sB) (ht : Talk E A B sA sB ts sA' sB')
    (halt : Alternate ts) :
    (∀ t ∈ ts, t.effect.result = .ok (.user (.confidential (if t.alice then A.tag else B.tag) (noNul t.content) [])) ∧ t.effect.sent = []) ∧
    Connected3 E A B (fun _ _ => True) sA' sB' := by
  obtain ⟨_, h2, h3⟩ := talk3 E hC hG hg A B allow tags hA hB sA sB sA' sB' ts hhA hhB _ hcon ht
  refine ⟨fun t hm => ?_, h2⟩
  have := h3 halt (fun a b h t _ => by split; exacts [h.1, h.2]) t hm
  unfold Intact Turn.sender at this
  cases hb : t.alice <;> simpa [hb] using this

/-- C82, partial: whatever two clients that are connected with OTRv3 say to each other, and in which order: each text arrives as it was
written, or the receiver reports it as unreadable and tells the sender so.  The clients stay connected.  Missing: all texts arrive; see
`C82_violated`. -/
theorem C82_talk3_partial (E : Env) (hC : GoodCurve E.curve) (hG : GoodGroup E.dh) (hg : FitsMpi E.dh.p) (A B : Account)
    (allow : AllowsV3 A ∧ AllowsV3 B) (tags : 0x100 ≤ A.tag ∧ 0x100 ≤ B.tag) (hA hB : List Ev) (sA sB sA' sB' : Session) (ts : List Turn)
    (hhA : Hist E A hA sA) (hhB : Hist E B hB sB) (hcon : Connected3 E A B (fun _ _ => True) sA sB) (ht : Talk E A B sA sB ts sA' sB') :
    (∀ t ∈ ts, t.effect.result = .ok (.user (.confidential (if t.alice then A.tag else B.tag) (noNul t.content) [])) ∧ t.effect.sent = [] ∨
      t.effect.result = .err (.unreadableMessage (if t.alice then A.tag else B.tag)) ∧ t.effect.sent = [unreadableText]) ∧
    Connected3 E A B (fun _ _ => True) sA' sB' := by
  obtain ⟨h1, h2, _⟩ := talk3 E hC hG hg A B allow tags hA hB sA sB sA' sB' ts hhA hhB _ hcon ht
  refine ⟨fun t hm => ?_, h2⟩
  have := h1 t hm
  unfold Intact Turn.sender at this
  cases hb : t.alice <;> simpa [hb] using this

namespace ToyTalk3
open ToySession

/-- The two toy clients are connected after the exchange, and know each other's keys. -/
theorem acquainted : Connected3 tinyEnv acA acB (Either3 tinyEnv) a4.after b5.after ∧
    ∃ ssid, Acquainted3 tinyEnv acA acB ToyAke.alice.pk ToyAke.bob.pk ssid a4.after b5.after ∧
      Acquainted3 tinyEnv acB acA ToyAke.bob.pk ToyAke.alice.pk ssid b5.after a4.after := by
  obtain ⟨⟨t1, t2, t3, t4⟩, g3, g4, hf, hp, _⟩ := runTalk3
  obtain ⟨r1, mC, tC, ⟨_, s1⟩, h⟩ := exchange3 tinyEnv acA acB _ _ [] [] .new .new .new .new
    (callB 1000 1) (callA 1000 2) (callB 1000 3) (callA 1000 4) (callB 1000 5) toy_meet3 (readyB 3) (readyA 4) query3 [.v3] hf
    hp (by simp) (by simp) ⟨(fun _ _ _ h => (by cases h)), (fun _ _ h => (by cases h))⟩ (fun _ _ h => (by cases h)) (fun _ _ h => (by cases h))
  have e1 : (Op.receive query3).run tinyEnv acB (callB 1000 1) .new = b1 := by unfold b1; rfl
  simp only [e1] at s1 h
  rw [t1] at s1
  cases s1
  have e2 : (Op.receive (msg b1)).run tinyEnv acA (callA 1000 2) .new = a2 := by unfold a2; rfl
  simp only [e2] at h
  obtain ⟨r2, mK, tK, ⟨_, s2⟩, h⟩ := h
  rw [t2] at s2
  cases s2
  have e3 : (Op.receive (msg a2)).run tinyEnv acB (callB 1000 3) b1.after = b3 := by unfold b3; rfl
  simp only [e3] at h
  obtain ⟨r3, mR, tR, p3, ⟨_, s3⟩, h⟩ := h
  rw [t3] at s3
  cases s3
  have e4 : (Op.receive (msg b3)).run tinyEnv acA (callA 1000 4) a2.after = a4 := by unfold a4; rfl
  simp only [e4] at h
  rw [p3] at g3
  obtain ⟨r4, mS, tS, p4, ⟨_, s4⟩, h⟩ := h (anyNonzero_iff.mp g3)
  rw [t4] at s4
  cases s4
  have e5 : (Op.receive (msg a4)).run tinyEnv acB (callB 1000 5) b3.after = b5 := by unfold b5; rfl
  simp only [e5] at h
  rw [p4] at g4
  exact (h (anyNonzero_iff.mp g4)).2.2

theorem connected : Connected3 tinyEnv acA acB (Either3 tinyEnv) a4.after b5.after := acquainted.1

/-- Alice and Bob take turns. -/
theorem turns : ∃ ts, Talk tinyEnv acA acB a4.after b5.after ts y10.after z11.after ∧ ts.map Turn.content = [[104, 105], [111, 107], [98]] ∧
    Alternate ts := by
  obtain ⟨_, _, _, _, _, ⟨s1, s2, s3, _⟩, ⟨n1, n2, n3, _⟩, ⟨f1, f2, f3, _⟩, _⟩ := runTalk3
  have e6 : (Op.send acB.tag [104, 105]).run tinyEnv acA (callA 1000 6) a4.after = y6 := by unfold y6; rfl
  have e7 : (Op.receive (text y6)).run tinyEnv acB (callB 1000 7) b5.after = z7 := by unfold z7; rfl
  have e8 : (Op.send acA.tag [111, 107]).run tinyEnv acB (callB 1000 10) z7.after = z8 := by unfold z8; rfl
  have e9 : (Op.receive (text z8)).run tinyEnv acA (callA 1000 11) y6.after = y9 := by unfold y9; rfl
  have e10 : (Op.send acB.tag [98]).run tinyEnv acA (callA 1000 12) y9.after = y10 := by unfold y10; rfl
  have e11 : (Op.receive (text y10)).run tinyEnv acB (callB 1000 13) z8.after = z11 := by unfold z11; rfl
  have h3 := Talk.alice (E := tinyEnv) (A := acA) (B := acB) (sA := y9.after) (sB := z8.after) (c := callA 1000 12) (c' := callB 1000 13) (by rw [e10]; exact s3) n3
    (fresh_notV4 f3) .nil
  rw [e10, e11] at h3
  have h2 := Talk.bob (E := tinyEnv) (A := acA) (B := acB) (sA := y6.after) (sB := z7.after) (c := callB 1000 10) (c' := callA 1000 11) (content := [111, 107])
    (text := text z8) (by rw [e8]; exact s2) n2 (fresh_notV4 f2) (by rw [e8, e9]; exact h3)
  have h1 := Talk.alice (E := tinyEnv) (A := acA) (B := acB) (sA := a4.after) (sB := b5.after) (c := callA 1000 6) (c' := callB 1000 7) (content := [104, 105])
    (text := text y6) (by rw [e6]; exact s1) n1 (fresh_notV4 f1) (by rw [e6, e7]; exact h2)
  exact ⟨_, h1, rfl, by simp [Alternate]⟩

/-- Alice sends two texts before Bob answers. -/
theorem twice : ∃ ts, Talk tinyEnv acA acB a4.after b5.after ts n12.after o13.after ∧
    ts.map Turn.content = [[104, 105], [33], [111, 107], [98]] ∧ ∃ t ∈ ts, t.effect.result = .err (.unreadableMessage acA.tag) := by
  obtain ⟨_, _, _, _, _, ⟨s1, _, _, s2, s3, s4⟩, ⟨n1, _, _, n2, n3, n4⟩, ⟨f1, _, _, f2, f3, f4⟩, hu⟩ := runTalk3
  have e6 : (Op.send acB.tag [104, 105]).run tinyEnv acA (callA 1000 6) a4.after = y6 := by unfold y6; rfl
  have e7 : (Op.receive (text y6)).run tinyEnv acB (callB 1000 7) b5.after = z7 := by unfold z7; rfl
  have e8 : (Op.send acB.tag [33]).run tinyEnv acA (callA 1000 8) y6.after = n8 := by unfold n8; rfl
  have e9 : (Op.receive (text n8)).run tinyEnv acB (callB 1000 9) z7.after = o9 := by unfold o9; rfl
  have e10 : (Op.send acA.tag [111, 107]).run tinyEnv acB (callB 1000 10) o9.after = o10 := by unfold o10; rfl
  have e11 : (Op.receive (text o10)).run tinyEnv acA (callA 1000 11) n8.after = n11 := by unfold n11; rfl
  have e12 : (Op.send acB.tag [98]).run tinyEnv acA (callA 1000 12) n11.after = n12 := by unfold n12; rfl
  have e13 : (Op.receive (text n12)).run tinyEnv acB (callB 1000 13) o10.after = o13 := by unfold o13; rfl
  have h4 := Talk.alice (E := tinyEnv) (A := acA) (B := acB) (sA := n11.after) (sB := o10.after) (c := callA 1000 12) (c' := callB 1000 13) (by rw [e12]; exact s4) n4
    (fresh_notV4 f4) .nil
  rw [e12, e13] at h4
  have h3 := Talk.bob (E := tinyEnv) (A := acA) (B := acB) (sA := n8.after) (sB := o9.after) (c := callB 1000 10) (c' := callA 1000 11) (content := [111, 107])
    (text := text o10) (by rw [e10]; exact s3) n3 (fresh_notV4 f3) (by rw [e10, e11]; exact h4)
  have h2 := Talk.alice (E := tinyEnv) (A := acA) (B := acB) (sA := y6.after) (sB := z7.after) (c := callA 1000 8) (c' := callB 1000 9) (content := [33])
    (text := text n8) (by rw [e8]; exact s2) n2 (fresh_notV4 f2) (by rw [e8, e9]; exact h3)
  have h1 := Talk.alice (E := tinyEnv) (A := acA) (B := acB) (sA := a4.after) (sB := b5.after) (c := callA 1000 6) (c' := callB 1000 7) (content := [104, 105])
    (text := text y6) (by rw [e6]; exact s1) n1 (fresh_notV4 f1) (by rw [e6, e7]; exact h2)
  exact ⟨_, h1, rfl, _, List.mem_cons_of_mem _ (List.mem_cons_of_mem _ (List.mem_cons_of_mem _ (List.mem_cons_self ..))), hu⟩

end ToyTalk3

/-- C82 does not hold of all conversations: two clients complete the OTRv3 key exchange, Alice sends two texts, Bob reads them and answers,
Alice reads the answer and sends a third text.  Nothing was lost or delayed, yet Bob cannot read the third text. -/
theorem C82_violated : ∃ (E : Env) (A B : Account) (hA hB : List Ev) (sA sB sA' sB' : Session) (ts : List Turn), GoodCurve E.curve ∧ GoodGroup E.dh ∧
    FitsMpi E.dh.p ∧ (AllowsV3 A ∧ AllowsV3 B) ∧ (0x100 ≤ A.tag ∧ 0x100 ≤ B.tag) ∧ Hist E A hA sA ∧ Hist E B hB sB ∧
    Connected3 E A B (Either3 E) sA sB ∧ Talk E A B sA sB ts sA' sB' ∧ ∃ t ∈ ts, t.effect.result = .err (.unreadableMessage A.tag) := by
  obtain ⟨hA, h1⟩ := ToySession.hist_a4
  obtain ⟨hB, h2⟩ := ToySession.hist_b5
  obtain ⟨ts, h3, _, h4⟩ := ToyTalk3.twice
  exact ⟨_, _, _, _, _, _, _, _, _, _, ToySession.toy_meet3.curve, ToySession.toy_meet3.group, fits_of_small ToySession.toy_meet3.small.1,
    ToySession.toy_meet3.allow, ToySession.toy_meet3.tags, h1, h2, ToyTalk3.connected, h3, h4⟩

/-- Two toy clients meet and are connected. -/
example : CanMeet3 ToySession.tinyEnv ToySession.acA ToySession.acB ToyAke.alice ToyAke.bob (ToySession.callA 1000 2) (ToySession.callB 1000 1) ∧
    Connected3 ToySession.tinyEnv ToySession.acA ToySession.acB (Either3 ToySession.tinyEnv) ToySession.a4.after ToySession.b5.after :=
  ⟨ToySession.toy_meet3, ToyTalk3.connected⟩

/-- They take turns and exchange three texts. -/
example : GoodCurve ToySession.tinyEnv.curve ∧ GoodGroup ToySession.tinyEnv.dh ∧ FitsMpi ToySession.tinyEnv.dh.p ∧
    (∃ h, Hist ToySession.tinyEnv ToySession.acA h ToySession.a4.after) ∧ (∃ h, Hist ToySession.tinyEnv ToySession.acB h ToySession.b5.after) ∧
    ∃ ts, Talk ToySession.tinyEnv ToySession.acA ToySession.acB ToySession.a4.after ToySession.b5.after ts ToySession.y10.after ToySession.z11.after ∧
      Alternate ts ∧ ts.length = 3 := by
  obtain ⟨ts, h1, h2, h3⟩ := ToyTalk3.turns
  refine ⟨ToySession.toy_meet3.curve, ToySession.toy_meet3.group, fits_of_small ToySession.toy_meet3.small.1, ToySession.hist_a4, ToySession.hist_b5,
    ts, h1, h3, ?_⟩
  rw [← List.length_map (f := Turn.content), h2]
  rfl

end Otrr.Props
