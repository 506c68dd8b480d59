import Verif.Props.SessionCross
/-! C96: two clients that begin an OTRv3 key exchange at the same time, each with the instance of the other. -/

namespace Otrr.Props
open Otrr Otrr.Spec Otrr.Session

/-- Beginning an OTRv3 exchange with a known instance. -/
theorem direct3_run {E : Env} {B : Account} {c : Call} {s : Session} (hi : Inv E s) {k : UInt32} {r : EncodedMessageType} {d : AKEState}
    {t : Bytes} (h : AKE.initiate E (c.rnd.sub 0) (s.inst k).ake = (.ok r, d))
    (ht : serialize (.encoded ⟨.v3, B.tag, k, r⟩) = .ok t) (hl : t.length ≤ c.messageSize) :
    ((Op.initiate .v3 k).run E B c s).result = .ok (.user .none) ∧ ((Op.initiate .v3 k).run E B c s).sent = [t] ∧
      ((Op.initiate .v3 k).run E B c s).after.inst k = { s.inst k with ake := d } ∧
      ∀ j, j ≠ k → ((Op.initiate .v3 k).run E B c s).after.inst j = s.inst j := by
  have h0 : (s.inst k).receiver = k := hi.receiver k
  have hrun : Instance.initiate E B c .v3 ⟨s.inst k, []⟩ = (.ok .none, ⟨{ s.inst k with ake := d }, [t]⟩) :=
    Instance.initiate3_eq h (by rw [h0]; exact ht) hl
  have hr : initiate E B c .v3 k ⟨s, []⟩ =
      (.ok .none, ⟨{ s with instances := insertKey s.instances k { s.inst k with ake := d } }, [t]⟩) := by
    simp only [Session.initiate, entry]
    have : (lookup s.instances k).getD (.new k) = s.inst k := rfl
    rw [this, hrun]
  refine ⟨?_, ?_, ?_, fun j hj => ?_⟩
  · rw [Op.run, perform_result, hr]; rfl
  · rw [Op.run, perform_sent, hr]
  · rw [Op.run, perform_after, hr]; exact inst_insert
  · rw [Op.run, perform_after, hr]
    unfold inst
    rw [lookup_insertKey, if_neg (Ne.symm hj)]

/-- Bob begins an exchange with the instance of Alice. -/
theorem direct3 {E : Env} {A B : Account} {keyA keyB : DSAKeypair} {cA cB : Call} (meet : CanMeet3 E A B keyA keyB cA cB) {s : Session} (hi : Inv E s) :
    let kb := DH.Keypair.new E.dh (beNat ((cB.rnd.sub 0).bytes [0] 192))
    let r := (cB.rnd.sub 0).bytes [1] 16
    let e := (Op.initiate .v3 A.tag).run E B cB s
    e.result = .ok (.user .none) ∧ ∃ t, Sends e ⟨.v3, B.tag, A.tag, .dhCommit (AKE.dhCommitOf E kb r)⟩ t ∧
      parse E t = .ok (.encoded ⟨.v3, B.tag, A.tag, .dhCommit (AKE.dhCommitOf E kb r)⟩) ∧ (t.length ≤ 2 * (natToBE E.dh.p).length + 300) ∧
      e.after.inst A.tag = { s.inst A.tag with ake := .awaitingDHKey kb r } ∧ ∀ k, k ≠ A.tag → e.after.inst k = s.inst k := by
  intro kb r
  let mC := AKE.dhCommitOf E kb r
  have i1 : AKE.initiate E (cB.rnd.sub 0) (s.inst A.tag).ake = (.ok (.dhCommit mC), .awaitingDHKey kb r) := rfl
  have szx : (wMpi kb.pub).length ≤ (natToBE E.dh.p).length + 4 := pub_size meet.group _
  have lenC : mC.gxEncrypted.length = (wMpi kb.pub).length := aesCrypt_length ..
  have lenH : mC.gxHashed.length = 32 := E.sha256_len _
  have sm1 := meet.small.1
  obtain ⟨tC, sC, pC⟩ := C03_transport E meet.curve ⟨.v3, B.tag, A.tag, .dhCommit mC⟩ (.inr meet.tags.2) (.inr meet.tags.1) rfl
    (show _ ∧ _ from ⟨by omega, by omega⟩)
  have lC : tC.length ≤ 2 * (natToBE E.dh.p).length + 300 := by
    have h1 := text_length sC (show wBody (.dhCommit mC) = .ok (wDHCommit mC) from rfl)
    simp only [wDHCommit, List.length_append, wData_length] at h1
    omega
  have lC' : tC.length ≤ cB.messageSize := by
    have h2 := meet.room.2
    unfold Roomy3 at h2
    omega
  obtain ⟨r1, o1, a1, f1⟩ := direct3_run (c := cB) hi i1 sC lC'
  exact ⟨r1, tC, ⟨sC, o1⟩, pC, lC, a1, f1⟩

/-- The exchange of `C96_direct3_partial`, and how the texts are read. -/
theorem direct_exchange3 (E : Env) (A B : Account) (keyA keyB : DSAKeypair) (hA hB : List Ev) (sA sB : Session) (hhA : Hist E A hA sA)
    (hhB : Hist E B hB sB) (cA1 cB1 cA2 cB2 cA3 cB3 cA4 cB4 cA5 cB5 : Call) (meetA : CanMeet3 E A B keyA keyB cA2 cB1)
    (meetB : CanMeet3 E B A keyB keyA cB2 cA1) (roomA : Roomy3 E keyA cA3) (readyB3 : Ready3 E keyB cB3) (readyA4 : Ready3 E keyA cA4)
    (readyB4 : Ready3 E keyB cB4)
    (wins : beNat (E.sha256 (wMpi (DH.Keypair.new E.dh (beNat ((cA1.rnd.sub 0).bytes [0] 192))).pub)) <
      beNat (E.sha256 (wMpi (DH.Keypair.new E.dh (beNat ((cB1.rnd.sub 0).bytes [0] 192))).pub)))
    (idle0 : ∀ kp r, akeOf sB 0 ≠ .awaitingDHKey kp r) (nA4 : NotV4 sA B.tag) (nB4 : NotV4 sB A.tag) :
    let a1 := (Op.initiate .v3 B.tag).run E A cA1 sA
    let b1 := (Op.initiate .v3 A.tag).run E B cB1 sB
    ∃ tA1 tB1, a1.sent = [tA1] ∧ b1.sent = [tB1] ∧
    let a2 := (Op.receive tB1).run E A cA2 a1.after
    let b2 := (Op.receive tA1).run E B cB2 b1.after
    ∃ tA2, a2.sent = [tA2] ∧ b2.sent = [tB1] ∧
    let a3 := (Op.receive tB1).run E A cA3 a2.after
    let b3 := (Op.receive tA2).run E B cB3 b2.after
    ∃ mR tR, parse E tR = .ok (.encoded ⟨.v3, B.tag, A.tag, .revealSignature mR⟩) ∧ a3.sent = [tA2] ∧ Sends b3 ⟨.v3, B.tag, A.tag, .revealSignature mR⟩ tR ∧
    ((∃ b ∈ mR.sigMac, b ≠ 0) →
    let a4 := (Op.receive tR).run E A cA4 a3.after
    let b4 := (Op.receive tA2).run E B cB4 b3.after
    a4.result = .ok (.user (.sessionStarted B.tag)) ∧ ∃ mS tS, parse E tS = .ok (.encoded ⟨.v3, A.tag, B.tag, .signature mS⟩) ∧ Sends a4 ⟨.v3, A.tag, B.tag, .signature mS⟩ tS ∧ b4.sent = [tR] ∧
    ((∃ b ∈ mS.sigMac, b ≠ 0) →
    let a5 := (Op.receive tR).run E A cA5 a4.after
    let b5 := (Op.receive tS).run E B cB5 b4.after
    b5.result = .ok (.user (.sessionStarted A.tag)) ∧ a5.sent = [] ∧ b5.sent = [] ∧ Connected3 E A B (Either3 E) a5.after b5.after)) := by
  have nA := tag_ne_zero meetA.tags.1
  have nB := tag_ne_zero meetA.tags.2
  have hG := meetA.group
  have hp0 : 0 < E.dh.p := by have := hG.1; omega
  have hfit := fits_of_small meetA.small.1
  obtain ⟨sm1, sm2, sm3⟩ := meetA.small
  have hvA : Version.v3 = .v3 ∧ AllowsV3 A ∨ Version.v3 = .v4 ∧ AllowsV4 A := .inl ⟨rfl, meetA.allow.1⟩
  have hvB : Version.v3 = .v3 ∧ AllowsV3 B ∨ Version.v3 = .v4 ∧ AllowsV4 B := .inl ⟨rfl, meetA.allow.2⟩
  let x := beNat ((cB1.rnd.sub 0).bytes [0] 192)
  let y := beNat ((cA2.rnd.sub 0).bytes [0] 192)
  let r := (cB1.rnd.sub 0).bytes [1] 16
  let kb := DH.Keypair.new E.dh x
  let ka := DH.Keypair.new E.dh y
  have rx : InRange E.dh kb.pub := meetA.drawB.1
  have ry : InRange E.dh ka.pub := meetA.drawA.1
  have szy : (wMpi ka.pub).length ≤ (natToBE E.dh.p).length + 4 := pub_size hG y
  obtain ⟨mR, b2, i3, rest⟩ := exchange hfit hp0 meetA.keys.1 meetA.keys.2 x y r rx ry
  intro a1 b1
  -- both begin
  obtain ⟨ra1, tA1, sa1, pa1, _, ia1, fa1⟩ := direct3 meetB (hist_inv hhA)
  obtain ⟨rb1, tB1, sb1, pb1, lenB1, ib1, fb1⟩ := direct3 meetA (hist_inv hhB)
  obtain ⟨_, hA1⟩ := hist_next hhA (e := a1) rfl (show a1.result ≠ _ by rw [show a1.result = _ from ra1]; nofun)
  obtain ⟨_, hB1⟩ := hist_next hhB (e := b1) rfl (show b1.result ≠ _ by rw [show b1.result = _ from rb1]; nofun)
  refine ⟨tA1, tB1, sa1.2, sb1.2, ?_⟩
  intro a2 b2'
  -- Alice yields
  let mC := AKE.dhCommitOf E kb r
  have i2 : AKE.handleDhCommit E mC (cA2.rnd.sub 0) (a1.after.inst B.tag).ake =
      (.ok (.dhKey ⟨ka.pub⟩), .awaitingRevealSignature ka mC.gxEncrypted mC.gxHashed) := by
    rw [show inst a1.after B.tag = _ from ia1, AKE.handleDhCommit, transact_ok]
    exact if_neg (Nat.lt_asymm wins)
  obtain ⟨tK, sK, pK⟩ := C03_transport E meetA.curve ⟨.v3, A.tag, B.tag, .dhKey ⟨ka.pub⟩⟩ (.inr meetA.tags.1) (.inr meetA.tags.2) rfl
    (show FitsMpi _ from fits_mono hfit (Nat.le_of_lt (pub_lt hp0 y)))
  have lK : ∀ c : Call, Roomy3 E keyA c → tK.length ≤ c.messageSize := by
    intro c h2
    have h1 := text_length sK (show wBody (.dhKey ⟨ka.pub⟩) = .ok (wDHKey ⟨ka.pub⟩) from rfl)
    unfold Roomy3 at h2
    simp only [wDHKey] at h1
    omega
  obtain ⟨x2, _, st2, _, _, r2, o2, ia2, _⟩ := text_run (A := A) (c := cA2) (hist_inv hA1) (encoded_notFragment sb1.1) pb1 hvA nB
    (header_ok pb1 nB rfl nA) (x := fun i => { i with ake := .awaitingRevealSignature ka mC.gxEncrypted mC.gxHashed })
    fun i h1 _ h4 _ => Instance.process_dhCommit h1 (by rw [h4]; exact i2) sK (lK _ meetA.room.1)
  -- Bob insists
  have j2 : AKE.handleDhCommit E (AKE.dhCommitOf E (DH.Keypair.new E.dh (beNat ((cA1.rnd.sub 0).bytes [0] 192))) ((cA1.rnd.sub 0).bytes [1] 16))
      (cB2.rnd.sub 0) (b1.after.inst A.tag).ake = (.ok (.dhCommit mC), .awaitingDHKey kb r) := by
    rw [show inst b1.after A.tag = _ from ib1, AKE.handleDhCommit, transact_ok]
    exact if_pos wins
  have lB1 : tB1.length ≤ cB2.messageSize := by
    have h2 := meetB.room.1
    unfold Roomy3 at h2
    omega
  obtain ⟨y2, _, su2, _, _, q2, p2, ib2, fb2⟩ := text_run (A := B) (c := cB2) (hist_inv hB1) (encoded_notFragment sa1.1) pa1 hvB nA
    (header_ok pa1 nA rfl nB) (x := fun i => { i with ake := .awaitingDHKey kb r })
    fun i h1 _ h4 _ => Instance.process_dhCommit h1 (by rw [h4]; exact j2) sb1.1 lB1
  obtain ⟨_, hA2⟩ := hist_next hA1 (e := a2) rfl (show a2.result ≠ _ by rw [show a2.result = _ from r2]; nofun)
  obtain ⟨_, hB2⟩ := hist_next hB1 (e := b2') rfl (show b2'.result ≠ _ by rw [show b2'.result = _ from q2]; nofun)
  refine ⟨tK, o2, p2, ?_⟩
  intro a3 b3
  -- Alice repeats
  have i2' : AKE.handleDhCommit E mC (cA3.rnd.sub 0) (a2.after.inst B.tag).ake =
      (.ok (.dhKey ⟨ka.pub⟩), .awaitingRevealSignature ka mC.gxEncrypted mC.gxHashed) := by
    rw [show inst a2.after B.tag = _ from ia2, AKE.handleDhCommit, transact_ok]
  obtain ⟨x3, _, st3, _, _, r3, o3, ia3, _⟩ := text_run (A := A) (c := cA3) (hist_inv hA2) (encoded_notFragment sb1.1) pb1 hvA nB
    (header_ok pb1 nB rfl nA) (x := fun i => { i with ake := .awaitingRevealSignature ka mC.gxEncrypted mC.gxHashed })
    fun i h1 _ h4 _ => Instance.process_dhCommit h1 (by rw [h4]; exact i2') sK (lK _ roomA)
  -- Bob reveals
  have i3' := i3
  rw [AKE.handleDhKey, transact_ok] at i3'
  obtain ⟨_, hd, _, e3⟩ := AKE.answerDhKey_ok i3'
  cases hd
  simp only [Prod.mk.injEq, EncodedMessageType.revealSignature.injEq] at e3
  obtain ⟨e3, e3'⟩ := e3
  have lenE : mR.sigEncrypted.length = (wPublicKey keyB.pk).length + 44 := by
    rw [e3]
    exact (aesCrypt_length ..).trans (identityOf_length ..)
  have lenM : mR.sigMac.length = 20 := by rw [e3]; exact identityMac_length ..
  have lenR : mR.key.length = 16 := by rw [e3]; exact (cB1.rnd.sub 0).length_bytes [1] 16
  obtain ⟨tR, sR, pR⟩ := C03_transport E meetA.curve ⟨.v3, B.tag, A.tag, .revealSignature mR⟩ (.inr meetA.tags.2) (.inr meetA.tags.1) rfl
    (show _ ∧ _ ∧ _ from ⟨lenR, by omega, lenM⟩)
  have lR : ∀ c : Call, Roomy3 E keyB c → tR.length ≤ c.messageSize := by
    intro c h2
    have h1 := text_length sR (show wBody (.revealSignature mR) = .ok (wRevealSignature mR) from rfl)
    unfold Roomy3 at h2
    simp only [wRevealSignature, List.length_append, wData_length] at h1
    omega
  have zero2 : ∀ kp r, (b2'.after.inst 0).ake ≠ .awaitingDHKey kp r := by
    obtain ⟨a, ha⟩ := fb2 0 (Ne.symm nA)
    rw [show inst b2'.after 0 = _ from ha]
    show ∀ kp r, (b1.after.inst 0).ake ≠ _
    rw [show inst b1.after 0 = _ from fb1 0 (Ne.symm nA), ← akeOf_inst]
    exact idle0
  have hand : ∀ {s : Session} {m : DHKeyMessage}, (∀ kp r, (s.inst 0).ake ≠ .awaitingDHKey kp r) →
      handedAke s ⟨.v3, A.tag, B.tag, .dhKey m⟩ = (s.inst A.tag).ake := by
    intro s m h
    unfold handedAke
    cases hz : (s.inst 0).ake with
    | awaitingDHKey kp r => exact absurd hz (h kp r)
    | _ => rfl
  obtain ⟨y3, _, su3, _, _, q3, p3, ib3, fb3⟩ := text_run (A := B) (c := cB3) (hist_inv hB2) (encoded_notFragment sK) pK hvB nA
    (header_ok pK nA rfl nB) (x := fun i => { i with ake := b2 })
    fun i h1 _ h4 _ => Instance.process_dhKey h1 (by
      rw [h4, readyB3.1, hand zero2, show inst b2'.after A.tag = _ from ib2]
      exact i3) sR (lR _ readyB3.2)
  obtain ⟨_, hA3⟩ := hist_next hA2 (e := a3) rfl (show a3.result ≠ _ by rw [show a3.result = _ from r3]; nofun)
  obtain ⟨_, hB3⟩ := hist_next hB2 (e := b3) rfl (show b3.result ≠ _ by rw [show b3.result = _ from q3]; nofun)
  refine ⟨mR, tR, pR, o3, ⟨sR, p3⟩, fun gR => ?_⟩
  intro a4 b4
  -- Alice completes
  obtain ⟨matA, mS, i4, rest⟩ := rest (anyNonzero_of meetA.drawB.2) (anyNonzero_of gR)
  have i4' := i4
  rw [AKE.handleRevealSignature, transact_ok] at i4'
  simp only [Res.bind_eq_ok, Res.pure_def, Res.ok.injEq, Prod.mk.injEq] at i4'
  obtain ⟨_, i4', rfl, -⟩ := i4'
  obtain ⟨gx, pk, keyid, sg, dsa, _, hd, _, _, hgx, rgx, _, _, _, hmat, hsig⟩ := AKE.answerRevealSignature_ok i4'
  cases hd
  simp only [EncodedMessageType.signature.injEq] at hsig
  have lenE' : mS.sigEncrypted.length = (wPublicKey keyA.pk).length + 44 := by
    rw [hsig]
    exact (aesCrypt_length ..).trans (identityOf_length ..)
  have lenM' : mS.sigMac.length = 20 := by rw [hsig]; exact identityMac_length ..
  obtain ⟨tS, sS, pS⟩ := C03_transport E meetA.curve ⟨.v3, A.tag, B.tag, .signature mS⟩ (.inr meetA.tags.1) (.inr meetA.tags.2) rfl
    (show _ ∧ _ from ⟨by omega, lenM'⟩)
  have lS : tS.length ≤ cA4.messageSize := by
    have h1 := text_length sS (show wBody (.signature mS) = .ok (wSignature mS) from rfl)
    have h2 := readyA4.2
    unfold Roomy3 at h2
    simp only [wSignature, List.length_append, wData_length] at h1
    omega
  have rA : InRange E.dh matA.ourDh.pub ∧ InRange E.dh matA.theirDh := by rw [hmat]; exact ⟨ry, rgx⟩
  obtain ⟨xA, hxA, oA, tA⟩ := enc3_new hG (our := A.tag) (their := B.tag) rA.1 rA.2 (cA4.rnd.sub 1)
  have nA4' : ∀ x m, (a3.after.inst B.tag).state ≠ .encrypted4 x m := by
    intro u m
    rw [show inst a3.after B.tag = _ from ia3]
    show x3.state ≠ _
    rw [st3]
    show (inst a2.after B.tag).state ≠ _
    rw [show inst a2.after B.tag = _ from ia2]
    show x2.state ≠ _
    rw [st2]
    show (inst a1.after B.tag).state ≠ _
    rw [show inst a1.after B.tag = _ from ia1]
    have := nA4 u m
    rwa [stateOf_inst] at this
  obtain ⟨x4, _, _, _, _, r4, o4, ia4, _⟩ := text_run (A := A) (c := cA4) (hist_inv hA3) (encoded_notFragment sR) pR hvA nB
    (header_ok pR nB rfl nA) (x := fun i => { i with ake := .none, state := .encrypted3 xA (SMP.new matA.ssid (fingerprint3 E matA.theirDsa)) })
    fun i h1 h3 h4 _ => Instance.process_revealSignature h1 (by
      rw [h4, readyA4.1]
      show AKE.handleRevealSignature E (some keyA) mR (inst a3.after B.tag).ake = _
      rw [show inst a3.after B.tag = _ from ia3]
      exact i4) (by rw [h3]; exact nA4') hxA sS lS
  -- Bob repeats
  have zero3 : ∀ kp r, (b3.after.inst 0).ake ≠ .awaitingDHKey kp r := by
    obtain ⟨a, ha⟩ := fb3 0 (Ne.symm nA)
    rw [show inst b3.after 0 = _ from ha]
    exact zero2
  have i3'' : AKE.handleDhKey E (some keyB) ⟨ka.pub⟩ b2 = (.ok (.revealSignature mR), b2) := by
    rw [e3', AKE.handleDhKey, transact_ok, e3]
    exact if_neg (fun h => h rfl)
  obtain ⟨y4, _, su4, _, _, q4, p4, ib4, fb4⟩ := text_run (A := B) (c := cB4) (hist_inv hB3) (encoded_notFragment sK) pK hvB nA
    (header_ok pK nA rfl nB) (x := fun i => { i with ake := b2 })
    fun i h1 _ h4 _ => Instance.process_dhKey h1 (by
      rw [h4, readyB4.1, hand zero3, show inst b3.after A.tag = _ from ib3]
      exact i3'') sR (lR _ readyB4.2)
  obtain ⟨_, hA4⟩ := hist_next hA3 (e := a4) rfl (show a4.result ≠ _ by rw [show a4.result = _ from r4]; nofun)
  obtain ⟨_, hB4⟩ := hist_next hB3 (e := b4) rfl (show b4.result ≠ _ by rw [show b4.result = _ from q4]; nofun)
  refine ⟨r4, mS, tS, pS, ⟨sS, o4⟩, p4, fun gS => ?_⟩
  intro a5 b5
  -- Bob completes, and Alice refuses what she got already
  obtain ⟨matB, i5, agree, dhA, dhB⟩ := rest (anyNonzero_of gS)
  have rB : InRange E.dh matB.ourDh.pub ∧ InRange E.dh matB.theirDh := by
    rw [agree.dh.2, dhA, dhB]
    exact ⟨rx, ry⟩
  obtain ⟨xB, hxB, oB, tB⟩ := enc3_new hG (our := B.tag) (their := A.tag) rB.1 rB.2 (cB5.rnd.sub 1)
  have nB4' : ∀ x m, (b4.after.inst A.tag).state ≠ .encrypted4 x m := by
    intro u m
    rw [show inst b4.after A.tag = _ from ib4]
    show y4.state ≠ _
    rw [su4]
    show (inst b3.after A.tag).state ≠ _
    rw [show inst b3.after A.tag = _ from ib3]
    show y3.state ≠ _
    rw [su3]
    show (inst b2'.after A.tag).state ≠ _
    rw [show inst b2'.after A.tag = _ from ib2]
    show y2.state ≠ _
    rw [su2]
    show (inst b1.after A.tag).state ≠ _
    rw [show inst b1.after A.tag = _ from ib1]
    have := nB4 u m
    rwa [stateOf_inst] at this
  obtain ⟨x5, _, _, _, _, r5, o5, ib5, _⟩ := text_run (A := B) (c := cB5) (hist_inv hB4) (encoded_notFragment sS) pS hvB nA
    (header_ok pS nA rfl nB) (x := fun i => { i with ake := .none, state := .encrypted3 xB (SMP.new matB.ssid (fingerprint3 E matB.theirDsa)) })
    fun i h1 h3 h4 _ => Instance.process_signature h1 (by
      rw [h4]
      show AKE.handleSignature E mS (inst b4.after A.tag).ake = _
      rw [show inst b4.after A.tag = _ from ib4]
      exact i5) (by rw [h3]; exact nB4') hxB
  obtain ⟨ra5, oa5, sta5, _, _⟩ := text_refused (A := A) (c := cA5) (err := AKE.eIgnored) (hist_inv hA4) (encoded_notFragment sR) pR hvA nB
    (header_ok pR nB rfl nA) fun i h3 _ => by
      have : AKE.handleRevealSignature E cA5.keypair mR i.ake = (.err AKE.eIgnored, i.ake) := by
        rw [h3]
        show AKE.handleRevealSignature E cA5.keypair mR (a4.after.inst B.tag).ake = (_, (a4.after.inst B.tag).ake)
        rw [show inst a4.after B.tag = _ from ia4]
        rfl
      simp only [Instance.process, StM.bind_run, StM.gets, Instance.onAke, this]
  have hnA := hxA
  have hnB := hxB
  rw [agree.dh.1, dhA, dhB] at hnA
  rw [agree.dh.2, dhA, dhB] at hnB
  have g0 : (a5.after.inst B.tag).state = .encrypted3 xA (SMP.new matA.ssid (fingerprint3 E matA.theirDsa)) := by
    refine sta5.trans ?_
    rw [show inst a4.after B.tag = _ from ia4]
  have g1 : stateOf a5.after B.tag = .encrypted3 xA (SMP.new matA.ssid (fingerprint3 E matA.theirDsa)) := by rw [stateOf_inst, g0]
  have g2 : stateOf b5.after A.tag = .encrypted3 xB (SMP.new matB.ssid (fingerprint3 E matB.theirDsa)) := by
    rw [stateOf_inst]; exact congrArg Instance.state ib5
  refine ⟨r5, oa5, o5, xA, SMP.new matA.ssid (fingerprint3 E matA.theirDsa), xB, SMP.new matB.ssid (fingerprint3 E matB.theirDsa), matA.ssid,
    g1, g2, ?_, ?_, oA, tA, oB, tB, .start hnA hnB, .start hnA hnB, .start hnB hnA⟩
  · exact ssid_of_inst (by rw [g0]; rfl)
  · rw [agree.ssid]
    refine ssid_of_inst ?_
    rw [show inst _ A.tag = _ from ib5]
    rfl

/-- C96, as far as it holds (OTRv3): Alice and Bob each begin an exchange with the instance of the other at the same time (Bob's key has the larger
hash; else exchange their names), and each message is sent as one text and delivered as it is, in order.  Alice yields to Bob, who repeats his D-H Commit message, whereupon Alice
repeats her D-H Key message and Bob his Reveal Signature message.  At the end nothing remains to be delivered, both have reported the session,
and they are connected.  What is missing: the same for offers that are answered with an exchange for no particular instance, and for OTRv4. -/
theorem C96_direct3_partial (E : Env) (A B : Account) (keyA keyB : DSAKeypair) (hA hB : List Ev) (sA sB : Session) (hhA : Hist E A hA sA)
    (hhB : Hist E B hB sB) (cA1 cB1 cA2 cB2 cA3 cB3 cA4 cB4 cA5 cB5 : Call) (meetA : CanMeet3 E A B keyA keyB cA2 cB1)
    (meetB : CanMeet3 E B A keyB keyA cB2 cA1) (roomA : Roomy3 E keyA cA3) (readyB3 : Ready3 E keyB cB3) (readyA4 : Ready3 E keyA cA4)
    (readyB4 : Ready3 E keyB cB4)
    (wins : beNat (E.sha256 (wMpi (DH.Keypair.new E.dh (beNat ((cA1.rnd.sub 0).bytes [0] 192))).pub)) <
      beNat (E.sha256 (wMpi (DH.Keypair.new E.dh (beNat ((cB1.rnd.sub 0).bytes [0] 192))).pub)))
    (idle0 : ∀ kp r, akeOf sB 0 ≠ .awaitingDHKey kp r) (nA4 : NotV4 sA B.tag) (nB4 : NotV4 sB A.tag) :
    let a1 := (Op.initiate .v3 B.tag).run E A cA1 sA
    let b1 := (Op.initiate .v3 A.tag).run E B cB1 sB
    ∃ tA1 tB1, a1.sent = [tA1] ∧ b1.sent = [tB1] ∧
    let a2 := (Op.receive tB1).run E A cA2 a1.after
    let b2 := (Op.receive tA1).run E B cB2 b1.after
    ∃ tA2, a2.sent = [tA2] ∧ b2.sent = [tB1] ∧
    let a3 := (Op.receive tB1).run E A cA3 a2.after
    let b3 := (Op.receive tA2).run E B cB3 b2.after
    ∃ mR tR, a3.sent = [tA2] ∧ Sends b3 ⟨.v3, B.tag, A.tag, .revealSignature mR⟩ tR ∧
    ((∃ b ∈ mR.sigMac, b ≠ 0) →
    let a4 := (Op.receive tR).run E A cA4 a3.after
    let b4 := (Op.receive tA2).run E B cB4 b3.after
    a4.result = .ok (.user (.sessionStarted B.tag)) ∧ ∃ mS tS, Sends a4 ⟨.v3, A.tag, B.tag, .signature mS⟩ tS ∧ b4.sent = [tR] ∧
    ((∃ b ∈ mS.sigMac, b ≠ 0) →
    let a5 := (Op.receive tR).run E A cA5 a4.after
    let b5 := (Op.receive tS).run E B cB5 b4.after
    b5.result = .ok (.user (.sessionStarted A.tag)) ∧ a5.sent = [] ∧ b5.sent = [] ∧ Connected3 E A B (Either3 E) a5.after b5.after)) := by
  obtain ⟨tA1, tB1, s1, q1, tA2, s2, q2, mR, tR, _, s3, q3, h⟩ := direct_exchange3 E A B keyA keyB hA hB sA sB hhA hhB cA1 cB1 cA2 cB2 cA3 cB3 cA4 cB4 cA5
    cB5 meetA meetB roomA readyB3 readyA4 readyB4 wins idle0 nA4 nB4
  refine ⟨tA1, tB1, s1, q1, tA2, s2, q2, mR, tR, s3, q3, fun g => ?_⟩
  obtain ⟨r4, mS, tS, _, s4, h⟩ := h g
  exact ⟨r4, mS, tS, s4, h⟩

open ToySession in
/-- The hypotheses of `C96_direct3_partial` hold for two new clients, and the authenticators of their messages are good; so they connect. -/
example : ∃ sA sB, Connected3 tinyEnv acA acB (Either3 tinyEnv) sA sB := by
  obtain ⟨⟨s1, t1, s2, t3, s4⟩, g3, g4, wins⟩ := runDirect3
  have e1 : (Op.initiate .v3 acB.tag).run tinyEnv acA (callA 1000 13) .new = vA1 := by unfold vA1; rfl
  have f1 : (Op.initiate .v3 acA.tag).run tinyEnv acB (callB 1000 12) .new = vB1 := by unfold vB1; rfl
  have e2 : (Op.receive (msg vB1)).run tinyEnv acA (callA 1000 11) vA1.after = vA2 := by unfold vA2; rfl
  have f2 : (Op.receive (msg vA1)).run tinyEnv acB (callB 1000 14) vB1.after = vB2 := by unfold vB2; rfl
  have e3 : (Op.receive (msg vB1)).run tinyEnv acA (callA 1000 15) vA2.after = vA3 := by unfold vA3; rfl
  have f3 : (Op.receive (msg vA2)).run tinyEnv acB (callB 1000 16) vB2.after = vB3 := by unfold vB3; rfl
  have e4 : (Op.receive (msg vB3)).run tinyEnv acA (callA 1000 17) vA3.after = vA4 := by unfold vA4; rfl
  have h := direct_exchange3 tinyEnv acA acB ToyAke.alice ToyAke.bob [] [] .new .new .new .new (callA 1000 13) (callB 1000 12) (callA 1000 11)
    (callB 1000 14) (callA 1000 15) (callB 1000 16) (callA 1000 17) (callB 1000 18) (callA 1000 19) (callB 1000 20) direct_meetA direct_meetB
    (readyA 15).2 (readyB 16) (readyA 17) (readyB 18) wins (fun _ _ h => by cases h) (fun _ _ h => by cases h) (fun _ _ h => by cases h)
  dsimp only at h
  rw [e1, f1] at h
  obtain ⟨tA1, tB1, o1, q1, h⟩ := h
  cases List.singleton_inj.mp (o1.symm.trans s1)
  cases List.singleton_inj.mp (q1.symm.trans t1)
  rw [e2, f2] at h
  obtain ⟨tA2, o2, _, h⟩ := h
  cases List.singleton_inj.mp (o2.symm.trans s2)
  rw [e3, f3] at h
  obtain ⟨mR, tR, p3, _, ⟨z3, q3⟩, h⟩ := h
  cases List.singleton_inj.mp (q3.symm.trans t3)
  rw [e4] at h
  rw [p3] at g3
  obtain ⟨_, mS, tS, p4, ⟨_, q4⟩, _, h⟩ := h (anyNonzero_iff.mp g3)
  cases List.singleton_inj.mp (q4.symm.trans s4)
  rw [p4] at g4
  exact ⟨_, _, (h (anyNonzero_iff.mp g4)).2.2.2⟩

end Otrr.Props
