import Verif.Props.SessionExchange3
import Verif.Props.SessionSmp
import Verif.Lemmas.SessionCrossToy
/-! C96: two clients that begin a key exchange with each other at the same time. -/

namespace Otrr.Props
open Otrr Otrr.Spec Otrr.Session

/-- A whole text that reads as a message which is refused. -/
theorem text_refused {E : Env} {A : Account} {c : Call} {s : Session} (hi : Inv E s) {t : Bytes} {m : EncodedMessage} (hf : matchFragment t = false)
    (hp : parse E t = .ok (.encoded m)) (hv : m.version = .v3 ∧ AllowsV3 A ∨ m.version = .v4 ∧ AllowsV4 A) (hs : m.sender ≠ 0)
    (hh : verifyHeader A m = .ok ()) {err : OTRError}
    (hx : ∀ i : Instance, i.ake = handedAke s m → i.dake = handedDake s m →
      Instance.process E A c m ⟨i, []⟩ = (.err err, ⟨i, []⟩)) :
    ((Op.receive t).run E A c s).result = .err err ∧ ((Op.receive t).run E A c s).sent = [] ∧
      (((Op.receive t).run E A c s).after.inst m.sender).state = (s.inst m.sender).state ∧
      (((Op.receive t).run E A c s).after.inst m.sender).ake = handedAke s m ∧
      (((Op.receive t).run E A c s).after.inst m.sender).dake = handedDake s m := by
  obtain ⟨i1, s1, hk, h1, h2, h3, h4, hrun⟩ := message_run (c := c) hi (.inl ⟨hf, hp⟩) hv hs hh
  rw [hx i1 h3 h4] at hrun
  refine ⟨?_, ?_, ?_, ?_, ?_⟩
  · rw [Op.run, perform_result, hrun]; rfl
  · rw [Op.run, perform_sent, hrun]
  all_goals rw [Op.run, perform_after, hrun, inst_insert]
  · exact h2
  · exact h3
  · exact h4

/-! ## OTRv3 -/

/-- Bob begins. -/
theorem begin3 {E : Env} {A B : Account} {keyA keyB : DSAKeypair} {cA cB : Call} (meet : CanMeet3 E A B keyA keyB cA cB) {s : Session} (hi : Inv E s)
    {q : Bytes} {vs : List Version} (hf : matchFragment q = false) (hq : parse E q = .ok (.query vs)) (h3 : .v3 ∈ vs) (no4 : ¬ (.v4 ∈ vs ∧ AllowsV4 B)) :
    let kb := DH.Keypair.new E.dh (beNat ((cB.rnd.sub 0).bytes [0] 192))
    let r := (cB.rnd.sub 0).bytes [1] 16
    let e := (Op.receive q).run E B cB s
    e.result = .ok (.user .none) ∧ ∃ t, Sends e ⟨.v3, B.tag, 0, .dhCommit (AKE.dhCommitOf E kb r)⟩ t ∧
      parse E t = .ok (.encoded ⟨.v3, B.tag, 0, .dhCommit (AKE.dhCommitOf E kb r)⟩) ∧
      (e.after.inst 0).ake = .awaitingDHKey kb r ∧ ∀ k, k ≠ 0 → e.after.inst k = s.inst k := by
  intro kb r
  let mC := AKE.dhCommitOf E kb r
  have i1 : AKE.initiate E (cB.rnd.sub 0) (s.inst 0).ake = (.ok (.dhCommit mC), .awaitingDHKey kb r) := rfl
  have szx : (wMpi kb.pub).length ≤ (natToBE E.dh.p).length + 4 := pub_size meet.group _
  have lenC : mC.gxEncrypted.length = (wMpi kb.pub).length := aesCrypt_length ..
  have lenH : mC.gxHashed.length = 32 := E.sha256_len _
  have sm1 := meet.small.1
  obtain ⟨tC, sC, pC⟩ := C03_transport E meet.curve ⟨.v3, B.tag, 0, .dhCommit mC⟩ (.inr meet.tags.2) (.inl rfl) rfl
    (show _ ∧ _ from ⟨by omega, by omega⟩)
  have lC : tC.length ≤ cB.messageSize := by
    have h1 := text_length sC (show wBody (.dhCommit mC) = .ok (wDHCommit mC) from rfl)
    have h2 := meet.room.2
    unfold Roomy3 at h2
    simp only [wDHCommit, List.length_append, wData_length] at h1
    omega
  obtain ⟨r1, o1, a1, f1⟩ := offer3_run (c := cB) hi hf hq h3 meet.allow.2 no4 i1 sC lC
  exact ⟨r1, tC, ⟨sC, o1⟩, pC, by rw [a1], f1⟩

/-- Alice answers. -/
theorem answer3 {E : Env} {A B : Account} {keyA keyB : DSAKeypair} {cA cB : Call} (meet : CanMeet3 E A B keyA keyB cA cB) {s : Session} (hi : Inv E s)
    (idle : NotAwaitingReveal (s.inst B.tag).ake ∧ ∀ kp r, (s.inst B.tag).ake ≠ .awaitingDHKey kp r) {mC : DHCommitMessage} {tC : Bytes}
    (sC : serialize (.encoded ⟨.v3, B.tag, 0, .dhCommit mC⟩) = .ok tC) (pC : parse E tC = .ok (.encoded ⟨.v3, B.tag, 0, .dhCommit mC⟩)) :
    let ka := DH.Keypair.new E.dh (beNat ((cA.rnd.sub 0).bytes [0] 192))
    let e := (Op.receive tC).run E A cA s
    e.result = .ok (.user .none) ∧ ∃ t, Sends e ⟨.v3, A.tag, B.tag, .dhKey ⟨ka.pub⟩⟩ t ∧
      parse E t = .ok (.encoded ⟨.v3, A.tag, B.tag, .dhKey ⟨ka.pub⟩⟩) ∧
      (e.after.inst 0).ake = (s.inst 0).ake ∧ (e.after.inst B.tag).state = (s.inst B.tag).state := by
  intro ka
  have nB := tag_ne_zero meet.tags.2
  have hp0 : 0 < E.dh.p := by have := meet.group.1; omega
  have szy : (wMpi ka.pub).length ≤ (natToBE E.dh.p).length + 4 := pub_size meet.group _
  have i2 : AKE.handleDhCommit E mC (cA.rnd.sub 0) (s.inst B.tag).ake =
      (.ok (.dhKey ⟨ka.pub⟩), .awaitingRevealSignature ka mC.gxEncrypted mC.gxHashed) := by
    obtain ⟨n1, n2⟩ := idle
    rw [AKE.handleDhCommit, transact_ok]
    cases hs : (s.inst B.tag).ake with
    | none => rfl
    | awaitingDHKey kp r => exact absurd hs (n2 kp r)
    | awaitingRevealSignature kp e h => exact absurd hs (n1 kp e h)
    | awaitingSignature kp gy s prev => rfl
  obtain ⟨tK, sK, pK⟩ := C03_transport E meet.curve ⟨.v3, A.tag, B.tag, .dhKey ⟨ka.pub⟩⟩ (.inr meet.tags.1) (.inr meet.tags.2) rfl
    (show FitsMpi _ from fits_mono (fits_of_small meet.small.1) (Nat.le_of_lt (pub_lt hp0 _)))
  have lK : tK.length ≤ cA.messageSize := by
    have h1 := text_length sK (show wBody (.dhKey ⟨ka.pub⟩) = .ok (wDHKey ⟨ka.pub⟩) from rfl)
    have h2 := meet.room.1
    unfold Roomy3 at h2
    simp only [wDHKey] at h1
    omega
  obtain ⟨x2, _, st2, _, _, r2, o2, a2, f2⟩ := text_run (A := A) (c := cA) hi (encoded_notFragment sC) pC (.inl ⟨rfl, meet.allow.1⟩) nB
    (header_first pC nB rfl (.inr ⟨_, rfl⟩)) (x := fun i => { i with ake := .awaitingRevealSignature ka mC.gxEncrypted mC.gxHashed })
    fun i h1 _ h4 _ => Instance.process_dhCommit h1 (by rw [h4]; exact i2) sK lK
  obtain ⟨a, ha⟩ := f2 0 (Ne.symm nB)
  exact ⟨r2, tK, ⟨sK, o2⟩, pK, by rw [ha], by rw [show inst _ B.tag = _ from a2]; exact st2⟩

/-- Bob reveals: he goes on with the exchange that he began, and forgets the one that he answered. -/
theorem reveal3 {E : Env} {A B : Account} {keyA keyB : DSAKeypair} {cA cB c : Call} (meet : CanMeet3 E A B keyA keyB cA cB) (ready : Ready3 E keyB c)
    {s : Session} (hi : Inv E s) {r : Bytes} (lenR : r.length = 16)
    (own : (s.inst 0).ake = .awaitingDHKey (DH.Keypair.new E.dh (beNat ((cB.rnd.sub 0).bytes [0] 192))) r) {tK : Bytes}
    (sK : serialize (.encoded ⟨.v3, A.tag, B.tag, .dhKey ⟨(DH.Keypair.new E.dh (beNat ((cA.rnd.sub 0).bytes [0] 192))).pub⟩⟩) = .ok tK)
    (pK : parse E tK = .ok (.encoded ⟨.v3, A.tag, B.tag, .dhKey ⟨(DH.Keypair.new E.dh (beNat ((cA.rnd.sub 0).bytes [0] 192))).pub⟩⟩)) :
    let e := (Op.receive tK).run E B c s
    e.result = .ok (.user .none) ∧ ∃ mR t, Sends e ⟨.v3, B.tag, A.tag, .revealSignature mR⟩ t ∧
      parse E t = .ok (.encoded ⟨.v3, B.tag, A.tag, .revealSignature mR⟩) ∧
      (∃ kp gy sec prev, (e.after.inst A.tag).ake = .awaitingSignature kp gy sec prev) ∧ (e.after.inst A.tag).state = (s.inst A.tag).state := by
  intro e
  have nA := tag_ne_zero meet.tags.1
  have nB := tag_ne_zero meet.tags.2
  have hp0 : 0 < E.dh.p := by have := meet.group.1; omega
  obtain ⟨mR, b2, i3, -⟩ := exchange (fits_of_small meet.small.1) hp0 meet.keys.1 meet.keys.2 (beNat ((cB.rnd.sub 0).bytes [0] 192))
    (beNat ((cA.rnd.sub 0).bytes [0] 192)) r meet.drawB.1 meet.drawA.1
  have i3' := i3
  rw [AKE.handleDhKey, transact_ok] at i3'
  obtain ⟨_, hd, _, e3⟩ := AKE.answerDhKey_ok i3'
  cases hd
  simp only [Prod.mk.injEq, EncodedMessageType.revealSignature.injEq] at e3
  obtain ⟨e3, e3'⟩ := e3
  have lenE : mR.sigEncrypted.length = (wPublicKey keyB.pk).length + 44 := by
    rw [e3]
    exact (aesCrypt_length ..).trans (identityOf_length ..)
  have lenM : mR.sigMac.length = 20 := by rw [e3]; exact identityMac_length ..
  have lenR' : mR.key.length = 16 := by rw [e3]; exact lenR
  have sm := meet.small.2.2
  obtain ⟨tR, sR, pR⟩ := C03_transport E meet.curve ⟨.v3, B.tag, A.tag, .revealSignature mR⟩ (.inr meet.tags.2) (.inr meet.tags.1) rfl
    (show _ ∧ _ ∧ _ from ⟨lenR', by omega, lenM⟩)
  have lR : tR.length ≤ c.messageSize := by
    have h1 := text_length sR (show wBody (.revealSignature mR) = .ok (wRevealSignature mR) from rfl)
    have h2 := ready.2
    unfold Roomy3 at h2
    simp only [wRevealSignature, List.length_append, wData_length] at h1
    omega
  obtain ⟨x3, _, st3, _, _, r3, o3, a3, _⟩ := text_run (A := B) (c := c) hi (encoded_notFragment sK) pK (.inl ⟨rfl, meet.allow.2⟩) nA
    (header_ok pK nA rfl nB) (x := fun i => { i with ake := b2 })
    fun i h1 _ h4 _ => Instance.process_dhKey h1 (by
      rw [h4, ready.1]
      unfold handedAke
      rw [own]
      exact i3) sR lR
  refine ⟨r3, mR, tR, ⟨sR, o3⟩, pR, ?_, ?_⟩
  · rw [show inst _ A.tag = _ from a3]; exact ⟨_, _, _, _, e3'⟩
  · rw [show inst _ A.tag = _ from a3]; exact st3

/-- Alice, who revealed as well, refuses what Bob reveals. -/
theorem refuse3 {E : Env} {A B : Account} (allow : AllowsV3 A) (nA : A.tag ≠ 0) (nB : B.tag ≠ 0) {c : Call} {s : Session} (hi : Inv E s)
    {kp : DH.Keypair} {gy sec : Nat} {prev : RevealSignatureMessage} (own : (s.inst B.tag).ake = .awaitingSignature kp gy sec prev)
    {mR : RevealSignatureMessage} {tR : Bytes} (sR : serialize (.encoded ⟨.v3, B.tag, A.tag, .revealSignature mR⟩) = .ok tR)
    (pR : parse E tR = .ok (.encoded ⟨.v3, B.tag, A.tag, .revealSignature mR⟩)) :
    let e := (Op.receive tR).run E A c s
    e.result = .err AKE.eIgnored ∧ e.sent = [] ∧ (e.after.inst B.tag).state = (s.inst B.tag).state ∧
      (e.after.inst B.tag).ake = .awaitingSignature kp gy sec prev := by
  intro e
  obtain ⟨h1, h2, h3, h4, _⟩ := text_refused (A := A) (c := c) (err := AKE.eIgnored) hi (encoded_notFragment sR) pR (.inl ⟨rfl, allow⟩) nB (header_ok pR nB rfl nA)
    fun i h3 _ => by
      have : AKE.handleRevealSignature E c.keypair mR i.ake = (.err AKE.eIgnored, i.ake) := by
        rw [h3]
        show AKE.handleRevealSignature E c.keypair mR (s.inst B.tag).ake = (_, (s.inst B.tag).ake)
        rw [own]
        rfl
      simp only [Instance.process, StM.bind_run, StM.gets, Instance.onAke, this]
  exact ⟨h1, h2, h3, h4.trans own⟩

/-- C96 (OTRv3): Alice and Bob each get a query at the same time, and each message is sent as one text and delivered as it is.  Each client
answers the D-H Commit message of the other, then both go on with the exchange that they began, and each refuses the Reveal Signature message
of the other.  Nothing remains to be delivered, and no client has a session that it did not have before. -/
theorem C96_deadlock3 (E : Env) (A B : Account) (keyA keyB : DSAKeypair) (hA hB : List Ev) (sA sB : Session) (hhA : Hist E A hA sA)
    (hhB : Hist E B hB sB) (cA1 cB1 cA2 cB2 cA3 cB3 cA4 cB4 : Call) (meetA : CanMeet3 E A B keyA keyB cA2 cB1) (meetB : CanMeet3 E B A keyB keyA cB2 cA1)
    (readyA : Ready3 E keyA cA3) (readyB : Ready3 E keyB cB3)
    (q : Bytes) (vs : List Version) (hf : matchFragment q = false) (hq : parse E q = .ok (.query vs))
    (h3 : .v3 ∈ vs) (noA4 : ¬ (.v4 ∈ vs ∧ AllowsV4 A)) (noB4 : ¬ (.v4 ∈ vs ∧ AllowsV4 B))
    (idleA : NotAwaitingReveal (akeOf sA B.tag) ∧ ∀ kp r, akeOf sA B.tag ≠ .awaitingDHKey kp r)
    (idleB : NotAwaitingReveal (akeOf sB A.tag) ∧ ∀ kp r, akeOf sB A.tag ≠ .awaitingDHKey kp r) :
    let a1 := (Op.receive q).run E A cA1 sA
    let b1 := (Op.receive q).run E B cB1 sB
    a1.result = .ok (.user .none) ∧ b1.result = .ok (.user .none) ∧
    ∃ cmA cmB tA1 tB1, Sends a1 ⟨.v3, A.tag, 0, .dhCommit cmA⟩ tA1 ∧ Sends b1 ⟨.v3, B.tag, 0, .dhCommit cmB⟩ tB1 ∧
    let a2 := (Op.receive tB1).run E A cA2 a1.after
    let b2 := (Op.receive tA1).run E B cB2 b1.after
    a2.result = .ok (.user .none) ∧ b2.result = .ok (.user .none) ∧
    ∃ kyA kyB tA2 tB2, Sends a2 ⟨.v3, A.tag, B.tag, .dhKey kyA⟩ tA2 ∧ Sends b2 ⟨.v3, B.tag, A.tag, .dhKey kyB⟩ tB2 ∧
    let a3 := (Op.receive tB2).run E A cA3 a2.after
    let b3 := (Op.receive tA2).run E B cB3 b2.after
    a3.result = .ok (.user .none) ∧ b3.result = .ok (.user .none) ∧
    ∃ rvA rvB tA3 tB3, Sends a3 ⟨.v3, A.tag, B.tag, .revealSignature rvA⟩ tA3 ∧ Sends b3 ⟨.v3, B.tag, A.tag, .revealSignature rvB⟩ tB3 ∧
    let a4 := (Op.receive tB3).run E A cA4 a3.after
    let b4 := (Op.receive tA3).run E B cB4 b3.after
    a4.result = .err (.authenticationError .messageIgnored) ∧ b4.result = .err (.authenticationError .messageIgnored) ∧ a4.sent = [] ∧ b4.sent = [] ∧
    stateOf a4.after B.tag = stateOf sA B.tag ∧ stateOf b4.after A.tag = stateOf sB A.tag ∧
    (∃ kp gy s m, akeOf a4.after B.tag = .awaitingSignature kp gy s m) ∧ (∃ kp gy s m, akeOf b4.after A.tag = .awaitingSignature kp gy s m) ∧
    (∃ h, Hist E A h a4.after) ∧ ∃ h, Hist E B h b4.after := by
  have nA := tag_ne_zero meetA.tags.1
  have nB := tag_ne_zero meetA.tags.2
  rw [akeOf_inst] at idleA idleB
  intro a1 b1
  obtain ⟨ra1, tA1, sa1, pa1, own1, oth1⟩ := begin3 meetB (hist_inv hhA) hf hq h3 noA4
  obtain ⟨rb1, tB1, sb1, pb1, own2, oth2⟩ := begin3 meetA (hist_inv hhB) hf hq h3 noB4
  obtain ⟨_, hA1⟩ := hist_next hhA (e := a1) rfl (show a1.result ≠ _ by rw [show a1.result = _ from ra1]; nofun)
  obtain ⟨_, hB1⟩ := hist_next hhB (e := b1) rfl (show b1.result ≠ _ by rw [show b1.result = _ from rb1]; nofun)
  refine ⟨ra1, rb1, _, _, tA1, tB1, sa1, sb1, ?_⟩
  intro a2 b2
  obtain ⟨ra2, tA2, sa2, pa2, ow1, st1⟩ := answer3 meetA (hist_inv hA1) (by rw [show inst a1.after B.tag = _ from oth1 _ nB]; exact idleA) sb1.1 pb1
  obtain ⟨rb2, tB2, sb2, pb2, ow2, st2⟩ := answer3 meetB (hist_inv hB1) (by rw [show inst b1.after A.tag = _ from oth2 _ nA]; exact idleB) sa1.1 pa1
  obtain ⟨_, hA2⟩ := hist_next hA1 (e := a2) rfl (show a2.result ≠ _ by rw [show a2.result = _ from ra2]; nofun)
  obtain ⟨_, hB2⟩ := hist_next hB1 (e := b2) rfl (show b2.result ≠ _ by rw [show b2.result = _ from rb2]; nofun)
  refine ⟨ra2, rb2, _, _, tA2, tB2, sa2, sb2, ?_⟩
  intro a3 b3
  obtain ⟨ra3, rvA, tA3, sa3, pa3, ⟨_, _, _, _, w1⟩, st3⟩ := reveal3 meetB readyA (hist_inv hA2) ((cA1.rnd.sub 0).length_bytes [1] 16) (ow1.trans own1) sb2.1 pb2
  obtain ⟨rb3, rvB, tB3, sb3, pb3, ⟨_, _, _, _, w2⟩, st4⟩ := reveal3 meetA readyB (hist_inv hB2) ((cB1.rnd.sub 0).length_bytes [1] 16) (ow2.trans own2) sa2.1 pa2
  obtain ⟨_, hA3⟩ := hist_next hA2 (e := a3) rfl (show a3.result ≠ _ by rw [show a3.result = _ from ra3]; nofun)
  obtain ⟨_, hB3⟩ := hist_next hB2 (e := b3) rfl (show b3.result ≠ _ by rw [show b3.result = _ from rb3]; nofun)
  refine ⟨ra3, rb3, rvA, rvB, tA3, tB3, sa3, sb3, ?_⟩
  intro a4 b4
  obtain ⟨ra4, o1, st5, w3⟩ := refuse3 (c := cA4) meetA.allow.1 nA nB (hist_inv hA3) w1 sb3.1 pb3
  obtain ⟨rb4, o2, st6, w4⟩ := refuse3 (c := cB4) meetA.allow.2 nB nA (hist_inv hB3) w2 sa3.1 pa3
  have hA4 := hist_next hA3 (e := a4) rfl (show a4.result ≠ _ by rw [show a4.result = _ from ra4]; nofun)
  have hB4 := hist_next hB3 (e := b4) rfl (show b4.result ≠ _ by rw [show b4.result = _ from rb4]; nofun)
  refine ⟨ra4, rb4, o1, o2, ?_, ?_, ?_, ?_, hA4, hB4⟩
  · rw [stateOf_inst, stateOf_inst]
    exact st5.trans (st3.trans (st1.trans (by rw [oth1 _ nB])))
  · rw [stateOf_inst, stateOf_inst]
    exact st6.trans (st4.trans (st2.trans (by rw [oth2 _ nA])))
  · rw [akeOf_inst]; exact ⟨_, _, _, _, w3⟩
  · rw [akeOf_inst]; exact ⟨_, _, _, _, w4⟩

/-- C96, as far as it holds (OTRv3): a client that answered an exchange, began one and revealed (as after `C96_deadlock3`) completes the next
exchange that the other begins alone.  What is missing: that the offers that crossed lead to a session. -/
theorem C96_retry3_partial (E : Env) (A B : Account) (keyA keyB : DSAKeypair) (hA hB : List Ev) (sA sB : Session) (hhA : Hist E A hA sA)
    (hhB : Hist E B hB sB) (cB1 cA2 cB3 cA4 cB5 : Call) (meet : CanMeet3 E A B keyA keyB cA2 cB1) (ready3 : Ready3 E keyB cB3)
    (ready4 : Ready3 E keyA cA4) (q : Bytes) (vs : List Version) (hf : matchFragment q = false) (hq : parse E q = .ok (.query vs))
    (h3 : .v3 ∈ vs) (no4 : ¬ (.v4 ∈ vs ∧ AllowsV4 B)) (revealed : ∃ kp gy s m, akeOf sA B.tag = .awaitingSignature kp gy s m)
    (nA4 : NotV4 sA B.tag) (nB4 : NotV4 sB A.tag) :
    let e1 := (Op.receive q).run E B cB1 sB
    ∃ tC, e1.sent = [tC] ∧
    let e2 := (Op.receive tC).run E A cA2 sA
    ∃ tK, e2.sent = [tK] ∧
    let e3 := (Op.receive tK).run E B cB3 e1.after
    ∃ mR tR, Sends e3 ⟨.v3, B.tag, A.tag, .revealSignature mR⟩ tR ∧
    ((∃ b ∈ mR.sigMac, b ≠ 0) →
    let e4 := (Op.receive tR).run E A cA4 e2.after
    e4.result = .ok (.user (.sessionStarted B.tag)) ∧ ∃ mS tS, Sends e4 ⟨.v3, A.tag, B.tag, .signature mS⟩ tS ∧
    ((∃ b ∈ mS.sigMac, b ≠ 0) →
    let e5 := (Op.receive tS).run E B cB5 e3.after
    e5.result = .ok (.user (.sessionStarted A.tag)) ∧ e5.sent = [] ∧ Connected3 E A B (Either3 E) e4.after e5.after)) := by
  obtain ⟨kp, gy, s, m, hs⟩ := revealed
  obtain ⟨_, mC, tC, s1, _, mK, tK, s2, _, mR, tR, s3, h⟩ := C82_exchange3 E A B keyA keyB hA hB sA sB hhA hhB cB1 cA2 cB3 cA4 cB5 meet ready3
    ready4 q vs hf hq h3 no4 ⟨(by rw [hs]; intro _ _ _ h; cases h), (by rw [hs]; intro _ _ h; cases h)⟩ nA4 nB4
  refine ⟨tC, s1.2, tK, s2.2, mR, tR, s3, fun g => ?_⟩
  obtain ⟨r4, mS, tS, s4, h⟩ := h g
  exact ⟨r4, mS, tS, s4, fun g => ⟨(h g).1, (h g).2.1, (h g).2.2.1⟩⟩

/-! ## OTRv4 -/

/-- Bob begins. -/
theorem begin4 {E : Env} {A B : Account} {cA cB : Call} (meet : CanMeet4 E A B cA cB) {s : Session} (hi : Inv E s)
    {q : Bytes} {vs : List Version} (hf : matchFragment q = false) (hq : parse E q = .ok (.query vs)) (h4 : .v4 ∈ vs) (idle : (s.inst 0).dake = .initial) :
    let e := (Op.receive q).run E B cB s
    e.result = .ok (.user .none) ∧ ∃ mI st t, DAKE.initiate E (cB.dake B) (cB.rnd.sub 0) .initial = (.ok (.identity mI), .awaitingAuthR st) ∧
      Sends e ⟨.v4, B.tag, 0, .identity mI⟩ t ∧ parse E t = .ok (.encoded ⟨.v4, B.tag, 0, .identity mI⟩) ∧
      (e.after.inst 0).dake = .awaitingAuthR st ∧ ∀ k, k ≠ 0 → e.after.inst k = s.inst k := by
  intro e
  obtain ⟨PA, PB, pa, pb, partyA, partyB, d1, d2, d3, d4⟩ := meet.profiles
  obtain ⟨st, j1, j2⟩ := initiate_of (ownPayload_party meet.curve partyB) (cB.rnd.sub 0)
  have gB := meet.keysB
  have wI : WfMessage E (.identity st.message) := by
    rw [j2]
    exact ⟨partyB.wf, (generated_good meet.curve gB.ecdh).1.on, (valid_fits meet.group gB.dh).2, (generated_good meet.curve gB.ecdh0).1.on,
      (valid_fits meet.group gB.dh0).2⟩
  obtain ⟨tI, sI, pI⟩ := C03_transport E meet.curve ⟨.v4, B.tag, 0, .identity st.message⟩ (.inr meet.tags.2) (.inl rfl) rfl wI
  have lI : tI.length ≤ cB.messageSize := by
    refine identity_size meet.room.2 ?_ ?_ ?_ sI
    · rw [j2]; exact partyB.bytes
    · rw [j2]; exact (valid_fits meet.group gB.dh).1
    · rw [j2]; exact (valid_fits meet.group gB.dh0).1
  obtain ⟨r1, o1, a1, f1⟩ := offer4_run (c := cB) hi hf hq h4 meet.allow.2 (by rw [idle]; exact j1) sI lI
  exact ⟨r1, _, st, tI, j1, ⟨sI, o1⟩, pI, by rw [show inst e.after 0 = _ from a1], f1⟩

/-- Alice answers. -/
theorem answer4 {E : Env} {A B : Account} {cA cB : Call} (meet : CanMeet4 E A B cA cB) {s : Session} (hi : Inv E s)
    (idle : ∀ st, (s.inst B.tag).dake ≠ .awaitingAuthR st) {mI : IdentityMessage} {dB : DAKEState}
    (hI : DAKE.initiate E (cB.dake B) (cB.rnd.sub 0) .initial = (.ok (.identity mI), dB)) {tI : Bytes}
    (sI : serialize (.encoded ⟨.v4, B.tag, 0, .identity mI⟩) = .ok tI) (pI : parse E tI = .ok (.encoded ⟨.v4, B.tag, 0, .identity mI⟩)) :
    let e := (Op.receive tI).run E A cA s
    e.result = .ok (.user .none) ∧ ∃ mR dA t, DAKE.handleIdentity E (cA.dake A) mI (cA.rnd.sub 0) (s.inst B.tag).dake = (.ok (.authR mR), dA) ∧
      Sends e ⟨.v4, A.tag, B.tag, .authR mR⟩ t ∧
      (GoodProof E mR.sigma → parse E t = .ok (.encoded ⟨.v4, A.tag, B.tag, .authR mR⟩)) ∧ (e.after.inst 0).dake = (s.inst 0).dake := by
  intro e
  have nB := tag_ne_zero meet.tags.2
  obtain ⟨PA, PB, pa, pb, partyA, partyB, d1, d2, d3, d4⟩ := meet.profiles
  obtain ⟨mI', dB', i1, mR, dA, i2, -⟩ := C33_agree E meet.curve (cA.dake A) (cB.dake B) PA PB pa pb partyA partyB meet.names.1
    meet.names.2 (cB.rnd.sub 0) (cA.rnd.sub 0) (cB.rnd.sub 0) meet.keysB meet.keysA d1 d2 d3 d4 (s.inst B.tag).dake
    (fun st h => absurd h (idle st)) 0 0
  rw [hI] at i1
  cases i1
  obtain ⟨sg, j3⟩ := DAKE.handleIdentity_fields i2 (ownPayload_party meet.curve partyA)
  have gA := meet.keysA
  obtain ⟨tR, sR⟩ : ∃ tR, serialize (.encoded ⟨.v4, A.tag, B.tag, .authR mR⟩) = .ok tR := ⟨_, rfl⟩
  have lR : tR.length ≤ cA.messageSize := by
    refine authR_size meet.room.1 ?_ ?_ ?_ sR
    · rw [j3]; exact partyA.bytes
    · rw [j3]; exact (valid_fits meet.group gA.dh).1
    · rw [j3]; exact (valid_fits meet.group gA.dh0).1
  obtain ⟨x2, _, _, _, _, r2, o2, a2, f2⟩ := text_run (A := A) (c := cA) hi (encoded_notFragment sI) pI (.inr ⟨rfl, meet.allow.1⟩) nB
    (header_first pI nB rfl (.inl ⟨_, rfl⟩)) (x := fun i => { i with dake := dA })
    fun i h1 _ _ h5 => Instance.process_identity h1 (by rw [h5]; exact i2) sR lR
  obtain ⟨a, ha⟩ := f2 0 (Ne.symm nB)
  refine ⟨r2, mR, dA, tR, i2, ⟨sR, o2⟩, fun gR => ?_, by rw [show inst e.after 0 = _ from ha]⟩
  have wR : WfMessage E (.authR mR) := by
    have := gR.1
    rw [j3] at this ⊢
    exact ⟨partyA.wf, (generated_good meet.curve gA.ecdh).1.on, (valid_fits meet.group gA.dh).2, this, (generated_good meet.curve gA.ecdh0).1.on,
      (valid_fits meet.group gA.dh0).2⟩
  obtain ⟨tR', sR', pR⟩ := C03_transport E meet.curve ⟨.v4, A.tag, B.tag, .authR mR⟩ (.inr meet.tags.1) (.inr meet.tags.2) rfl wR
  rw [sR] at sR'
  cases sR'
  exact pR

/-- Bob completes the exchange that he began, and forgets the one that he answered. -/
theorem complete4 {E : Env} {A B : Account} {cA cB c : Call} (meet : CanMeet4 E A B cA cB) (same : c.dake B = cB.dake B) (room : Roomy E c)
    {s : Session} (hi : Inv E s) {mI : IdentityMessage} {st : AwaitingAuthR} {dA0 dA : DAKEState} {mR : AuthRMessage}
    (hI : DAKE.initiate E (cB.dake B) (cB.rnd.sub 0) .initial = (.ok (.identity mI), .awaitingAuthR st)) (idle : ∀ st, dA0 ≠ .awaitingAuthR st)
    (hR : DAKE.handleIdentity E (cA.dake A) mI (cA.rnd.sub 0) dA0 = (.ok (.authR mR), dA)) (gR : GoodProof E mR.sigma)
    (own : (s.inst 0).dake = .awaitingAuthR st) {tR : Bytes}
    (sR : serialize (.encoded ⟨.v4, A.tag, B.tag, .authR mR⟩) = .ok tR) (pR : parse E tR = .ok (.encoded ⟨.v4, A.tag, B.tag, .authR mR⟩)) :
    let e := (Op.receive tR).run E B c s
    e.result = .ok (.user (.sessionStarted A.tag)) ∧ ∃ mA mat t, DAKE.handleAuthR E (cB.dake B) mR (c.rnd.sub 0) c.now (.awaitingAuthR st) = (.ok (mat, .authI mA), .initial) ∧
      Sends e ⟨.v4, B.tag, A.tag, .authI mA⟩ t ∧ (GoodProof E mA.sigma → parse E t = .ok (.encoded ⟨.v4, B.tag, A.tag, .authI mA⟩)) ∧
      (e.after.inst A.tag).dake = .initial ∧ (e.after.inst A.tag).state = .encrypted4 ⟨B.tag, A.tag, mat.ratchet⟩ (SMP4.new mat.us mat.them mat.ssid) := by
  intro e
  have nA := tag_ne_zero meet.tags.1
  have nB := tag_ne_zero meet.tags.2
  obtain ⟨PA, PB, pa, pb, partyA, partyB, d1, d2, d3, d4⟩ := meet.profiles
  obtain ⟨mI', dB', i1, mR', dA', i2, rest⟩ := C33_agree E meet.curve (cA.dake A) (cB.dake B) PA PB pa pb partyA partyB meet.names.1
    meet.names.2 (cB.rnd.sub 0) (cA.rnd.sub 0) (c.rnd.sub 0) meet.keysB meet.keysA d1 d2 d3 d4 dA0
    (fun st h => absurd h (idle st)) 0 c.now
  rw [hI] at i1
  cases i1
  rw [hR] at i2
  cases i2
  obtain ⟨mat, mA, i3, -⟩ := rest gR.2
  obtain ⟨tA, sA⟩ : ∃ tA, serialize (.encoded ⟨.v4, B.tag, A.tag, .authI mA⟩) = .ok tA := ⟨_, rfl⟩
  have lA : tA.length ≤ c.messageSize := authI_size room sA
  obtain ⟨x3, _, _, _, _, r3, o3, a3, _⟩ := text_run (A := B) (c := c) hi (encoded_notFragment sR) pR (.inr ⟨rfl, meet.allow.2⟩) nA
    (header_ok pR nA rfl nB) (x := fun i => { i with dake := .initial, state := PState.secure4 B.tag A.tag mat })
    fun i h1 _ _ h5 => Instance.process_authR h1 (by
      rw [h5, same]
      unfold handedDake
      rw [own]
      exact i3) sA lA
  refine ⟨r3, mA, mat, tA, i3, ⟨sA, o3⟩, fun gI => ?_, by rw [show inst e.after A.tag = _ from a3], by rw [show inst e.after A.tag = _ from a3]; rfl⟩
  obtain ⟨tA', sA', pA⟩ := C03_transport E meet.curve ⟨.v4, B.tag, A.tag, .authI mA⟩ (.inr meet.tags.2) (.inr meet.tags.1) rfl gI.1
  rw [sA] at sA'
  cases sA'
  exact pA

/-- Alice, who completed her exchange, refuses the last message of Bob's. -/
theorem refuse4 {E : Env} {A B : Account} (allow : AllowsV4 A) (nA : A.tag ≠ 0) (nB : B.tag ≠ 0) {c : Call} {s : Session} (hi : Inv E s)
    (own : (s.inst B.tag).dake = .initial)
    {mA : AuthIMessage} {tA : Bytes} (sA : serialize (.encoded ⟨.v4, B.tag, A.tag, .authI mA⟩) = .ok tA)
    (pA : parse E tA = .ok (.encoded ⟨.v4, B.tag, A.tag, .authI mA⟩)) :
    let e := (Op.receive tA).run E A c s
    e.result = .err .incorrectState ∧ e.sent = [] ∧ (e.after.inst B.tag).state = (s.inst B.tag).state := by
  intro e
  obtain ⟨h1, h2, h3, _⟩ := text_refused (A := A) (c := c) (err := .incorrectState) hi (encoded_notFragment sA) pA (.inr ⟨rfl, allow⟩) nB (header_ok pA nB rfl nA)
    fun i _ h3 => by
      have : DAKE.handleAuthI E (c.dake A) mA c.now i.dake = (.err .incorrectState, i.dake) := by
        rw [h3]
        show DAKE.handleAuthI E (c.dake A) mA c.now (s.inst B.tag).dake = (_, (s.inst B.tag).dake)
        rw [own]
        rfl
      simp only [Instance.process, StM.bind_run, StM.gets, Instance.onDake, this]
  exact ⟨h1, h2, h3⟩

/-- C96 (OTRv4): Alice and Bob each get a query at the same time, and each message is sent as one text and delivered as it is.  Each client
answers the Identity message of the other, then both complete the exchange that they began, report a session, and refuse the Auth-I message of
the other.  So the session of each has the keys and the SSID of the exchange that it began itself, which the other forgot. -/
theorem C96_split4 (E : Env) (A B : Account) (hA hB : List Ev) (sA sB : Session) (hhA : Hist E A hA sA) (hhB : Hist E B hB sB)
    (cA1 cB1 cA2 cB2 cA3 cB3 cA4 cB4 : Call) (meetA : CanMeet4 E A B cA2 cB1) (meetB : CanMeet4 E B A cB2 cA1)
    (sameA : cA3.dake A = cA1.dake A) (sameB : cB3.dake B = cB1.dake B) (room : Roomy E cA3 ∧ Roomy E cB3)
    (q : Bytes) (vs : List Version) (hf : matchFragment q = false) (hq : parse E q = .ok (.query vs)) (h4 : .v4 ∈ vs)
    (idleA : dakeOf sA 0 = .initial ∧ ∀ st, dakeOf sA B.tag ≠ .awaitingAuthR st)
    (idleB : dakeOf sB 0 = .initial ∧ ∀ st, dakeOf sB A.tag ≠ .awaitingAuthR st) :
    let a1 := (Op.receive q).run E A cA1 sA
    let b1 := (Op.receive q).run E B cB1 sB
    a1.result = .ok (.user .none) ∧ b1.result = .ok (.user .none) ∧
    ∃ idA idB tA1 tB1 stA stB, DAKE.initiate E (cA1.dake A) (cA1.rnd.sub 0) .initial = (.ok (.identity idA), .awaitingAuthR stA) ∧
    DAKE.initiate E (cB1.dake B) (cB1.rnd.sub 0) .initial = (.ok (.identity idB), .awaitingAuthR stB) ∧
    Sends a1 ⟨.v4, A.tag, 0, .identity idA⟩ tA1 ∧ Sends b1 ⟨.v4, B.tag, 0, .identity idB⟩ tB1 ∧
    let a2 := (Op.receive tB1).run E A cA2 a1.after
    let b2 := (Op.receive tA1).run E B cB2 b1.after
    a2.result = .ok (.user .none) ∧ b2.result = .ok (.user .none) ∧
    ∃ rA rB tA2 tB2, Sends a2 ⟨.v4, A.tag, B.tag, .authR rA⟩ tA2 ∧ Sends b2 ⟨.v4, B.tag, A.tag, .authR rB⟩ tB2 ∧
    (GoodProof E rA.sigma → GoodProof E rB.sigma →
    let a3 := (Op.receive tB2).run E A cA3 a2.after
    let b3 := (Op.receive tA2).run E B cB3 b2.after
    a3.result = .ok (.user (.sessionStarted B.tag)) ∧ b3.result = .ok (.user (.sessionStarted A.tag)) ∧
    ∃ iA iB tA3 tB3 matA matB, Sends a3 ⟨.v4, A.tag, B.tag, .authI iA⟩ tA3 ∧ Sends b3 ⟨.v4, B.tag, A.tag, .authI iB⟩ tB3 ∧
    DAKE.handleAuthR E (cA1.dake A) rB (cA3.rnd.sub 0) cA3.now (.awaitingAuthR stA) = (.ok (matA, .authI iA), .initial) ∧
    DAKE.handleAuthR E (cB1.dake B) rA (cB3.rnd.sub 0) cB3.now (.awaitingAuthR stB) = (.ok (matB, .authI iB), .initial) ∧
    (GoodProof E iA.sigma → GoodProof E iB.sigma →
    let a4 := (Op.receive tB3).run E A cA4 a3.after
    let b4 := (Op.receive tA3).run E B cB4 b3.after
    a4.result = .err .incorrectState ∧ b4.result = .err .incorrectState ∧ a4.sent = [] ∧ b4.sent = [] ∧
    stateOf a4.after B.tag = .encrypted4 ⟨A.tag, B.tag, matA.ratchet⟩ (SMP4.new matA.us matA.them matA.ssid) ∧
    stateOf b4.after A.tag = .encrypted4 ⟨B.tag, A.tag, matB.ratchet⟩ (SMP4.new matB.us matB.them matB.ssid))) := by
  have nA := tag_ne_zero meetA.tags.1
  have nB := tag_ne_zero meetA.tags.2
  simp only [dakeOf_inst] at idleA idleB
  intro a1 b1
  obtain ⟨ra1, idA, stA, tA1, hIA, sa1, pa1, own1, oth1⟩ := begin4 meetB (hist_inv hhA) hf hq h4 idleA.1
  obtain ⟨rb1, idB, stB, tB1, hIB, sb1, pb1, own2, oth2⟩ := begin4 meetA (hist_inv hhB) hf hq h4 idleB.1
  obtain ⟨_, hA1⟩ := hist_next hhA (e := a1) rfl (show a1.result ≠ _ by rw [show a1.result = _ from ra1]; nofun)
  obtain ⟨_, hB1⟩ := hist_next hhB (e := b1) rfl (show b1.result ≠ _ by rw [show b1.result = _ from rb1]; nofun)
  refine ⟨ra1, rb1, idA, idB, tA1, tB1, stA, stB, hIA, hIB, sa1, sb1, ?_⟩
  intro a2 b2
  have n1 : ∀ st, (a1.after.inst B.tag).dake ≠ .awaitingAuthR st := by rw [show inst a1.after B.tag = _ from oth1 _ nB]; exact idleA.2
  have n2 : ∀ st, (b1.after.inst A.tag).dake ≠ .awaitingAuthR st := by rw [show inst b1.after A.tag = _ from oth2 _ nA]; exact idleB.2
  obtain ⟨ra2, rA, dA, tA2, hRA, sa2, pa2, ow1⟩ := answer4 meetA (hist_inv hA1) n1 hIB sb1.1 pb1
  obtain ⟨rb2, rB, dB, tB2, hRB, sb2, pb2, ow2⟩ := answer4 meetB (hist_inv hB1) n2 hIA sa1.1 pa1
  obtain ⟨_, hA2⟩ := hist_next hA1 (e := a2) rfl (show a2.result ≠ _ by rw [show a2.result = _ from ra2]; nofun)
  obtain ⟨_, hB2⟩ := hist_next hB1 (e := b2) rfl (show b2.result ≠ _ by rw [show b2.result = _ from rb2]; nofun)
  refine ⟨ra2, rb2, rA, rB, tA2, tB2, sa2, sb2, fun gA gB => ?_⟩
  intro a3 b3
  obtain ⟨ra3, iA, matA, tA3, hmA, sa3, pa3, w1, st1⟩ := complete4 meetB sameA room.1 (hist_inv hA2) hIA n2 hRB gB (ow1.trans own1) sb2.1 (pb2 gB)
  obtain ⟨rb3, iB, matB, tB3, hmB, sb3, pb3, w2, st2⟩ := complete4 meetA sameB room.2 (hist_inv hB2) hIB n1 hRA gA (ow2.trans own2) sa2.1 (pa2 gA)
  obtain ⟨_, hA3⟩ := hist_next hA2 (e := a3) rfl (show a3.result ≠ _ by rw [show a3.result = _ from ra3]; nofun)
  obtain ⟨_, hB3⟩ := hist_next hB2 (e := b3) rfl (show b3.result ≠ _ by rw [show b3.result = _ from rb3]; nofun)
  refine ⟨ra3, rb3, iA, iB, tA3, tB3, matA, matB, sa3, sb3, hmA, hmB, fun gA gB => ?_⟩
  intro a4 b4
  obtain ⟨ra4, o1, st5⟩ := refuse4 (c := cA4) meetA.allow.1 nA nB (hist_inv hA3) w1 sb3.1 (pb3 gB)
  obtain ⟨rb4, o2, st6⟩ := refuse4 (c := cB4) meetA.allow.2 nB nA (hist_inv hB3) w2 sa3.1 (pa3 gA)
  refine ⟨ra4, rb4, o1, o2, ?_, ?_⟩
  · rw [stateOf_inst]; exact st5.trans st1
  · rw [stateOf_inst]; exact st6.trans st2

/-! ## Witnesses -/

/-- C96 is violated (OTRv3): two new clients that can meet get a query at the same time; every text that a client sends is received by the other, and
at the end no text remains to be received, and no client has a session. -/
theorem C96_violated3 : ∃ (E : Env) (A B : Account) (keyA keyB : DSAKeypair) (q : Bytes) (cA1 cB1 cA2 cB2 cA3 cB3 cA4 cB4 : Call) (tA1 tB1 tA2 tB2 tA3 tB3 : Bytes),
    CanMeet3 E A B keyA keyB cA2 cB1 ∧ CanMeet3 E B A keyB keyA cB2 cA1 ∧ parse E q = .ok (.query [.v3]) ∧
    let a1 := (Op.receive q).run E A cA1 .new
    let b1 := (Op.receive q).run E B cB1 .new
    let a2 := (Op.receive tB1).run E A cA2 a1.after
    let b2 := (Op.receive tA1).run E B cB2 b1.after
    let a3 := (Op.receive tB2).run E A cA3 a2.after
    let b3 := (Op.receive tA2).run E B cB3 b2.after
    let a4 := (Op.receive tB3).run E A cA4 a3.after
    let b4 := (Op.receive tA3).run E B cB4 b3.after
    a1.sent = [tA1] ∧ b1.sent = [tB1] ∧ a2.sent = [tA2] ∧ b2.sent = [tB2] ∧ a3.sent = [tA3] ∧ b3.sent = [tB3] ∧ a4.sent = [] ∧ b4.sent = [] ∧
    (∃ h, Hist E A h a4.after) ∧ (∃ h, Hist E B h b4.after) ∧ stateOf a4.after B.tag = .plaintext ∧ stateOf b4.after A.tag = .plaintext := by
  obtain ⟨-, -, _, _, tA1, tB1, sa1, sb1, -, -, _, _, tA2, tB2, sa2, sb2, -, -, _, _, tA3, tB3, sa3, sb3, -, -, oa, ob, stA, stB, -, -, hA, hB⟩ :=
    C96_deadlock3 ToySession.tinyEnv ToySession.acA ToySession.acB ToyAke.alice ToyAke.bob [] [] .new .new .new .new
    (ToySession.callA 1000 11) (ToySession.callB 1000 12) (ToySession.callA 1000 13) (ToySession.callB 1000 14) (ToySession.callA 1000 15)
    (ToySession.callB 1000 16) (ToySession.callA 1000 17) (ToySession.callB 1000 18) ToySession.cross_meetA ToySession.cross_meetB
    (ToySession.readyA 15) (ToySession.readyB 16) ToySession.query3 [.v3] ToySession.runTalk3.2.2.2.1 ToySession.runTalk3.2.2.2.2.1 (by simp)
    (by simp) (by simp) ⟨(fun _ _ _ h => by cases h), (fun _ _ h => by cases h)⟩ ⟨(fun _ _ _ h => by cases h), (fun _ _ h => by cases h)⟩
  exact ⟨_, _, _, _, _, _, _, _, _, _, _, _, _, _, tA1, tB1, tA2, tB2, tA3, tB3, ToySession.cross_meetA, ToySession.cross_meetB, ToySession.runTalk3.2.2.2.2.1,
    sa1.2, sb1.2, sa2.2, sb2.2, sa3.2, sb3.2, oa, ob, hA, hB, stA, stB⟩

open ToySession in
/-- C96 is violated (OTRv4): two new clients that can meet get a query at the same time; every text that a client sends is received by the other.
Both report a session, but the sessions have different SSIDs, and what Alice sends then is unreadable for Bob. -/
theorem C96_violated4 : ∃ (E : Env) (A B : Account) (q : Bytes) (cA1 cB1 cA2 cB2 cA3 cB3 cA4 cB4 cA5 cB6 : Call) (tA1 tB1 tA2 tB2 tA3 tB3 text : Bytes),
    CanMeet4 E A B cA2 cB1 ∧ CanMeet4 E B A cB2 cA1 ∧
    let a1 := (Op.receive q).run E A cA1 .new
    let b1 := (Op.receive q).run E B cB1 .new
    let a2 := (Op.receive tB1).run E A cA2 a1.after
    let b2 := (Op.receive tA1).run E B cB2 b1.after
    let a3 := (Op.receive tB2).run E A cA3 a2.after
    let b3 := (Op.receive tA2).run E B cB3 b2.after
    let a4 := (Op.receive tB3).run E A cA4 a3.after
    let b4 := (Op.receive tA3).run E B cB4 b3.after
    let a5 := (Op.send B.tag [104, 105]).run E A cA5 a4.after
    let b6 := (Op.receive text).run E B cB6 b4.after
    a1.sent = [tA1] ∧ b1.sent = [tB1] ∧ a2.sent = [tA2] ∧ b2.sent = [tB2] ∧ a3.sent = [tA3] ∧ b3.sent = [tB3] ∧ a4.sent = [] ∧ b4.sent = [] ∧
    a3.result = .ok (.user (.sessionStarted B.tag)) ∧ b3.result = .ok (.user (.sessionStarted A.tag)) ∧
    Session.ssid a4.after B.tag ≠ Session.ssid b4.after A.tag ∧
    a5.result = .ok (.texts [text]) ∧ b6.result = .err (.unreadableMessage A.tag) := by
  obtain ⟨⟨s1, s2, s3, s4, s5, s6, s7, s8⟩, ⟨-, -, -, -, r5, r6, -, -⟩, hs, r7, r8, -⟩ := runCross4
  have e1 : (Op.receive query4).run tinyEnv acA (meetA 5000 46) .new = xA1 := by unfold xA1; rfl
  have f1 : (Op.receive query4).run tinyEnv acB (meetB 5000 47) .new = xB1 := by unfold xB1; rfl
  have e2 : (Op.receive (msg xB1)).run tinyEnv acA (meetA 5000 48) xA1.after = xA2 := by unfold xA2; rfl
  have f2 : (Op.receive (msg xA1)).run tinyEnv acB (meetB 5000 49) xB1.after = xB2 := by unfold xB2; rfl
  have e3 : (Op.receive (msg xB2)).run tinyEnv acA (meetA 5000 50) xA2.after = xA3 := by unfold xA3; rfl
  have f3 : (Op.receive (msg xA2)).run tinyEnv acB (meetB 5000 51) xB2.after = xB3 := by unfold xB3; rfl
  have e4 : (Op.receive (msg xB3)).run tinyEnv acA (meetA 5000 52) xA3.after = xA4 := by unfold xA4; rfl
  have f4 : (Op.receive (msg xA3)).run tinyEnv acB (meetB 5000 53) xB3.after = xB4 := by unfold xB4; rfl
  have e5 : (Op.send acB.tag [104, 105]).run tinyEnv acA (meetA 5000 54) xA4.after = xA5 := by unfold xA5; rfl
  have f6 : (Op.receive (ToySession.text xA5)).run tinyEnv acB (meetB 5000 55) xB4.after = xB6 := by unfold xB6; rfl
  refine ⟨tinyEnv, acA, acB, query4, meetA 5000 46, meetB 5000 47, meetA 5000 48, meetB 5000 49, meetA 5000 50, meetB 5000 51, meetA 5000 52, meetB 5000 53,
    meetA 5000 54, meetB 5000 55, msg xA1, msg xB1, msg xA2, msg xB2, msg xA3, msg xB3, ToySession.text xA5, cross4_meetA, cross4_meetB, ?_⟩
  dsimp only
  rw [e1, f1, e2, f2, e3, f3, e4, f4, e5, f6]
  exact ⟨s1, s2, s3, s4, s5, s6, s7, s8, r5, r6, hs, r7, r8⟩

open ToySession in
/-- C69 does not hold when the Identity message that the winner repeats arrives.  There are two new clients that begin an OTRv4 exchange with the
instance of the other at the same time, each message is sent as one text, and all are delivered, in order.  Bob repeats his Identity message,
and Alice answers it twice (`C69_repeat`).  At the end nothing remains to be delivered, Bob has reported a session and has one, and Alice has none. -/
theorem C69_violated : ∃ (E : Env) (A B : Account) (cA1 cB1 cA2 cB2 cA3 cB3 cA4 cB4 : Call) (tA1 tB1 tA2 tA3 tB3 : Bytes),
    CanMeet4 E A B cA2 cB1 ∧ CanMeet4 E B A cB2 cA1 ∧
    let a1 := (Op.initiate .v4 B.tag).run E A cA1 .new
    let b1 := (Op.initiate .v4 A.tag).run E B cB1 .new
    let a2 := (Op.receive tB1).run E A cA2 a1.after
    let b2 := (Op.receive tA1).run E B cB2 b1.after
    let a3 := (Op.receive tB1).run E A cA3 a2.after
    let b3 := (Op.receive tA2).run E B cB3 b2.after
    let a4 := (Op.receive tB3).run E A cA4 a3.after
    let b4 := (Op.receive tA3).run E B cB4 b3.after
    a1.sent = [tA1] ∧ b1.sent = [tB1] ∧ a2.sent = [tA2] ∧ b2.sent = [tB1] ∧ a3.sent = [tA3] ∧ b3.sent = [tB3] ∧ a4.sent = [] ∧ b4.sent = [] ∧
    b3.result = .ok (.user (.sessionStarted A.tag)) ∧ a4.result = .err .cryptographicViolation ∧
    a4.after.status B.tag = some .plaintext ∧ b4.after.status A.tag = some .encrypted := by
  obtain ⟨⟨s1, s2, s3, s4, s5, s6, s7, s8⟩, ⟨r1, r2, -⟩, hA, hB, hm, -⟩ := runDirect4
  rw [hm] at s4
  have e1 : (Op.initiate .v4 acB.tag).run tinyEnv acA (meetA 5000 46) .new = wA1 := by unfold wA1; rfl
  have f1 : (Op.initiate .v4 acA.tag).run tinyEnv acB (meetB 5000 47) .new = wB1 := by unfold wB1; rfl
  have e2 : (Op.receive (msg wB1)).run tinyEnv acA (meetA 5000 48) wA1.after = wA2 := by unfold wA2; rfl
  have f2 : (Op.receive (msg wA1)).run tinyEnv acB (meetB 5000 49) wB1.after = wB2 := by unfold wB2; rfl
  have e3 : (Op.receive (msg wB1)).run tinyEnv acA (meetA 5000 50) wA2.after = wA3 := by rw [← hm]; unfold wA3; rfl
  have f3 : (Op.receive (msg wA2)).run tinyEnv acB (meetB 5000 51) wB2.after = wB3 := by unfold wB3; rfl
  have e4 : (Op.receive (msg wB3)).run tinyEnv acA (meetA 5000 52) wA3.after = wA4 := by unfold wA4; rfl
  have f4 : (Op.receive (msg wA3)).run tinyEnv acB (meetB 5000 53) wB3.after = wB4 := by unfold wB4; rfl
  refine ⟨tinyEnv, acA, acB, meetA 5000 46, meetB 5000 47, meetA 5000 48, meetB 5000 49, meetA 5000 50, meetB 5000 51, meetA 5000 52, meetB 5000 53,
    msg wA1, msg wB1, msg wA2, msg wA3, msg wB3, cross4_meetA, cross4_meetB, ?_⟩
  dsimp only
  rw [e1, f1, e2, f2, e3, f3, e4, f4]
  exact ⟨s1, s2, s3, s4, s5, s6, s7, s8, r1, r2, hA, hB⟩

/-- The hypotheses of `C96_retry3_partial` hold after the offers of the two clients crossed. -/
example : ∃ (sA sB : Session) (hA hB : List Ev), Hist ToySession.tinyEnv ToySession.acA hA sA ∧ Hist ToySession.tinyEnv ToySession.acB hB sB ∧
    (∃ kp gy s m, akeOf sA ToySession.acB.tag = .awaitingSignature kp gy s m) ∧ NotV4 sA ToySession.acB.tag ∧ NotV4 sB ToySession.acA.tag ∧
    CanMeet3 ToySession.tinyEnv ToySession.acA ToySession.acB ToyAke.alice ToyAke.bob (ToySession.callA 1000 2) (ToySession.callB 1000 1) := by
  obtain ⟨-, -, _, _, tA1, tB1, -, -, -, -, _, _, tA2, tB2, -, -, -, -, _, _, tA3, tB3, -, -, -, -, -, -, stA, stB, w, -, ⟨hA, hhA⟩, hB, hhB⟩ :=
    C96_deadlock3 ToySession.tinyEnv ToySession.acA ToySession.acB ToyAke.alice ToyAke.bob [] [] .new .new .new .new
    (ToySession.callA 1000 11) (ToySession.callB 1000 12) (ToySession.callA 1000 13) (ToySession.callB 1000 14) (ToySession.callA 1000 15)
    (ToySession.callB 1000 16) (ToySession.callA 1000 17) (ToySession.callB 1000 18) ToySession.cross_meetA ToySession.cross_meetB
    (ToySession.readyA 15) (ToySession.readyB 16) ToySession.query3 [.v3] ToySession.runTalk3.2.2.2.1 ToySession.runTalk3.2.2.2.2.1 (by simp)
    (by simp) (by simp) ⟨(fun _ _ _ h => by cases h), (fun _ _ h => by cases h)⟩ ⟨(fun _ _ _ h => by cases h), (fun _ _ h => by cases h)⟩
  exact ⟨_, _, hA, hB, hhA, hhB, w, (fun _ _ h => by rw [stA] at h; cases h), (fun _ _ h => by rw [stB] at h; cases h), ToySession.toy_meet3⟩

open ToySession in
/-- The hypotheses of `C96_split4` hold for two new clients, and the ring signatures of their messages are good. -/
example : CanMeet4 tinyEnv acA acB (meetA 5000 48) (meetB 5000 47) ∧ CanMeet4 tinyEnv acB acA (meetB 5000 49) (meetA 5000 46) ∧
    (meetA 5000 50).dake acA = (meetA 5000 46).dake acA ∧ (meetB 5000 51).dake acB = (meetB 5000 47).dake acB ∧
    (Roomy tinyEnv (meetA 5000 50) ∧ Roomy tinyEnv (meetB 5000 51)) ∧ matchFragment query4 = false ∧ parse tinyEnv query4 = .ok (.query [.v4]) ∧
    (dakeOf .new 0 = .initial ∧ ∀ st, dakeOf .new acB.tag ≠ .awaitingAuthR st) ∧
    (goodRing (parse tinyEnv (msg xA2)) = true ∧ goodRing (parse tinyEnv (msg xB2)) = true ∧ goodRing (parse tinyEnv (msg xA3)) = true ∧
      goodRing (parse tinyEnv (msg xB3)) = true) :=
  ⟨cross4_meetA, cross4_meetB, by simp only [meetA, callA, Call.dake], by simp only [meetB, callB, Call.dake], ⟨roomyA 50, roomyB 51⟩, by decide +kernel,
    by decide +kernel, ⟨rfl, fun st h => by cases h⟩, runCross4.2.2.2.2.2⟩

end Otrr.Props
