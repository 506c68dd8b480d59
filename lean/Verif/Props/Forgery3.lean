import Verif.Spec.Forgery3
import Verif.Props.LastReveal
import Verif.Props.SessionExchange3
import Verif.Props.Schedule
/-! C109: with OTRv3, messages can be forged with the keys that a client publishes; with OTRv4, these keys are not used any more. -/

namespace Otrr.Props
open Otrr Otrr.Spec Otrr.Session KeyManager
open scoped List

theorem beNat_initial : beNat COUNTER_INITIAL = 0 := by decide

theorem afterAccept_reuse {E : Env} {k : KeyManager} {m : DataMessage} {mac fresh : Bytes} (hk : k.WF) (hlen : mac.length = 20)
    (hlt : m.senderKeyid.toNat < 4294967295) (hw : k.theirs.id.toNat = m.senderKeyid.toNat + 1 ∨ k.theirs.id = m.senderKeyid)
    (hsame : k.theirs.id.toNat = m.senderKeyid.toNat + 1 → k.theirs.keys.get k.theirs.id = m.dhY)
    (hnew : m.senderKeyid = k.theirs.id ∨ m.receiverKeyid ≠ k.ours.acknowledged) :
    let k' := k.afterAccept E m mac fresh
    k'.ours.acknowledged = m.receiverKeyid ∧ k'.ours.keys.get m.receiverKeyid = k.ours.keys.get m.receiverKeyid ∧
    k'.theirs.id.toNat = m.senderKeyid.toNat + 1 ∧ k'.theirs.keys.get m.senderKeyid = k.theirs.keys.get m.senderKeyid ∧
    k'.theirs.keys.get k'.theirs.id = m.dhY ∧ k'.theirCtr = COUNTER_INITIAL ∧ KeyIn 20 mac k'.oldMacs := by
  have hn : (m.senderKeyid + 1).toNat = m.senderKeyid.toNat + 1 := (incId_of_lt hlt).2
  have hu := (WF.useMac hk hlen).used
  have hmem := mem_useMac k mac
  have ho := useMac_ours k mac
  have ht := useMac_theirs k mac
  simp only [KeyManager.afterAccept]
  generalize k.useMac mac = k1 at *
  obtain ⟨a1, a2, a3, a4, a5, a6⟩ := pending_ack (G := E.dh) (k := k1.seeCtr m.ctr) hu m.receiverKeyid fresh
  have a7 : ((k1.seeCtr m.ctr).ackStep E.dh m.receiverKeyid fresh).theirs = k.theirs := by rw [ackStep_theirs]; exact ht
  have a8 : m.receiverKeyid ≠ k.ours.acknowledged → ((k1.seeCtr m.ctr).ackStep E.dh m.receiverKeyid fresh).theirCtr = COUNTER_INITIAL := fun h => by
    unfold KeyManager.ackStep
    rw [if_neg (by show m.receiverKeyid ≠ k1.ours.acknowledged; rw [ho]; exact h)]
    rfl
  have a9 : m.receiverKeyid ≠ k.ours.acknowledged → KeyIn 20 mac ((k1.seeCtr m.ctr).ackStep E.dh m.receiverKeyid fresh).oldMacs := fun h => by
    rcases a2 with ⟨_, b⟩ | ⟨_, b⟩
    · exact absurd (b.trans (by show k1.ours.acknowledged = _; rw [ho])) h
    · exact b mac hmem
  generalize (k1.seeCtr m.ctr).ackStep E.dh m.receiverKeyid fresh = k2 at *
  have a6' : k2.ours.keys.get m.receiverKeyid = k.ours.keys.get m.receiverKeyid := by rw [a6]; show k1.ours.keys.get _ = _; rw [ho]
  rw [regStep_ours]
  refine ⟨a5, a6', ?_⟩
  by_cases he : k.theirs.id = m.senderKeyid + 1
  · have hid : k.theirs.id.toNat = m.senderKeyid.toNat + 1 := by rw [he]; exact hn
    have hr : m.receiverKeyid ≠ k.ours.acknowledged := hnew.resolve_left fun e => by rw [← e] at hid; omega
    have : k2.regStep (m.senderKeyid + 1) m.dhY = k2 := by unfold KeyManager.regStep; rw [if_pos (by rw [a7]; exact he)]
    rw [this, a7]
    exact ⟨hid, rfl, hsame hid, a8 hr, a9 hr⟩
  · have hs : k.theirs.id = m.senderKeyid := hw.resolve_left fun h => he (UInt32.toNat_inj.mp (by rw [hn]; exact h))
    have e2 : k2.theirs.id = m.senderKeyid := by rw [a7]; exact hs
    obtain ⟨c1, c2⟩ := pending_reg a4 (m.senderKeyid + 1) m.dhY
    rcases c2 with ⟨_, d2⟩ | ⟨_, d2, d3, d4⟩
    · exact absurd (by rw [← a7]; exact d2) he
    · rw [d3]
      refine ⟨hn, ?_, ?_, ?_, ?_⟩
      · rw [e2] at d4
        rw [d4, a7]
      · unfold KeyManager.regStep
        rw [if_neg (by rw [a7]; exact he)]
        show (k2.theirs.keys.setNext k2.theirs.id m.dhY).get _ = _
        rw [e2, slots_get_succ _ hn, slots_getNext_setNext]
      · unfold KeyManager.regStep
        rw [if_neg (by rw [a7]; exact he)]
        rfl
      · rcases a3 mac hmem with h | h
        · exact d2 mac h
        · exact c1 mac h

/-- C109 does not hold with OTRv3.  A client accepted a message that used a key of the peer, or named a key of the client, for the first time,
and then sent any message.  The latter publishes the MAC key of the former, and the client still accepts messages under this key.  So anyone who
recorded both and knows the text of the first can write, without any other secret, a message with any other text of the same length: the
client decrypts it and reports this text. -/
theorem C109_violated_general (E : Env) (s₀ s s' s'' : Enc3) (h : List Ev3) (m n : DataMessage) (snd rcv : UInt32) (fresh text plain : Bytes)
    (tlvs : List TLV) (last : Bool) (flags : UInt8) (hf : Fresh3 E s₀) (hl : Life3 E s₀ h s) (hm : Decoded m)
    (hnew : m.senderKeyid = s.keys.theirs.id ∨ m.receiverKeyid ≠ s.keys.ours.acknowledged)
    (ha : Enc3.handle E m (authenticatorData 3 snd rcv m) fresh s = (.ok (.confidential text tlvs, last), s'))
    (hs : Enc3.encrypt E flags plain s' = (.ok n, s'')) :
    ∃ mac, KeyIn 20 mac n.revealed ∧ ∀ text' fresh' : Bytes, text'.length = text.length → (∀ b ∈ text', b ≠ 0) →
      (∃ b ∈ (forge3 E mac snd rcv m text text').authenticator, b ≠ 0) →
      ∃ t, Enc3.handle E (forge3 E mac snd rcv m text text') (authenticatorData 3 snd rcv (forge3 E mac snd rcv m text text')) fresh' s'' =
        (.ok (.confidential text' tlvs, false), t) := by
  have hk := life3_wf (fresh3_wf hf).1 hl
  obtain ⟨rfl, pl, k, h1, h2, rfl⟩ := handle3_ok.mp ha
  obtain ⟨sec, a1, a2, a3, a4, a5, a6, a7, a8, a9, a10, a11, a12, a13, a14⟩ := (decrypt3_ok hk.theirCtr hm.2.2).mp h1
  obtain ⟨rest, b1, b2⟩ := parse_retext h2
  obtain ⟨e1, _⟩ := encrypt_keys hs
  obtain ⟨_, _, _, _, hn, _, _, _, hk2⟩ := encrypt3_ok e1
  obtain ⟨c1, c2, c3, c4, c5, c6, c7⟩ := afterAccept_reuse (E := E) (fresh := fresh) hk (hmac_len (E := E) sec) a10 a4 a12 hnew
  simp only at e1 hn hk2
  rw [← a14] at c1 c2 c3 c4 c5 c6 c7
  refine ⟨sec.receiverMac E, by rw [show n.revealed = k.oldMacs by rw [hn]; rfl]; exact c7, fun text' fresh' hlen hz hnz => ?_⟩
  have hctr : s''.keys.theirCtr.length = 8 := by rw [hk2]; show k.theirCtr.length = 8; rw [c6]; rfl
  have hid : k.theirs.id ≠ 0 := fun e => by rw [e] at c3; exact absurd c3 (by show ¬ 0 = _; omega)
  refine ⟨_, handle3_ok.mpr ⟨rfl, text' ++ rest, _, (decrypt3_ok hctr
    (m := forge3 E (sec.receiverMac E) snd rcv m text text') hm.2.2).mpr ⟨sec, a1, a2, ?_, ?_, ?_, ?_, rfl, anyNonzero_of_mem hnz, ?_, a10, a11, ?_, ?_, rfl⟩,
    b2 text' hz, rfl⟩⟩
  · rw [hk2]; exact hid
  · rw [hk2]; exact .inl c3
  · rw [hk2]; exact .inl c1
  · rw [hk2]
    show dataSecrets E (k.ours.keys.get m.receiverKeyid) (k.theirs.keys.get m.senderKeyid) = _
    rw [c2, c4]; exact a6
  · rw [hk2]
    show beNat k.theirCtr < beNat m.ctr
    rw [c6, beNat_initial]
    omega
  · rw [hk2]; exact fun _ => c5
  · exact (xorStream_retext (a13.symm.trans b1) hlen).symm

section
open Toy3

/-- The message `hi`, and the message with the text `by` that someone wrote with the key in the reply to `hi`. -/
@[irreducible] def forgedBy : DataMessage := forge3 toyEnv n2.revealed a2.our b0.our m1 [104, 105] [98, 121]

theorem forged_steps : Enc3.encrypt toyEnv 0 [111, 107] b1 = (.ok n2, d1) ∧ m1.senderKeyid = b0.keys.theirs.id ∧
    (∃ b ∈ forgedBy.authenticator, b ≠ 0) ∧
    Enc3.handle toyEnv forgedBy (authenticatorData 3 a2.our b0.our forgedBy) [8] d1 =
      (.ok (.confidential [98, 121] [], false), (Enc3.handle toyEnv forgedBy (authenticatorData 3 a2.our b0.our forgedBy) [8] d1).2) := by
  decide +kernel

/-- C109 does not hold with OTRv3: a client accepts the message `hi` of its peer, replies, and accepts the message `by` that somebody wrote
with what they saw on the network, and knowing the text `hi`. -/
theorem C109_violated : ∃ (E : Env) (s₀ s t : Enc3) (snd rcv : UInt32) (m n : DataMessage) (text text' fresh : Bytes),
    Fresh3 E s₀ ∧ Life3 E s₀ [.got m (authenticatorData 3 snd rcv m) (.ok (.confidential text [], false)), .sent n] s ∧ text' ≠ text ∧
    Enc3.handle E (forge3 E n.revealed snd rcv m text text') (authenticatorData 3 snd rcv (forge3 E n.revealed snd rcv m text text')) fresh s =
      (.ok (.confidential text' [], false), t) := by
  have h := forged_steps
  unfold forgedBy at h
  exact ⟨toyEnv, b0, d1, _, a2.our, b0.our, m1, n2, [104, 105], [98, 121], [8], fresh_b0,
    .send (.recv .start decoded_m1 rcv_m1 (by simp)) h.1, by decide, h.2.2.2⟩

/-- `C109_violated_general` applies to this case. -/
example : ∃ mac, KeyIn 20 mac n2.revealed ∧ ∀ text' fresh' : Bytes, text'.length = 2 → (∀ b ∈ text', b ≠ 0) →
    (∃ b ∈ (forge3 toyEnv mac a2.our b0.our m1 [104, 105] text').authenticator, b ≠ 0) →
    ∃ t, Enc3.handle toyEnv (forge3 toyEnv mac a2.our b0.our m1 [104, 105] text')
      (authenticatorData 3 a2.our b0.our (forge3 toyEnv mac a2.our b0.our m1 [104, 105] text')) fresh' d1 = (.ok (.confidential text' [], false), t) :=
  C109_violated_general toyEnv b0 b0 b1 d1 [] m1 n2 a2.our b0.our [7] [104, 105] [111, 107] [] false 0 fresh_b0 .start decoded_m1
    (.inl forged_steps.2.1) rcv_m1 forged_steps.1
end

namespace ToyForge3
open ToySession ToyTalk3

@[irreducible] def forged : Bytes := (forgeFromWire tinyEnv (text y6) (text z8) [104, 105] [98, 121]).getD []

theorem run : y6.result = .ok (.texts [text y6]) ∧ z7.result = .ok (.user (.confidential acA.tag [104, 105] [])) ∧
    z8.result = .ok (.texts [text z8]) ∧ forgeFromWire tinyEnv (text y6) (text z8) [104, 105] [98, 121] = some forged ∧
    ((Op.receive forged).run tinyEnv acB (callB 1000 13) z8.after).result = .ok (.user (.confidential acA.tag [98, 121] [])) := by
  decide +kernel

end ToyForge3

/-- C109 does not hold with OTRv3, told by calls: two clients completed the key exchange.  Alice sends a text, Bob reads it and replies.  Somebody
who saw both messages and knows the text of the first writes a message, and Bob reads another text as one of Alice. -/
theorem C109_violated_session : ∃ (E : Env) (A B : Account) (hA hB : List Ev) (sA sB : Session) (c c' c'' c''' : Call)
    (text text' content wire reply forged : Bytes), Hist E A hA sA ∧ Hist E B hB sB ∧ Connected3 E A B (Either3 E) sA sB ∧
    ((Op.send B.tag text).run E A c sA).result = .ok (.texts [wire]) ∧
    let e := (Op.receive wire).run E B c' sB
    e.result = .ok (.user (.confidential A.tag text [])) ∧
    let e' := (Op.send A.tag content).run E B c'' e.after
    e'.result = .ok (.texts [reply]) ∧ forgeFromWire E wire reply text text' = some forged ∧ text' ≠ text ∧
    ((Op.receive forged).run E B c''' e'.after).result = .ok (.user (.confidential A.tag text' [])) := by
  obtain ⟨hA, h1⟩ := ToySession.hist_a4
  obtain ⟨hB, h2⟩ := ToySession.hist_b5
  obtain ⟨r1, r2, r3, r4, r5⟩ := ToyForge3.run
  have e6 : (Op.send ToySession.acB.tag [104, 105]).run ToySession.tinyEnv ToySession.acA (ToySession.callA 1000 6) ToySession.a4.after =
    ToySession.y6 := by unfold ToySession.y6; rfl
  have e7 : (Op.receive (ToySession.text ToySession.y6)).run ToySession.tinyEnv ToySession.acB (ToySession.callB 1000 7) ToySession.b5.after =
    ToySession.z7 := by unfold ToySession.z7; rfl
  have e8 : (Op.send ToySession.acA.tag [111, 107]).run ToySession.tinyEnv ToySession.acB (ToySession.callB 1000 10) ToySession.z7.after =
    ToySession.z8 := by unfold ToySession.z8; rfl
  refine ⟨_, _, _, hA, hB, _, _, ToySession.callA 1000 6, ToySession.callB 1000 7, ToySession.callB 1000 10, ToySession.callB 1000 13, [104, 105], [98, 121],
    [111, 107], _, ToySession.text ToySession.z8, ToyForge3.forged, h1, h2, ToyTalk3.connected, by rw [e6]; exact r1, ?_⟩
  simp only [e7, e8]
  exact ⟨r2, r3, r4, by decide, r5⟩

/-- C109, OTRv4: whatever a session sent and accepted, a message that it accepts next is authenticated with the MAC key of a position that is
not the one of any message before; the published keys are keys of such messages, and so, if there is no collision, not this key. -/
theorem C109_otr4 (E : Env) (k : Bytes) (s₀ s s' : Enc4) (us : List Use4) (m : DataMessage4) (ad : Bytes) (now : Nat) (r : Res (PMessage × Bool))
    (hf : FreshFrom E k s₀) (hl : Log4 E s₀ us s) (ha : Enc4.handle E m ad now s = (r, s')) (hnp : r ≠ .panic)
    (hnu : ∀ t, r ≠ .err (.unreadableMessage t)) :
    ∃ ks ps p, List.Forall₂ (KeyedAt E k ks s₀) us ps ∧ KeyedAt E k ks s₀ (.read m ad r) p ∧
      revealedBy us <+: ((readAt us ps).map (macKey E k ks)).flatten ∧
      ∀ J, (∀ q ∈ p :: ps, q.2 ≤ J) → NoCollision E (hashed E k ks J) → macKey E k ks p ∉ ps.map (macKey E k ks) := by
  obtain ⟨ks, ps, L⟩ := logged hf hl
  obtain ⟨ext, p, L', _⟩ := L.read ha hnp hnu
  have hk := L'.keyed
  refine ⟨ks ++ ext, ps, p, keyed_append ext L.keyed L.bound, ?_, ?_, fun J hJ hn => ?_⟩
  · rw [← List.forall₂_reverse_iff] at hk
    simp only [List.reverse_append, List.reverse_cons, List.reverse_nil, List.nil_append, List.cons_append] at hk
    cases hk with
    | cons h _ => exact h
  · rw [map_macKey_append fun p hp => L.bound p (readAt_sub.subset hp)]
    exact ⟨_, L.reveals⟩
  · have := (positions_distinct L'.distinct L'.bound (fun q hq => hJ q (by simpa [or_comm] using hq)) hn).2
    rw [List.map_append, List.nodup_append] at this
    exact fun hm => this.2.2 _ hm _ (by simp) rfl

/-- Whatever calls a client made, `C109_otr4` applies to each session that it has with OTRv4. -/
theorem C109_otr4_session (E : Env) (A : Account) (h : List Ev) (s : Session) (hh : Hist E A h s) (tag : UInt32) (x : Enc4) (smp : SMP4Context)
    (hs : stateOf s tag = .encrypted4 x smp) (m : DataMessage4) (ad : Bytes) (now : Nat) (r : Res (PMessage × Bool)) (x' : Enc4)
    (ha : Enc4.handle E m ad now x = (r, x')) (hnp : r ≠ .panic) (hnu : ∀ t, r ≠ .err (.unreadableMessage t)) :
    ∃ k s₀ us ks ps p, FreshFrom E k s₀ ∧ Log4 E s₀ us x ∧ List.Forall₂ (KeyedAt E k ks s₀) us ps ∧ KeyedAt E k ks s₀ (.read m ad r) p ∧
      revealedBy us <+: ((readAt us ps).map (macKey E k ks)).flatten ∧
      ∀ J, (∀ q ∈ p :: ps, q.2 ≤ J) → NoCollision E (hashed E k ks J) → macKey E k ks p ∉ ps.map (macKey E k ks) := by
  obtain ⟨k, s₀, us, hf, hl⟩ := C97_session E A h s hh tag x smp hs
  obtain ⟨ks, ps, p, hr⟩ := C109_otr4 E k s₀ x x' us m ad now r hf hl ha hnp hnu
  exact ⟨k, s₀, us, ks, ps, p, hf, hl, hr⟩

namespace ToyForge4
open Toy4

/-- `b` answers the reply of `a`, which published the MAC keys of the two messages that `a` accepted. -/
@[irreducible] def n3 : DataMessage4 := msg (snd [104, 97] 4 b3).1
@[irreducible] def b4 : Enc4 := (snd [104, 97] 4 b3).2
@[irreducible] def a5 : Enc4 := (rcv n3 b4 a3).2

theorem rcv_n3 : Enc4.handle toyEnv n3 (authenticatorData4 4 b4.our a3.our n3) 0 a3 = (.ok (.confidential [104, 97] [], false), a5) ∧
    m1.revealed.length = 128 := by decide +kernel

/-- `C109_otr4` applies when two keys were published. -/
example : ∃ us ad, m1.revealed.length = 128 ∧ (revealedBy us).length = 128 ∧ Log4 toyEnv a0 us a3 ∧ FreshFrom toyEnv [1, 2, 3] a0 ∧
    Enc4.handle toyEnv n3 ad 0 a3 = (.ok (.confidential [104, 97] [], false), a5) :=
  ⟨_, _, rcv_n3.2, by simp [revealedBy, rcv_n3.2], toy_log, toy_from, rcv_n3.1⟩

end ToyForge4

end Otrr.Props
