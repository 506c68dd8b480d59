import Verif.Spec.LastReveal
import Verif.Props.Deniable
import Verif.Props.KeyLog3
/-! C108: by the end of a session the MAC keys of all accepted messages are published. -/

namespace Otrr.Props
open Otrr Otrr.Spec Otrr.Session KeyManager

/-- The MAC key of the newest key pair that the peer used and the older of the peer's public keys. -/
def pairMac (E : Env) (k : KeyManager) : Bytes :=
  E.sha1 (recvKey3 E (k.ours.keys.get k.ours.acknowledged) (k.theirs.keys.getNext k.theirs.id))

theorem mem_useMac (k : KeyManager) (mac : Bytes) : mac ∈ (k.useMac mac).usedMacs := by
  unfold KeyManager.useMac
  split
  · assumption
  · simp

theorem useMac_old (k : KeyManager) (mac : Bytes) : (k.useMac mac).oldMacs = k.oldMacs := by
  unfold KeyManager.useMac; split <;> rfl

theorem keyIn_used {used : List Bytes} {old mac : Bytes} (hu : ∀ m ∈ used, m.length = 20) (hm : mac ∈ used) :
    KeyIn 20 mac (old ++ used.flatten) := ⟨used, List.suffix_append _ _, hu, hm⟩

theorem pending_ack {G : DHGroup} {k : KeyManager} (hu : ∀ m ∈ k.usedMacs, m.length = 20) (r : UInt32) (fresh : Bytes) :
    (∀ mac, KeyIn 20 mac k.oldMacs → KeyIn 20 mac (k.ackStep G r fresh).oldMacs) ∧
    (k.ackStep G r fresh = k ∧ r = k.ours.acknowledged ∨ r ≠ k.ours.acknowledged ∧ (∀ mac ∈ k.usedMacs, KeyIn 20 mac (k.ackStep G r fresh).oldMacs)) ∧
    (∀ mac ∈ k.usedMacs, mac ∈ (k.ackStep G r fresh).usedMacs ∨ KeyIn 20 mac (k.ackStep G r fresh).oldMacs) ∧
    (∀ m ∈ (k.ackStep G r fresh).usedMacs, m.length = 20) ∧
    (k.ackStep G r fresh).ours.acknowledged = r ∧ (k.ackStep G r fresh).ours.keys.get r = k.ours.keys.get r := by
  unfold KeyManager.ackStep
  by_cases h : r = k.ours.acknowledged
  · rw [if_pos h]
    exact ⟨fun _ h => h, .inl ⟨rfl, h⟩, fun _ h => .inl h, hu, h.symm, rfl⟩
  · rw [if_neg h]
    exact ⟨fun mac hm => KeyIn.append hm hu, .inr ⟨h, fun mac hm => keyIn_used hu hm⟩, fun mac hm => .inr (keyIn_used hu hm),
      (fun m hm => by cases hm), rfl, slots_get_setNext _ _ _⟩

theorem pending_reg {k : KeyManager} (hu : ∀ m ∈ k.usedMacs, m.length = 20) (id : UInt32) (key : Nat) :
    (∀ mac, KeyIn 20 mac k.oldMacs → KeyIn 20 mac (k.regStep id key).oldMacs) ∧
    (k.regStep id key = k ∧ k.theirs.id = id ∨ k.theirs.id ≠ id ∧ (∀ mac ∈ k.usedMacs, KeyIn 20 mac (k.regStep id key).oldMacs) ∧
      (k.regStep id key).theirs.id = id ∧ (k.regStep id key).theirs.keys.get k.theirs.id = k.theirs.keys.get k.theirs.id) := by
  unfold KeyManager.regStep
  by_cases h : k.theirs.id = id
  · rw [if_pos h]
    exact ⟨fun _ h => h, .inl ⟨rfl, h⟩⟩
  · rw [if_neg h]
    exact ⟨fun mac hm => KeyIn.append hm hu, .inr ⟨h, fun mac hm => keyIn_used hu hm, rfl, slots_get_setNext _ _ _⟩⟩

/-- What receiving a message does to the keys that are to be revealed next. -/
theorem decrypt3_pending {E : Env} {k k' : KeyManager} (hk : k.WF) {m : DataMessage} (hm : Decoded m) {ad fresh : Bytes} {rd : Res Bytes}
    (hd : decrypt3 E m ad fresh k = (rd, k')) (hr : rd ≠ .panic) :
    (∀ mac, KeyIn 20 mac k.oldMacs → KeyIn 20 mac k'.oldMacs) ∧
    (2 ≤ k'.theirs.id.toNat → KeyIn 20 (pairMac E k') k'.oldMacs ∨ 2 ≤ k.theirs.id.toNat ∧ pairMac E k' = pairMac E k) ∧
    ∀ plain, rd = .ok plain → ∃ mac, mac.length = 20 ∧ m.authenticator = E.hmacSha1 mac ad ∧
      (KeyIn 20 mac k'.oldMacs ∨ 2 ≤ k.theirs.id.toNat ∧ mac = pairMac E k) := by
  have stay : ∀ {e}, rd = .err e → k'.ours = k.ours → k'.theirs = k.theirs → k'.oldMacs = k.oldMacs →
      (∀ mac, KeyIn 20 mac k.oldMacs → KeyIn 20 mac k'.oldMacs) ∧
      (2 ≤ k'.theirs.id.toNat → KeyIn 20 (pairMac E k') k'.oldMacs ∨ 2 ≤ k.theirs.id.toNat ∧ pairMac E k' = pairMac E k) ∧
      ∀ plain, rd = .ok plain → ∃ mac, mac.length = 20 ∧ m.authenticator = E.hmacSha1 mac ad ∧
        (KeyIn 20 mac k'.oldMacs ∨ 2 ≤ k.theirs.id.toNat ∧ mac = pairMac E k) := by
    intro e he h1 h2 h3
    refine ⟨fun mac h => by rw [h3]; exact h, fun h => .inr ⟨by rwa [h2] at h, by unfold pairMac; rw [h1, h2]⟩, fun plain hp => ?_⟩
    rw [he] at hp; cases hp
  have macOf : ∀ {sec}, dataSecrets E (k.ours.keys.get m.receiverKeyid) (k.theirs.keys.get m.senderKeyid) = .ok sec →
      sec.receiverMac E = E.sha1 (recvKey3 E (k.ours.keys.get m.receiverKeyid) (k.theirs.keys.get m.senderKeyid)) := fun h => by
    unfold DataSecrets.receiverMac
    rw [(dataSecrets_keys h).2]
  rcases decrypt3_cases (E := E) m ad fresh hm.1 hm.2.1 hm.2.2 hk with
    ⟨_, h1 | ⟨h1, _⟩⟩ | ⟨_, _, h1⟩ | ⟨hw, sec, hsec, ⟨_, h1⟩ | ⟨hauth, _, ⟨_, h1⟩ | ⟨hc, ⟨_, h1⟩ | ⟨hlt, _, ⟨hid, _, h1⟩ | ⟨_, h1⟩⟩⟩⟩⟩
  · rw [h1] at hd; obtain ⟨e, rfl⟩ := Prod.mk.inj hd; exact stay e.symm rfl rfl rfl
  · rw [h1] at hd; exact absurd (Prod.mk.inj hd).1.symm hr
  · rw [h1] at hd; exact absurd (Prod.mk.inj hd).1.symm hr
  · rw [h1] at hd; obtain ⟨e, rfl⟩ := Prod.mk.inj hd; exact stay e.symm rfl rfl rfl
  · rw [h1] at hd; obtain ⟨e, rfl⟩ := Prod.mk.inj hd
    exact stay e.symm (useMac_ours _ _) (useMac_theirs _ _) (useMac_old _ _)
  · rw [hd] at h1; exact absurd h1 hr
  all_goals
    rw [h1] at hd
    obtain ⟨e, rfl⟩ := Prod.mk.inj hd
    generalize hmac : sec.receiverMac E = mac at *
    have hlen : mac.length = 20 := by rw [← hmac]; exact hmac_len sec
    have hkey := macOf hsec
    rw [hmac] at hkey
    have hu := (WF.useMac hk hlen).used
    have hmem := mem_useMac k mac
    have ho := useMac_ours k mac
    have ht := useMac_theirs k mac
    have hold := useMac_old k mac
    generalize hk1 : k.useMac mac = k1 at *
    obtain ⟨a1, a2, a3, a4, a5, a6⟩ := pending_ack (G := E.dh) (k := k1.seeCtr m.ctr) hu m.receiverKeyid fresh
    have a7 : ((k1.seeCtr m.ctr).ackStep E.dh m.receiverKeyid fresh).theirs = k.theirs := by rw [ackStep_theirs]; exact ht
    generalize hk2 : (k1.seeCtr m.ctr).ackStep E.dh m.receiverKeyid fresh = k2 at *
  · have pm : pairMac E k2 = mac := by
      unfold pairMac
      rw [a5, a6, a7, ← slots_get_pred _ hid, hkey]
      show E.sha1 (recvKey3 E (k1.ours.keys.get _) _) = _
      rw [ho]
    refine ⟨fun mac' h => a1 _ (by show KeyIn 20 mac' k1.oldMacs; rw [hold]; exact h), fun h => ?_, fun plain hp => by rw [← e] at hp; cases hp⟩
    rcases a2 with ⟨b1, b2⟩ | ⟨_, b2⟩
    · right
      refine ⟨by rwa [a7] at h, ?_⟩
      unfold pairMac
      rw [b1]
      show E.sha1 (recvKey3 E (k1.ours.keys.get k1.ours.acknowledged) (k1.theirs.keys.getNext k1.theirs.id)) = _
      rw [ho, ht]
    · left; rw [pm]; exact b2 mac hmem
  · have hs0 : m.senderKeyid.toNat ≠ 0 := fun e => hm.1 (UInt32.toNat_inj.mp e)
    have hn : (m.senderKeyid + 1).toNat = m.senderKeyid.toNat + 1 := (incId_of_lt hlt).2
    have ee : k.afterAccept E m mac fresh = k2.regStep (m.senderKeyid + 1) m.dhY := by unfold KeyManager.afterAccept; rw [hk1, hk2]
    rw [ee]
    obtain ⟨c1, c2⟩ := pending_reg a4 (m.senderKeyid + 1) m.dhY
    have hours : (k2.regStep (m.senderKeyid + 1) m.dhY).ours = k2.ours := regStep_ours _ _ _
    have a6' : k2.ours.keys.get m.receiverKeyid = k.ours.keys.get m.receiverKeyid := by rw [a6]; show k1.ours.keys.get _ = _; rw [ho]
    refine ⟨fun mac' h => c1 _ (a1 _ (by show KeyIn 20 mac' k1.oldMacs; rw [hold]; exact h)), ?_⟩
    rcases c2 with ⟨d1, d2⟩ | ⟨d1, d2, d3, d4⟩
    · rw [d1]
      rw [a7] at d2
      have hid : k.theirs.id.toNat = m.senderKeyid.toNat + 1 := by rw [d2]; exact hn
      have pm : pairMac E k2 = mac := by
        unfold pairMac
        rw [a5, a6', a7, ← slots_get_pred _ hid, hkey]
      rcases a2 with ⟨b1, b2⟩ | ⟨_, b2⟩
      · have pk : pairMac E k2 = pairMac E k := by
          unfold pairMac
          rw [b1]
          show E.sha1 (recvKey3 E (k1.ours.keys.get k1.ours.acknowledged) (k1.theirs.keys.getNext k1.theirs.id)) = _
          rw [ho, ht]
        exact ⟨fun _ => .inr ⟨by omega, pk⟩, fun plain _ => ⟨mac, hlen, hauth, .inr ⟨by omega, by rw [← pk, pm]⟩⟩⟩
      · exact ⟨fun _ => .inl (by rw [pm]; exact b2 mac hmem), fun plain _ => ⟨mac, hlen, hauth, .inl (b2 mac hmem)⟩⟩
    · have hsid : k.theirs.id = m.senderKeyid := by
        rw [a7] at d1
        rcases hw.1 with h | h
        · exact absurd (UInt32.toNat_inj.mp (by rw [hn]; exact h)) d1
        · exact h
      have hin : KeyIn 20 mac (k2.regStep (m.senderKeyid + 1) m.dhY).oldMacs := by
        rcases a3 mac hmem with h | h
        · exact d2 mac h
        · exact c1 mac h
      have pm : pairMac E (k2.regStep (m.senderKeyid + 1) m.dhY) = mac := by
        unfold pairMac
        rw [hours, a5, a6', d3, ← slots_get_pred (r := m.senderKeyid) _ hn]
        rw [a7, hsid] at d4
        rw [d4, hkey]
      exact ⟨fun _ => .inl (by rw [pm]; exact hin), fun plain _ => ⟨mac, hlen, hauth, .inl hin⟩⟩

theorem accepted3_snoc (h : List Ev3) (e : Ev3) : accepted3 (h ++ [e]) = accepted3 h ++ accepted3 [e] := by
  unfold accepted3; rw [List.filterMap_append]

/-- Keys that are published, or will be with the next message. -/
def Due (h : List Ev3) (k : KeyManager) (mac : Bytes) : Prop :=
  (∃ m, Ev3.sent m ∈ h ∧ KeyIn 20 mac m.revealed) ∨ KeyIn 20 mac k.oldMacs

theorem life3_due {E : Env} {s₀ s : Enc3} {h : List Ev3} (hf : Fresh3 E s₀) (hl : Life3 E s₀ h s) :
    (2 ≤ s.keys.theirs.id.toNat → Due h s.keys (pairMac E s.keys)) ∧
    ∀ x ∈ accepted3 h, ∃ mac, mac.length = 20 ∧ x.1.authenticator = E.hmacSha1 mac x.2 ∧ Due h s.keys mac := by
  induction hl with
  | start =>
    refine ⟨fun h => ?_, fun x hx => by cases hx⟩
    obtain ⟨our, their, ourDh, theirDh, rnd, hf⟩ := hf
    simp only [Enc3.new, KeyManager.new, KeypairRotation.new, PublicKeyRotation.new, Res.bind_eq_ok, Res.pure_def, Res.ok.injEq] at hf
    obtain ⟨k, ⟨_, _, _, _, o, ⟨_, _, _, _, rfl⟩, t, ⟨_, _, _, _, rfl⟩, rfl⟩, rfl⟩ := hf
    exact absurd (show 2 ≤ 1 from h) (by decide)
  | @send h s s' flags plain m hl he ih =>
    obtain ⟨e1, _⟩ := encrypt_keys he
    obtain ⟨sec, _, _, _, hm, _, _, _, hk⟩ := encrypt3_ok e1
    have hrev : m.revealed = s.keys.oldMacs := by rw [hm]; rfl
    have mono : ∀ mac, Due h s.keys mac → Due (h ++ [.sent m]) s'.keys mac := by
      rintro mac (⟨n, h1, h2⟩ | h1)
      · exact .inl ⟨n, List.mem_append_left _ h1, h2⟩
      · exact .inl ⟨m, by simp, by rw [hrev]; exact h1⟩
    refine ⟨fun h2 => ?_, fun x hx => ?_⟩
    · have : pairMac E s'.keys = pairMac E s.keys := by rw [hk]; rfl
      rw [this]
      exact mono _ (ih.1 (by rw [hk] at h2; exact h2))
    · rw [accepted3_snoc] at hx
      rcases List.mem_append.mp hx with hx | hx
      · obtain ⟨mac, h1, h2, h3⟩ := ih.2 x hx
        exact ⟨mac, h1, h2, mono _ h3⟩
      · cases hx
  | @recv h s s' m ad fresh r hl hd he hr ih =>
    have hw := life3_wf (fresh3_wf hf).1 hl
    obtain ⟨rd, h1, _, _, h4, _, h6, _, _⟩ := handle_decrypt he
    obtain ⟨p1, p2, p3⟩ := decrypt3_pending hw hd h1 (fun e => hr (h4 e))
    have mono : ∀ mac, Due h s.keys mac → Due (h ++ [.got m ad r]) s'.keys mac := by
      rintro mac (⟨n, h1, h2⟩ | h1)
      · exact .inl ⟨n, List.mem_append_left _ h1, h2⟩
      · exact .inr (p1 _ h1)
    refine ⟨fun h2 => ?_, fun x hx => ?_⟩
    · rcases p2 h2 with h | ⟨h, e⟩
      · exact .inr h
      · rw [e]; exact mono _ (ih.1 h)
    · rw [accepted3_snoc] at hx
      rcases List.mem_append.mp hx with hx | hx
      · obtain ⟨mac, h1, h2, h3⟩ := ih.2 x hx
        exact ⟨mac, h1, h2, mono _ h3⟩
      · cases rd with
        | panic => exact absurd (h4 rfl) hr
        | err e =>
          rw [h6 e rfl] at hx
          cases hx
        | ok plain =>
          obtain ⟨mac, q1, q2, q3⟩ := p3 plain rfl
          have : x = (m, ad) := by
            unfold accepted3 at hx
            cases r with
            | ok _ => simpa using hx
            | panic => simpa using hx
            | err e => cases e <;> simp at hx <;> exact hx
          subst this
          refine ⟨mac, q1, q2, ?_⟩
          rcases q3 with h | ⟨h, e⟩
          · exact .inr h
          · rw [e]; exact mono _ (ih.1 h)

/-- C108, OTRv3: whatever was sent and received in a session, once the client sent its last message, and so after every message that it
sends, the MAC keys of all messages that it had accepted are published. -/
theorem C108_otr3 (E : Env) (s₀ s s' : Enc3) (h : List Ev3) (flags : UInt8) (plain : Bytes) (m : DataMessage) (hf : Fresh3 E s₀)
    (hl : Life3 E s₀ h s) (he : Enc3.encrypt E flags plain s = (.ok m, s')) : ∀ x ∈ accepted3 h, Published3 E (h ++ [.sent m]) x := by
  intro x hx
  obtain ⟨mac, h1, h2, h3⟩ := (life3_due hf hl).2 x hx
  obtain ⟨sec, _, _, _, hm, _⟩ := encrypt3_ok (encrypt_keys he).1
  refine ⟨mac, h1, h2, ?_⟩
  rcases h3 with ⟨n, h3, h4⟩ | h3
  · exact ⟨n, List.mem_append_left _ h3, h4⟩
  · exact ⟨m, by simp, by rw [show m.revealed = s.keys.oldMacs by rw [hm]; rfl]; exact h3⟩

/-- C108, OTRv4: the message with which a client ends a session reveals the MAC keys of all messages that it had accepted and whose keys it had
not revealed yet. -/
theorem C108_otr4 (E : Env) (s₀ s s' : Enc4) (h : List Ev4) (rnd : Rand) (now : Nat) (m : DataMessage4) (hf : Fresh4 E s₀)
    (hl : Life4 E s₀ h s) (he : Enc4.disconnect E rnd now s = (.ok m, s')) : Published4 E h m := by
  obtain ⟨ks, h1, h2⟩ := (life4_inv (fresh4_zero hf).1 hl).macs
  refine ⟨ks, h1, ?_⟩
  rw [(fresh4_zero hf).2, List.nil_append] at h2
  rw [← h2]
  unfold Enc4.disconnect Enc4.onRatchet at he
  split at he
  · rename_i a d' hx
    simp only [Prod.mk.injEq, Res.ok.injEq] at he
    obtain ⟨rfl, rfl⟩ := he
    obtain ⟨rv, d1, keys, g1, _, g3, _, _⟩ := encrypt4_ok hx
    have hrv : a.revealed = rv := by rw [g3]; rfl
    rw [hrv]
    rcases ratchetForSend_ok g1 with ⟨_, h1, _⟩ | ⟨_, h1, _⟩
    · rw [h1, List.append_nil]
    · rw [h1]
  · cases he
  · cases he

/-- C108: whatever calls a client made, a session that it ends, or that expires, ends with a message that publishes the MAC keys of all
messages that were accepted in it, as far as they were not published before. -/
theorem C108_ends (E : Env) (A : Account) (h : List Ev) (s : Session) (hh : Hist E A h s) (tag : UInt32) (rnd : Rand) (now timeout : Nat)
    (last : EncodedMessageType) (after : PState)
    (he : PState.finish E rnd now (stateOf s tag) = (.ok (some last), after) ∨
      PState.expire E timeout rnd now (stateOf s tag) = (.ok (some last), after)) :
    (∃ x smp s₀ l m, stateOf s tag = .encrypted3 x smp ∧ Fresh3 E s₀ ∧ Life3 E s₀ l x ∧ last = .data m ∧
      ∀ p ∈ accepted3 l, Published3 E (l ++ [.sent m]) p) ∨
    (∃ x smp s₀ l m, stateOf s tag = .encrypted4 x smp ∧ Fresh4 E s₀ ∧ Life4 E s₀ l x ∧ last = .data4 m ∧ Published4 E l m) := by
  cases hst : stateOf s tag with
  | plaintext => rw [hst] at he; simp [PState.finish, PState.expire] at he
  | finished => rw [hst] at he; simp [PState.finish, PState.expire] at he
  | encrypted3 x smp =>
    rw [hst] at he
    rcases he with he | he
    · left
      obtain ⟨x0, l, _, hf, hl, _⟩ := (hist_alive hh tag).1 x smp hst
      simp only [PState.finish] at he
      split at he <;> simp only [Prod.mk.injEq, Res.ok.injEq, Option.some.injEq, reduceCtorEq, false_and] at he
      rename_i m y hx
      exact ⟨x, smp, x0, l, m, rfl, hf, hl, he.1.symm, C108_otr3 E x0 x y l _ _ m hf hl hx⟩
    · simp [PState.expire] at he
  | encrypted4 x smp =>
    right
    obtain ⟨x0, l, _, hf, hl, _⟩ := (hist_alive hh tag).2 x smp hst
    rw [hst] at he
    rcases he with he | he
    · simp only [PState.finish] at he
      split at he <;> simp only [Prod.mk.injEq, Res.ok.injEq, Option.some.injEq, reduceCtorEq, false_and] at he
      rename_i m y hx
      exact ⟨x, smp, x0, l, m, rfl, hf, hl, he.1.symm, C108_otr4 E x0 x y l rnd now m hf hl hx⟩
    · simp only [PState.expire] at he
      split at he
      · split at he <;> simp only [Prod.mk.injEq, Res.ok.injEq, Option.some.injEq, reduceCtorEq, false_and] at he
        rename_i m y hx
        exact ⟨x, smp, x0, l, m, rfl, hf, hl, he.1.symm, C108_otr4 E x0 x y l rnd now m hf hl hx⟩
      · simp at he

/-- A client accepted two messages with OTRv3, and its reply reveals their key. -/
example : ∀ x ∈ [(Toy3.m1, authenticatorData 3 Toy3.a2.our Toy3.b0.our Toy3.m1), (Toy3.m2, authenticatorData 3 Toy3.a2.our Toy3.b1.our Toy3.m2)],
    Published3 toyEnv ([.got Toy3.m1 (authenticatorData 3 Toy3.a2.our Toy3.b0.our Toy3.m1) (.ok (.confidential [104, 105] [], false)),
      .got Toy3.m2 (authenticatorData 3 Toy3.a2.our Toy3.b1.our Toy3.m2) (.ok (.confidential [104, 111] [], false))] ++ [.sent Toy3.n1]) x :=
  C108_otr3 _ Toy3.b0 Toy3.b2 Toy3.b3 _ _ _ _ Toy3.fresh_b0
    (.recv (.recv .start Toy3.decoded_m1 Toy3.rcv_m1 (by simp)) Toy3.decoded_m2 Toy3.rcv_m2 (by simp)) Toy3.snd_n1

namespace ToyBye
open Toy4

@[irreducible] def bye : DataMessage4 := msg (Enc4.disconnect toyEnv (smallRand 3) 0 a2).1

theorem bye_ok : Enc4.disconnect toyEnv (smallRand 3) 0 a2 = (.ok bye, (Enc4.disconnect toyEnv (smallRand 3) 0 a2).2) ∧
    bye.revealed.length = 128 := by decide +kernel

/-- A client accepted two messages with OTRv4 and ends the session: the last message reveals two keys. -/
example : Published4 toyEnv ([] ++ [.got n1 (authenticatorData4 4 b2.our a0.our n1) (.ok (.confidential [104, 105] [], false))] ++
    [.got n2 (authenticatorData4 4 b2.our a1.our n2) (.ok (.confidential [104, 111] [], false))]) bye :=
  C108_otr4 _ _ _ _ _ _ _ _ fresh_a0 (.recv (.recv .start rcv_n1 (by simp)) rcv_n2 (by simp)) bye_ok.1

end ToyBye

end Otrr.Props
