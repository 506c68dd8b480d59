import Verif.Lemmas.KeyManager
import Verif.Spec.Data3
/-! # Facts about OTRv3 sessions -/

namespace Otrr
open KeyManager Spec

/-! ## Plaintext of data messages -/

theorem readPayloadParts_ne_panic (s : Bytes) : readPayloadParts s ≠ .panic := by
  intro h
  simp only [readPayloadParts, Dec.bind_eq_panic] at h
  rcases h with h | ⟨c, s1, _, h | ⟨ts, s2, h2, h | ⟨_, s3, _, h⟩⟩⟩
  · simp [readNullTerminated] at h
  · exact (readTlvsFuel_total _ _).1 h
  · simp only [decDone] at h
    split at h <;> simp at h
  · simp [Dec.pure_run] at h

theorem parseMessage_ne_panic (raw : Bytes) : parseMessage raw ≠ .panic := by
  intro h
  simp only [parseMessage, Res.bind_eq_panic] at h
  rcases h with h | ⟨⟨c, ts⟩, _, h⟩
  · simp only [runDec] at h
    split at h
    · simp at h
    · simp at h
    · exact readPayloadParts_ne_panic _ (by assumption)
  · dsimp only at h
    split at h <;> simp at h

theorem readPayloadParts_composed {text plain : Bytes} {tlvs : List TLV} (h : Composed text tlvs plain) :
    readPayloadParts plain = .ok ((text, tlvs.filter fun t => t.typ != 0), []) := by
  obtain ⟨hz, hl, h⟩ := h
  have hok : ∀ t ∈ tlvs, tlvOk t = true := fun t ht => by simpa [tlvOk] using hl t ht
  rcases h with rfl | ⟨rfl, rfl⟩
  · have e : text ++ 0 :: (tlvs.map fun t => wU16 t.typ ++ wU16 (UInt16.ofNat t.value.length) ++ t.value).flatten =
        wNullTerminated text ++ (tlvs.map wTlv).flatten := by
      have e2 : (fun t : TLV => wU16 t.typ ++ wU16 (UInt16.ofNat t.value.length) ++ t.value) = wTlv := by
        funext t
        simp [wTlv]
      rw [e2]
      simp [wNullTerminated]
    rw [e, readPayloadParts, Dec.bind_ok (readNullTerminated_w hz _), Dec.bind_ok (readTlvs_w hok)]
    rfl
  · have h1 : readNullTerminated plain = .ok (plain, []) := by
      have ha : ∀ (d : Bytes), (∀ b ∈ d, b ≠ 0) → d.takeWhile (· != 0) = d ∧ d.dropWhile (· != 0) = [] := by
        intro d
        induction d with
        | nil => simp
        | cons b d ih =>
          intro h
          have hb : b ≠ 0 := h b (by simp)
          obtain ⟨i1, i2⟩ := ih fun b hb => h b (by simp [hb])
          simp [hb, i1, i2]
      obtain ⟨a1, a2⟩ := ha plain hz
      simp [readNullTerminated, a1, a2]
    have h2 : readTlvs ([] : Bytes) = .ok ([], []) := rfl
    rw [readPayloadParts, Dec.bind_ok h1, Dec.bind_ok h2]
    rfl

/-- A composed plaintext is parsed to what was put in, without padding. -/
theorem parseMessage_composed {text plain : Bytes} {tlvs : List TLV} (h : Composed text tlvs plain) :
    parseMessage plain =
      if ∃ t ∈ tlvs, t.typ = 1 then .ok (.confidentialFinished text)
      else .ok (.confidential text (tlvs.filter fun t => t.typ != 0)) := by
  have hr : runDec readPayloadParts plain = .ok (text, tlvs.filter fun t => t.typ != 0) := by
    simp only [runDec, readPayloadParts_composed h]
  rw [parseMessage, hr, Res.bind_ok]
  have hx : (tlvs.filter fun t => t.typ != 0).any (fun t => t.typ == TLV_TYPE_1_DISCONNECT) = true ↔
      ∃ t ∈ tlvs, t.typ = 1 := by
    simp only [List.any_eq_true, List.mem_filter, beq_iff_eq, TLV_TYPE_1_DISCONNECT]
    exact ⟨fun ⟨t, ⟨ht, _⟩, h1⟩ => ⟨t, ht, h1⟩, fun ⟨t, ht, h1⟩ => ⟨t, ⟨ht, by rw [h1]; decide⟩, h1⟩⟩
  by_cases hd : ∃ t ∈ tlvs, t.typ = 1
  · rw [if_pos hd]
    exact if_pos (hx.mpr hd)
  · rw [if_neg hd]
    exact if_neg (fun h => hd (hx.mp h))

theorem readKeyid_ne {d rest : Bytes} {k : UInt32} (h : readKeyid d = .ok (k, rest)) : k ≠ 0 := by
  simp only [readKeyid, Dec.bind_eq_ok] at h
  obtain ⟨k', s', _, h⟩ := h
  split at h
  · simp [Dec.fail] at h
  · rename_i hk
    simp only [Dec.pure_run, Res.ok.injEq, Prod.mk.injEq] at h
    rw [← h.1]
    exact hk

theorem readCtr_len {d rest c : Bytes} (h : readCtr d = .ok (c, rest)) : c.length = 8 := by
  simp only [readCtr, readN] at h
  split at h
  · simp at h
  · simp only [Res.ok.injEq, Prod.mk.injEq] at h
    rw [← h.1, List.length_take]
    omega

/-! ## Progress of key ids and counters -/

/-- What an operation may do to key ids and counters. -/
structure Adv (k k' : KeyManager) : Prop where
  ack_le : k.ours.acknowledged.toNat ≤ k'.ours.acknowledged.toNat
  ack_le' : k'.ours.acknowledged.toNat ≤ k.ours.acknowledged.toNat + 1
  id_le : k.theirs.id.toNat ≤ k'.theirs.id.toNat
  id_le' : k'.theirs.id.toNat ≤ k.theirs.id.toNat + 1
  same : k'.ours.acknowledged = k.ours.acknowledged → k'.theirs.id = k.theirs.id →
    beNat k.ourCtr ≤ beNat k'.ourCtr ∧ beNat k.theirCtr ≤ beNat k'.theirCtr
  wf : k'.WF

theorem WF.useMac {k : KeyManager} (h : k.WF) {mac : Bytes} (hm : mac.length = 20) : (k.useMac mac).WF := by
  unfold KeyManager.useMac
  split
  · exact h
  · refine ⟨h.ack, h.id, h.ourCtr, h.theirCtr, ?_, h.old⟩
    intro m hm'
    simp only [List.mem_append, List.mem_singleton] at hm'
    rcases hm' with h' | rfl
    · exact h.used m h'
    · exact hm

theorem flatten_mod20 {l : List Bytes} (h : ∀ m ∈ l, m.length = 20) : l.flatten.length % 20 = 0 := by
  induction l with
  | nil => rfl
  | cons a l ih =>
    have h1 := h a (by simp)
    have h2 := ih fun m hm => h m (by simp [hm])
    simp only [List.flatten_cons, List.length_append]
    omega

theorem WF.rotated {k : KeyManager} (h : k.WF) : k.rotated.WF := by
  refine ⟨h.ack, h.id, rfl, rfl, ?_, ?_⟩
  · simp [KeyManager.rotated, resetCounters, revealUsed]
  · have := flatten_mod20 h.used
    have := h.old
    simp only [KeyManager.rotated, resetCounters, revealUsed, List.length_append]
    omega

theorem WF.ackStep {G : DHGroup} {k : KeyManager} (h : k.WF) {r : UInt32} {fresh : Bytes} (hr : r ≠ 0) :
    (k.ackStep G r fresh).WF := by
  unfold KeyManager.ackStep
  split
  · exact h
  · exact WF.rotated ⟨hr, h.id, h.ourCtr, h.theirCtr, h.used, h.old⟩

theorem WF.regStep {k : KeyManager} (h : k.WF) {id : UInt32} {key : Nat} (hid : id ≠ 0) :
    (k.regStep id key).WF := by
  unfold KeyManager.regStep
  split
  · exact h
  · exact WF.rotated ⟨h.ack, hid, h.ourCtr, h.theirCtr, h.used, h.old⟩

theorem Adv.refl {k : KeyManager} (h : k.WF) : Adv k k :=
  ⟨Nat.le_refl _, by omega, Nat.le_refl _, by omega, fun _ _ => ⟨Nat.le_refl _, Nat.le_refl _⟩, h⟩

theorem ackStep_ack (G : DHGroup) (k : KeyManager) (r : UInt32) (fresh : Bytes) :
    (k.ackStep G r fresh).ours.acknowledged = r := by
  unfold KeyManager.ackStep
  split
  · rename_i h; exact h.symm
  · rfl

theorem regStep_id (k : KeyManager) (id : UInt32) (key : Nat) : (k.regStep id key).theirs.id = id := by
  unfold KeyManager.regStep
  split
  · rename_i h; exact h
  · rfl

theorem add_one_ne_zero {a : UInt32} (h : a.toNat < 4294967295) :
    (a + 1).toNat = a.toNat + 1 ∧ a + 1 ≠ 0 := by
  have e : (a + 1).toNat = a.toNat + 1 := by
    rw [UInt32.toNat_add]
    have : (1 : UInt32).toNat = 1 := rfl
    omega
  refine ⟨e, fun h0 => ?_⟩
  rw [h0] at e
  have : (0 : UInt32).toNat = 0 := rfl
  omega

theorem hmac_len {E : Env} (sec : DataSecrets) : (sec.receiverMac E).length = 20 := E.sha1_len _

theorem afterAccept_adv {E : Env} {k : KeyManager} {m : DataMessage} {mac fresh : Bytes} (hk : k.WF)
    (hm : Decoded m) (hw : k.InWindow m) (hmac : mac.length = 20) (hlt : m.senderKeyid.toNat < 4294967295)
    (hc : beNat k.theirCtr < beNat m.ctr) : Adv k (k.afterAccept E m mac fresh) := by
  obtain ⟨e1, e2⟩ := add_one_ne_zero hlt
  have hack : (k.afterAccept E m mac fresh).ours.acknowledged = m.receiverKeyid := by
    rw [afterAccept, regStep_ours, ackStep_ack]
  have hid : (k.afterAccept E m mac fresh).theirs.id = m.senderKeyid + 1 := by
    rw [afterAccept, regStep_id]
  have wf1 : ((k.useMac mac).seeCtr m.ctr).WF := by
    have := WF.useMac hk hmac
    exact ⟨this.ack, this.id, this.ourCtr, hm.2.2, this.used, this.old⟩
  have hwf : (k.afterAccept E m mac fresh).WF := WF.regStep (WF.ackStep wf1 hm.2.1) e2
  refine ⟨?_, ?_, ?_, ?_, ?_, hwf⟩
  · rw [hack]
    rcases hw.2 with h | h
    · rw [h]
      exact Nat.le_refl _
    · omega
  · rw [hack]
    rcases hw.2 with h | h
    · rw [h]; omega
    · omega
  · rw [hid, e1]
    rcases hw.1 with h | h
    · omega
    · rw [h]; omega
  · rw [hid, e1]
    rcases hw.1 with h | h
    · omega
    · rw [h]; omega
  · intro h1 h2
    rw [hack] at h1
    rw [hid] at h2
    have ea : ((k.useMac mac).seeCtr m.ctr).ackStep E.dh m.receiverKeyid fresh = (k.useMac mac).seeCtr m.ctr := by
      rw [KeyManager.ackStep, if_pos]
      rw [h1]
      simp only [seeCtr, useMac_ours]
    have er : k.afterAccept E m mac fresh = (k.useMac mac).seeCtr m.ctr := by
      rw [afterAccept, ea, KeyManager.regStep, if_pos]
      rw [h2]
      simp only [seeCtr, useMac_theirs]
    rw [er]
    simp only [seeCtr, useMac_ourCtr]
    exact ⟨Nat.le_refl _, by omega⟩

theorem decrypt3_adv {E : Env} {k k' : KeyManager} {m : DataMessage} {ad fresh : Bytes} {r : Res Bytes}
    (hk : k.WF) (hm : Decoded m) (h : decrypt3 E m ad fresh k = (r, k')) (hr : r ≠ .panic) : Adv k k' := by
  rcases decrypt3_cases (E := E) m ad fresh hm.1 hm.2.1 hm.2.2 hk with
    ⟨_, h1 | ⟨h1, _⟩⟩ | ⟨_, _, h1⟩ | ⟨hw, sec, _, ⟨_, h1⟩ | ⟨_, _, ⟨_, h1⟩ | ⟨hc, ⟨_, h1⟩ | ⟨hlt, _, ⟨hid, _, h1⟩ | ⟨_, h1⟩⟩⟩⟩⟩
  · rw [h1] at h; obtain ⟨_, rfl⟩ := Prod.mk.inj h; exact .refl hk
  · rw [h1] at h; exact absurd (Prod.mk.inj h).1.symm hr
  · rw [h1] at h; exact absurd (Prod.mk.inj h).1.symm hr
  · rw [h1] at h; obtain ⟨_, rfl⟩ := Prod.mk.inj h; exact .refl hk
  · rw [h1] at h; obtain ⟨_, rfl⟩ := Prod.mk.inj h
    refine ⟨?_, ?_, ?_, ?_, ?_, WF.useMac hk (hmac_len sec)⟩ <;>
      simp only [useMac_ours, useMac_theirs, useMac_ourCtr, useMac_theirCtr] <;> omega
  · rw [h] at h1; exact absurd h1 hr
  · rw [h1] at h; obtain ⟨_, rfl⟩ := Prod.mk.inj h
    have wf1 : ((k.useMac (sec.receiverMac E)).seeCtr m.ctr).WF := by
      have := WF.useMac hk (hmac_len (E := E) sec)
      exact ⟨this.ack, this.id, this.ourCtr, hm.2.2, this.used, this.old⟩
    refine ⟨?_, ?_, ?_, ?_, ?_, WF.ackStep wf1 hm.2.1⟩
    · rw [ackStep_ack]
      rcases hw.2 with h | h
      · rw [h]
        exact Nat.le_refl _
      · omega
    · rw [ackStep_ack]
      rcases hw.2 with h | h
      · rw [h]; omega
      · omega
    · rw [ackStep_theirs]; simp only [seeCtr, useMac_theirs]; omega
    · rw [ackStep_theirs]; simp only [seeCtr, useMac_theirs]; omega
    · intro h1 _
      rw [ackStep_ack] at h1
      rw [KeyManager.ackStep, if_pos (by rw [h1]; simp only [seeCtr, useMac_ours])]
      simp only [seeCtr, useMac_ourCtr]
      exact ⟨Nat.le_refl _, by omega⟩
  · rw [h1] at h; obtain ⟨_, rfl⟩ := Prod.mk.inj h
    exact afterAccept_adv hk hm hw (hmac_len sec) hlt hc

theorem encrypt3_adv {E : Env} {our their : UInt32} {flags : UInt8} {plain : Bytes} {k k' : KeyManager}
    {m : DataMessage} (hk : k.WF) (h : encrypt3 E our their flags plain k = (.ok m, k')) :
    Adv k k' ∧ m.senderKeyid = k.ours.acknowledged ∧ m.receiverKeyid = k.theirs.id ∧
      beNat m.ctr = beNat k.ourCtr + 1 ∧ k'.ourCtr = m.ctr ∧ m.ctr.length = 8 ∧
      k'.ours = k.ours ∧ k'.theirs = k.theirs := by
  obtain ⟨sec, _, _, hc, hm, _, _, _, rfl⟩ := encrypt3_ok h
  obtain ⟨hl, hv⟩ := counterTake_ok hc
  have h1 : m.senderKeyid = k.ours.acknowledged := by rw [hm]; rfl
  have h2 : m.receiverKeyid = k.theirs.id := by rw [hm]; rfl
  rw [hk.ourCtr] at hl
  refine ⟨⟨Nat.le_refl _, by simp only; omega, Nat.le_refl _, by simp only; omega, fun _ _ => ⟨?_, Nat.le_refl _⟩,
    ⟨hk.ack, hk.id, hl, hk.theirCtr, hk.used, rfl⟩⟩, h1, h2, hv, rfl, hl, rfl, rfl⟩
  simp only
  omega

/-! ## Sessions -/

theorem handle_decrypt {E : Env} {m : DataMessage} {ad fresh : Bytes} {s s' : Enc3} {r : Res (PMessage × Bool)}
    (h : Enc3.handle E m ad fresh s = (r, s')) :
    ∃ rd, decrypt3 E m ad fresh s.keys = (rd, s'.keys) ∧ s'.our = s.our ∧ s'.their = s.their ∧
      (rd = .panic → r = .panic) ∧ (r = .panic → rd = .panic) ∧
      (∀ e, rd = .err e → r = .err (.unreadableMessage s.their)) ∧
      (∀ x, r = .ok x → ∃ p, rd = .ok p) ∧
      (∀ p, rd = .ok p → r = match parseMessage p with
        | .ok (.confidentialFinished c) => .ok (.confidentialFinished c, true)
        | .ok msg => .ok (msg, false)
        | .err e => .err e
        | .panic => .panic) := by
  simp only [Enc3.handle] at h
  split at h
  · rename_i plain k hd
    refine ⟨.ok plain, ?_⟩
    split at h <;> obtain ⟨rfl, rfl⟩ := Prod.mk.inj h <;>
      refine ⟨hd, rfl, rfl, by simp, ?_, by simp, by simp, ?_⟩
    · simp
    · rename_i hp
      intro p hp'
      obtain rfl := Res.ok.inj hp'
      rw [hp]
    · simp
    · rename_i msg hne hp
      intro p hp'
      obtain rfl := Res.ok.inj hp'
      rw [hp]
      cases msg with
      | confidentialFinished c => exact absurd rfl (hne c)
      | confidential c t => rfl
    · simp
    · rename_i hp
      intro p hp'
      obtain rfl := Res.ok.inj hp'
      rw [hp]
    · rename_i hp
      exact absurd hp (parseMessage_ne_panic _)
    · rename_i hp
      exact absurd hp (parseMessage_ne_panic _)
  · rename_i e k hd
    obtain ⟨rfl, rfl⟩ := Prod.mk.inj h
    exact ⟨.err e, hd, rfl, rfl, by simp, by simp, by simp, by simp, by simp⟩
  · rename_i k hd
    obtain ⟨rfl, rfl⟩ := Prod.mk.inj h
    exact ⟨.panic, hd, rfl, rfl, by simp, by simp, by simp, by simp, by simp⟩

theorem handle_adv {E : Env} {m : DataMessage} {ad fresh : Bytes} {s s' : Enc3} {r : Res (PMessage × Bool)}
    (hk : s.keys.WF) (hm : Decoded m) (h : Enc3.handle E m ad fresh s = (r, s')) (hr : r ≠ .panic) :
    Adv s.keys s'.keys := by
  obtain ⟨rd, hd, _, _, hp, _⟩ := handle_decrypt h
  exact decrypt3_adv hk hm hd fun e => hr (hp e)

theorem encrypt_keys {E : Env} {flags : UInt8} {plain : Bytes} {s s' : Enc3} {r : Res DataMessage}
    (h : Enc3.encrypt E flags plain s = (r, s')) :
    encrypt3 E s.our s.their flags plain s.keys = (r, s'.keys) ∧ s'.our = s.our ∧ s'.their = s.their := by
  simp only [Enc3.encrypt] at h
  obtain ⟨rfl, rfl⟩ := Prod.mk.inj h
  exact ⟨rfl, rfl, rfl⟩

theorem fresh3_wf {E : Env} {s : Enc3} (h : Fresh3 E s) :
    s.keys.WF ∧ s.keys.ours.acknowledged = 1 ∧ s.keys.theirs.id = 1 ∧ s.keys.usedMacs = [] ∧ s.keys.oldMacs = [] := by
  obtain ⟨our, their, ourDh, theirDh, rnd, h⟩ := h
  simp only [Enc3.new, KeyManager.new, KeypairRotation.new, PublicKeyRotation.new, Res.bind_eq_ok, Res.pure_def,
    Res.ok.injEq] at h
  obtain ⟨k, ⟨_, _, _, _, o, ⟨_, _, _, _, rfl⟩, t, ⟨_, _, _, _, rfl⟩, rfl⟩, rfl⟩ := h
  exact ⟨⟨by simp, by simp, rfl, rfl, by simp, rfl⟩, rfl, rfl, rfl, rfl⟩

theorem life3_wf {E : Env} {s₀ s : Enc3} {h : List Ev3} (hs : s₀.keys.WF) (hl : Life3 E s₀ h s) : s.keys.WF := by
  induction hl with
  | start => exact hs
  | send _ he ih => exact (encrypt3_adv ih (encrypt_keys he).1).1.wf
  | recv _ hd hh hr ih => exact (handle_adv ih hd hh hr).wf

end Otrr
