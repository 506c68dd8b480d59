import Verif.Spec.KeyLog3
import Verif.Lemmas.Data3
import Verif.Lemmas.Hist4
import Verif.Props.Data3
import Verif.Lemmas.Ake
import Verif.Props.Ake
import Verif.Props.SessionLife
/-! C104: the keys of OTRv3 messages, and forward secrecy. -/

namespace Otrr.Props
open Otrr Otrr.Spec
open scoped List

/-! ## Slots -/

theorem slots_get_setNext {α : Type} (s : Slots α) (r : UInt32) (v : α) : (s.setNext r v).get r = s.get r := by
  unfold Slots.get Slots.setNext
  by_cases h : r.toNat % 2 = 0
  · rw [if_pos h, if_pos h, if_neg (by omega)]
  · rw [if_neg h, if_neg h, if_pos (by omega)]

theorem slots_getNext_setNext {α : Type} (s : Slots α) (r : UInt32) (v : α) : (s.setNext r v).getNext r = v := by
  unfold Slots.getNext Slots.setNext
  by_cases h : (r.toNat + 1) % 2 = 0
  · rw [if_pos h, if_pos h]
  · rw [if_neg h, if_neg h]

theorem slots_get_succ {α : Type} (s : Slots α) {r a : UInt32} (h : r.toNat = a.toNat + 1) : s.get r = s.getNext a := by
  unfold Slots.get Slots.getNext
  rw [h]

theorem slots_get_pred {α : Type} (s : Slots α) {r a : UInt32} (h : a.toNat = r.toNat + 1) : s.get r = s.getNext a := by
  unfold Slots.get Slots.getNext
  by_cases h2 : r.toNat % 2 = 0
  · rw [if_pos h2, if_pos (by omega)]
  · rw [if_neg h2, if_neg (by omega)]

theorem slots_getNext_succ {α : Type} (s : Slots α) {r a : UInt32} (h : r.toNat = a.toNat + 1) : s.getNext r = s.get a := by
  unfold Slots.get Slots.getNext
  by_cases h2 : a.toNat % 2 = 0
  · rw [if_pos h2, if_pos (by omega)]
  · rw [if_neg h2, if_neg (by omega)]

/-! ## The keys -/

/-- The key manager holds the last two of the key pairs `own`, and the last two of the keys `peer`. -/
structure Keys3 (own : List DH.Keypair) (peer : List Nat) (k : KeyManager) : Prop where
  ack : 0 < k.ours.acknowledged.toNat
  ownLen : own.length = k.ours.acknowledged.toNat + 1
  cur : own[k.ours.acknowledged.toNat - 1]? = some (k.ours.keys.get k.ours.acknowledged)
  next : own[k.ours.acknowledged.toNat]? = some (k.ours.keys.getNext k.ours.acknowledged)
  id : 0 < k.theirs.id.toNat
  peerLen : peer.length = k.theirs.id.toNat
  last : peer[k.theirs.id.toNat - 1]? = some (k.theirs.keys.get k.theirs.id)
  before : 2 ≤ k.theirs.id.toNat → peer[k.theirs.id.toNat - 2]? = some (k.theirs.keys.getNext k.theirs.id)

theorem Keys3.congr {own : List DH.Keypair} {peer : List Nat} {k k' : KeyManager} (h : Keys3 own peer k) (h1 : k'.ours = k.ours)
    (h2 : k'.theirs = k.theirs) : Keys3 own peer k' := by
  constructor <;> (try rw [h1]) <;> (try rw [h2])
  · exact h.ack
  · exact h.ownLen
  · exact h.cur
  · exact h.next
  · exact h.id
  · exact h.peerLen
  · exact h.last
  · exact h.before

theorem Keys3.ackStep {own : List DH.Keypair} {peer : List Nat} {k : KeyManager} (h : Keys3 own peer k) (G : DHGroup) {r : UInt32}
    (hr : k.ours.acknowledged = r ∨ r.toNat = k.ours.acknowledged.toNat + 1) (fresh : Bytes) :
    ∃ ds, ds <+ [fresh] ∧ Keys3 (own ++ ds.map (DH.Keypair.generate G)) peer (k.ackStep G r fresh) ∧
      (k.ackStep G r fresh).ours.acknowledged = r := by
  unfold KeyManager.ackStep
  by_cases he : r = k.ours.acknowledged
  · rw [if_pos he]
    exact ⟨[], List.nil_sublist _, by simpa using h, he.symm⟩
  · rw [if_neg he]
    have hr : r.toNat = k.ours.acknowledged.toNat + 1 := hr.resolve_left fun e => he e.symm
    have hl := h.ownLen
    refine ⟨[fresh], List.Sublist.refl _, ⟨?_, ?_, ?_, ?_, h.id, h.peerLen, h.last, h.before⟩, rfl⟩
    · show 0 < r.toNat
      omega
    · show (own ++ [DH.Keypair.generate G fresh]).length = r.toNat + 1
      rw [List.length_append, hl, hr]
      rfl
    · show (own ++ [DH.Keypair.generate G fresh])[r.toNat - 1]? = some ((k.ours.keys.setNext r _).get r)
      rw [slots_get_setNext, slots_get_succ _ hr, List.getElem?_append_left (by omega), show r.toNat - 1 = k.ours.acknowledged.toNat by omega]
      exact h.next
    · show (own ++ [DH.Keypair.generate G fresh])[r.toNat]? = some ((k.ours.keys.setNext r _).getNext r)
      rw [slots_getNext_setNext, List.getElem?_append_right (by omega), show r.toNat - own.length = 0 by omega]
      rfl

theorem Keys3.regStep {own : List DH.Keypair} {peer : List Nat} {k : KeyManager} (h : Keys3 own peer k) {r : UInt32}
    (hr : k.theirs.id = r ∨ r.toNat = k.theirs.id.toNat + 1) (key : Nat) :
    ∃ ys, ys <+ [key] ∧ Keys3 own (peer ++ ys) (k.regStep r key) := by
  unfold KeyManager.regStep
  by_cases he : k.theirs.id = r
  · rw [if_pos he]
    exact ⟨[], List.nil_sublist _, by simpa using h⟩
  · rw [if_neg he]
    have hr : r.toNat = k.theirs.id.toNat + 1 := hr.resolve_left he
    have hl := h.peerLen
    have hi := h.id
    refine ⟨[key], List.Sublist.refl _, ⟨h.ack, h.ownLen, h.cur, h.next, ?_, ?_, ?_, ?_⟩⟩
    · show 0 < r.toNat
      omega
    · show (peer ++ [key]).length = r.toNat
      rw [List.length_append, hl, hr]
      rfl
    · show (peer ++ [key])[r.toNat - 1]? = some ((k.theirs.keys.setNext k.theirs.id key).get r)
      rw [slots_get_succ _ hr, slots_getNext_setNext, List.getElem?_append_right (by omega), show r.toNat - 1 - peer.length = 0 by omega]
      rfl
    · intro _
      show (peer ++ [key])[r.toNat - 2]? = some ((k.theirs.keys.setNext k.theirs.id key).getNext r)
      rw [slots_getNext_succ _ hr, slots_get_setNext, List.getElem?_append_left (by omega), show r.toNat - 2 = k.theirs.id.toNat - 1 by omega]
      exact h.last

theorem dataSecrets_keys {E : Env} {k : DH.Keypair} {y : Nat} {sec : DataSecrets} (h : dataSecrets E k y = .ok sec) :
    sec.sendkey = sendKey3 E k y ∧ sec.recvkey = recvKey3 E k y := by
  unfold dataSecrets DataSecrets.derive at h
  split at h
  · cases h
  · unfold sendKey3 recvKey3
    by_cases hg : k.pub > y
    · rw [if_pos hg] at h
      cases h
      rw [if_pos hg, if_pos hg]
      exact ⟨rfl, rfl⟩
    · rw [if_neg hg] at h
      cases h
      rw [if_neg hg, if_neg hg]
      exact ⟨rfl, rfl⟩

theorem keyedAt3_mono {E : Env} {own own' : List DH.Keypair} {peer peer' : List Nat} {s₀ : Enc3} {u : Use3} {p : Nat × Nat}
    (h : KeyedAt3 E own peer s₀ u p) : KeyedAt3 E (own ++ own') (peer ++ peer') s₀ u p := by
  obtain ⟨k, y, h1, h2, h3⟩ := h
  refine ⟨k, y, ?_, ?_, h3⟩
  · rw [List.getElem?_append_left (List.getElem?_eq_some_iff.mp h1).1]; exact h1
  · rw [List.getElem?_append_left (List.getElem?_eq_some_iff.mp h2).1]; exact h2

/-- What is known after a log. -/
structure Logged3 (E : Env) (s₀ : Enc3) (o1 o2 : DH.Keypair) (y : Nat) (us : List Use3) (draws : List Bytes) (s : Enc3) (used : List Bytes)
    (ys : List Nat) (ps : List (Nat × Nat)) : Prop where
  wf : s.keys.WF
  same : s.our = s₀.our ∧ s.their = s₀.their
  drawn : used <+ draws
  nexts : ys <+ us.filterMap nextKeyOf
  keys : Keys3 (o1 :: o2 :: used.map (DH.Keypair.generate E.dh)) (y :: ys) s.keys
  keyed : List.Forall₂ (KeyedAt3 E (o1 :: o2 :: used.map (DH.Keypair.generate E.dh)) (y :: ys) s₀) us ps
  acked : ∀ m ad r, Use3.read m ad r ∈ us → m.receiverKeyid.toNat ≤ s.keys.ours.acknowledged.toNat

/-- What receiving a message does to the keys. -/
theorem decrypt3_keys {E : Env} {own : List DH.Keypair} {peer : List Nat} {k k' : KeyManager} (h : Keys3 own peer k) (hk : k.WF) {m : DataMessage}
    (hm : Decoded m) {ad fresh : Bytes} {rd : Res Bytes} (hd : decrypt3 E m ad fresh k = (rd, k')) (hr : rd ≠ .panic) :
    ∃ ds zs, ds <+ [fresh] ∧ Keys3 (own ++ ds.map (DH.Keypair.generate E.dh)) (peer ++ zs) k' ∧ (∀ e, rd = .err e → zs = []) ∧
      ∀ plain, rd = .ok plain → zs <+ [m.dhY] ∧ k'.ours.acknowledged = m.receiverKeyid ∧ ∃ kp y, own[m.receiverKeyid.toNat - 1]? = some kp ∧
        peer[m.senderKeyid.toNat - 1]? = some y ∧ m.authenticator = E.hmacSha1 (E.sha1 (recvKey3 E kp y)) ad ∧
        plain = aesCrypt E (recvKey3 E kp y) (ctrNonce m.ctr) m.encrypted := by
  have stay : ∀ {e}, rd = .err e → k'.ours = k.ours → k'.theirs = k.theirs →
      ∃ ds zs, ds <+ [fresh] ∧ Keys3 (own ++ ds.map (DH.Keypair.generate E.dh)) (peer ++ zs) k' ∧ (∀ e, rd = .err e → zs = []) ∧
      ∀ plain, rd = .ok plain → zs <+ [m.dhY] ∧ k'.ours.acknowledged = m.receiverKeyid ∧ ∃ kp y, own[m.receiverKeyid.toNat - 1]? = some kp ∧
        peer[m.senderKeyid.toNat - 1]? = some y ∧ m.authenticator = E.hmacSha1 (E.sha1 (recvKey3 E kp y)) ad ∧
        plain = aesCrypt E (recvKey3 E kp y) (ctrNonce m.ctr) m.encrypted := by
    intro e he h1 h2
    refine ⟨[], [], List.nil_sublist _, ?_, fun _ _ => rfl, fun plain hp => ?_⟩
    · simpa using h.congr h1 h2
    · rw [he] at hp; cases hp
  have hs1 : 0 < m.senderKeyid.toNat := by
    have : m.senderKeyid.toNat ≠ 0 := fun e => hm.1 (UInt32.toNat_inj.mp e)
    omega
  rcases decrypt3_cases (E := E) m ad fresh hm.1 hm.2.1 hm.2.2 hk with
    ⟨_, h1 | ⟨h1, _⟩⟩ | ⟨_, _, h1⟩ | ⟨hw, sec, hsec, ⟨_, h1⟩ | ⟨hauth, _, ⟨_, h1⟩ | ⟨hc, ⟨_, h1⟩ | ⟨hlt, _, ⟨hid, _, h1⟩ | ⟨_, h1⟩⟩⟩⟩⟩
  · rw [h1] at hd; obtain ⟨e, rfl⟩ := Prod.mk.inj hd; exact stay e.symm rfl rfl
  · rw [h1] at hd; exact absurd (Prod.mk.inj hd).1.symm hr
  · rw [h1] at hd; exact absurd (Prod.mk.inj hd).1.symm hr
  · rw [h1] at hd; obtain ⟨e, rfl⟩ := Prod.mk.inj hd; exact stay e.symm rfl rfl
  · rw [h1] at hd; obtain ⟨e, rfl⟩ := Prod.mk.inj hd; exact stay e.symm (useMac_ours _ _) (useMac_theirs _ _)
  · rw [hd] at h1; exact absurd h1 hr
  · rw [h1] at hd; obtain ⟨e, rfl⟩ := Prod.mk.inj hd
    have h2 : Keys3 own peer ((k.useMac (sec.receiverMac E)).seeCtr m.ctr) := h.congr (useMac_ours _ _) (useMac_theirs _ _)
    obtain ⟨ds, d1, d2, _⟩ := h2.ackStep E.dh (r := m.receiverKeyid) (by simp only [KeyManager.seeCtr, useMac_ours]; exact hw.2) fresh
    exact ⟨ds, [], d1, by rw [List.append_nil]; exact d2, fun _ _ => rfl, fun plain hp => by rw [← e] at hp; cases hp⟩
  · rw [h1] at hd; obtain ⟨e, rfl⟩ := Prod.mk.inj hd
    have h2 : Keys3 own peer ((k.useMac (sec.receiverMac E)).seeCtr m.ctr) := h.congr (useMac_ours _ _) (useMac_theirs _ _)
    obtain ⟨ds, d1, d2, d3⟩ := h2.ackStep E.dh (r := m.receiverKeyid) (by simp only [KeyManager.seeCtr, useMac_ours]; exact hw.2) fresh
    have hn : (m.senderKeyid + 1).toNat = m.senderKeyid.toNat + 1 := (incId_of_lt hlt).2
    obtain ⟨zs, z1, z2⟩ := d2.regStep (r := m.senderKeyid + 1) (by
      rw [ackStep_theirs]
      simp only [KeyManager.seeCtr, useMac_theirs]
      rcases hw.1 with h | h
      · exact .inl (UInt32.toNat_inj.mp (by omega))
      · right; rw [h]; exact hn) m.dhY
    refine ⟨ds, zs, d1, z2, (fun e' he' => by rw [← e] at he'; cases he'), fun plain hp => ⟨z1, ?_, k.ours.keys.get m.receiverKeyid,
      k.theirs.keys.get m.senderKeyid, ?_, ?_, ?_, ?_⟩⟩
    · unfold KeyManager.afterAccept
      rw [regStep_ours]
      exact d3
    · rcases hw.2 with h' | h'
      · rw [← h']; exact h.cur
      · rw [slots_get_succ _ h', show m.receiverKeyid.toNat - 1 = k.ours.acknowledged.toNat by omega]; exact h.next
    · rcases hw.1 with h' | h'
      · rw [slots_get_pred _ h', show m.senderKeyid.toNat - 1 = k.theirs.id.toNat - 2 by omega]; exact h.before (by omega)
      · rw [← h']; exact h.last
    · rw [hauth]
      unfold DataSecrets.receiverMac
      rw [(dataSecrets_keys hsec).2]
    · rw [← e] at hp
      cases hp
      rw [(dataSecrets_keys hsec).2]

theorem Logged3.onSend {E : Env} {o1 o2 : DH.Keypair} {y : Nat} {s₀ s s' : Enc3} {us : List Use3} {ds used : List Bytes} {ys : List Nat}
    {ps : List (Nat × Nat)} (L : Logged3 E s₀ o1 o2 y us ds s used ys ps) {flags : UInt8} {plain : Bytes} {m : DataMessage}
    (he : Enc3.encrypt E flags plain s = (.ok m, s')) : ∃ p, Logged3 E s₀ o1 o2 y (us ++ [.sent m plain]) ds s' used ys (ps ++ [p]) := by
  obtain ⟨e1, e2⟩ := encrypt_keys he
  obtain ⟨a, b1, b2, _, _, _, b6, b7⟩ := encrypt3_adv L.wf e1
  obtain ⟨sec, c1, _, c3, c4, _, _, _, _⟩ := encrypt3_ok e1
  obtain ⟨k1, k2⟩ := dataSecrets_keys c1
  have ho := L.keys.ack
  have hi := L.keys.id
  refine ⟨(s.keys.ours.acknowledged.toNat - 1, s.keys.theirs.id.toNat - 1), a.wf, ?_, L.drawn, ?_, L.keys.congr b6 b7, ?_, ?_⟩
  · rw [e2.1, e2.2]; exact L.same
  · rw [List.filterMap_append]
    show ys <+ _ ++ []
    rw [List.append_nil]
    exact L.nexts
  · refine List.rel_append L.keyed (.cons ⟨_, _, L.keys.cur, L.keys.last, ?_, ?_, ?_, ?_⟩ .nil)
    · rw [b1]; omega
    · rw [b2]; omega
    · have : m.encrypted = aesCrypt E sec.sendkey (ctrNonce m.ctr) plain := congrArg DataMessage.encrypted c4
      rw [this, k1]
      rfl
    · rw [← L.same.1, ← L.same.2]
      have : m.authenticator = E.hmacSha1 (sec.senderMac E) (authenticatorData 3 s.our s.their m) := by rw [c4]; rfl
      rw [this]
      unfold DataSecrets.senderMac
      rw [k1]
      rfl
  · intro m' ad r h
    rw [b6]
    exact L.acked m' ad r (by simpa using h)

theorem Logged3.onRefuse {E : Env} {o1 o2 : DH.Keypair} {y : Nat} {s₀ s s' : Enc3} {us : List Use3} {ds used : List Bytes} {ys : List Nat}
    {ps : List (Nat × Nat)} (L : Logged3 E s₀ o1 o2 y us ds s used ys ps) {m : DataMessage} {ad fresh : Bytes} {t : UInt32}
    (hd : Decoded m) (he : Enc3.handle E m ad fresh s = (.err (.unreadableMessage t), s')) :
    ∃ ds', ds' <+ [fresh] ∧ Logged3 E s₀ o1 o2 y us (ds ++ [fresh]) s' (used ++ ds') ys ps := by
  obtain ⟨rd, h1, h2, h3, h4, h5, h6, h7, h8⟩ := handle_decrypt he
  have hp : rd ≠ .panic := fun e => by have := h4 e; cases this
  have ha := decrypt3_adv L.wf hd h1 hp
  obtain ⟨ds', zs, d1, d2, d3, d4⟩ := decrypt3_keys L.keys L.wf hd h1 hp
  cases rd with
  | panic => exact absurd rfl hp
  | ok plain =>
    have := h8 plain rfl
    exfalso
    split at this
    · cases this
    · cases this
    · rename_i e hpm
      cases this
      exact parse_ne_unreadable hpm
    · cases this
  | err e =>
    cases d3 e rfl
    rw [List.append_nil] at d2
    have e1 : o1 :: o2 :: used.map (DH.Keypair.generate E.dh) ++ ds'.map (DH.Keypair.generate E.dh) =
        o1 :: o2 :: (used ++ ds').map (DH.Keypair.generate E.dh) := by
      rw [List.map_append]; rfl
    rw [e1] at d2
    refine ⟨ds', d1, ha.wf, by rw [h2, h3]; exact L.same, L.drawn.append d1, L.nexts, d2, ?_, fun m' ad' r' h =>
      Nat.le_trans (L.acked m' ad' r' h) ha.ack_le⟩
    rw [← e1]
    refine L.keyed.imp fun u p h => ?_
    have := keyedAt3_mono (own' := ds'.map (DH.Keypair.generate E.dh)) (peer' := []) h
    rwa [List.append_nil] at this

theorem Logged3.onAccept {E : Env} {o1 o2 : DH.Keypair} {y : Nat} {s₀ s s' : Enc3} {us : List Use3} {ds used : List Bytes} {ys : List Nat}
    {ps : List (Nat × Nat)} (L : Logged3 E s₀ o1 o2 y us ds s used ys ps) {m : DataMessage} {ad fresh : Bytes}
    {r : Res (PMessage × Bool)} (hd : Decoded m) (he : Enc3.handle E m ad fresh s = (r, s')) (hp : r ≠ .panic)
    (hu : ∀ t, r ≠ .err (.unreadableMessage t)) :
    ∃ ds' zs p, ds' <+ [fresh] ∧ zs <+ [m.dhY] ∧
      Logged3 E s₀ o1 o2 y (us ++ [.read m ad r]) (ds ++ [fresh]) s' (used ++ ds') (ys ++ zs) (ps ++ [p]) := by
  obtain ⟨rd, h1, h2, h3, h4, h5, h6, h7, h8⟩ := handle_decrypt he
  have hp : rd ≠ .panic := fun e => hp (h4 e)
  have ha := decrypt3_adv L.wf hd h1 hp
  obtain ⟨ds', zs, d1, d2, d3, d4⟩ := decrypt3_keys L.keys L.wf hd h1 hp
  cases rd with
  | panic => exact absurd rfl hp
  | err e => exact absurd (h6 e rfl) (hu _)
  | ok plain =>
    obtain ⟨z1, a1, kp, y, k1, k2, k3, k4⟩ := d4 plain rfl
    have e1 : o1 :: o2 :: used.map (DH.Keypair.generate E.dh) ++ ds'.map (DH.Keypair.generate E.dh) =
        o1 :: o2 :: (used ++ ds').map (DH.Keypair.generate E.dh) := by
      rw [List.map_append]; rfl
    rw [e1] at d2
    have hs1 : m.senderKeyid.toNat ≠ 0 := fun e => hd.1 (UInt32.toNat_inj.mp e)
    have hr1 : m.receiverKeyid.toNat ≠ 0 := fun e => hd.2.1 (UInt32.toNat_inj.mp e)
    refine ⟨ds', zs, (m.receiverKeyid.toNat - 1, m.senderKeyid.toNat - 1), d1, z1, ha.wf, by rw [h2, h3]; exact L.same,
      L.drawn.append d1, ?_, d2, ?_, fun m' ad' r' h => ?_⟩
    · rw [List.filterMap_append]
      exact L.nexts.append z1
    · rw [← e1]
      refine List.rel_append (L.keyed.imp fun u p h => keyedAt3_mono (peer' := zs) h) (.cons (keyedAt3_mono (peer' := zs) ⟨kp, y, k1, k2, ?_⟩) .nil)
      refine ⟨by simp only; omega, by simp only; omega, k3, ?_⟩
      rw [← k4]
      have := h8 plain rfl
      cases hpm : parseMessage plain with
      | ok msg =>
        rw [hpm] at this
        cases msg with
        | confidential c t => exact this
        | confidentialFinished c => exact this
      | err e => rw [hpm] at this; exact this
      | panic => exact absurd hpm (parseMessage_ne_panic _)
    · rcases List.mem_append.mp h with h | h
      · exact Nat.le_trans (L.acked m' ad' r' h) ha.ack_le
      · cases List.mem_singleton.mp h
        rw [a1]

theorem logged3 {E : Env} {our their : UInt32} {ourDh : DH.Keypair} {theirDh : Nat} {rnd : Rand} {s₀ s : Enc3} {us : List Use3}
    {draws : List Bytes} (hf : Enc3.new E our their ourDh theirDh rnd = .ok s₀) (hl : Log3 E s₀ us draws s) :
    ∃ used ys ps, Logged3 E s₀ ourDh (DH.Keypair.generate E.dh (rnd.bytes [0] 192)) theirDh us draws s used ys ps := by
  induction hl with
  | start =>
    have hw := (fresh3_wf ⟨_, _, _, _, _, hf⟩).1
    simp only [Enc3.new, KeyManager.new, KeypairRotation.new, PublicKeyRotation.new, Res.bind_eq_ok, Res.pure_def, Res.ok.injEq] at hf
    obtain ⟨k, ⟨_, _, _, _, o, ⟨_, _, _, _, rfl⟩, t, ⟨_, _, _, _, rfl⟩, rfl⟩, rfl⟩ := hf
    exact ⟨[], [], [], hw, ⟨rfl, rfl⟩, .refl _, .refl _, ⟨Nat.one_pos, rfl, by simp [Slots.get, Slots.set], by simp [Slots.getNext, Slots.set], Nat.one_pos, rfl,
      by simp [Slots.get, Slots.set],
      fun h => absurd (show 2 ≤ 1 from h) (by decide)⟩, .nil, by simp⟩
  | send _ he ih =>
    obtain ⟨used, ys, ps, L⟩ := ih
    obtain ⟨p, L'⟩ := L.onSend he
    exact ⟨_, _, _, L'⟩
  | refuse _ hd he ih =>
    obtain ⟨used, ys, ps, L⟩ := ih
    obtain ⟨_, _, L'⟩ := L.onRefuse hd he
    exact ⟨_, _, _, L'⟩
  | accept _ hd he hp hu ih =>
    obtain ⟨used, ys, ps, L⟩ := ih
    obtain ⟨_, _, _, _, _, L'⟩ := L.onAccept hd he hp hu
    exact ⟨_, _, _, L'⟩

/-- The same from the middle of a session on: what is added comes from what happened since. -/
theorem logged3_on {E : Env} {o1 o2 : DH.Keypair} {y : Nat} {s₀ s₁ s : Enc3} {us us' : List Use3} {ds ds' used : List Bytes} {ys : List Nat}
    {ps : List (Nat × Nat)} (L : Logged3 E s₀ o1 o2 y us ds s₁ used ys ps) (hl : Log3 E s₁ us' ds' s) :
    ∃ used' ys' ps', used' <+ ds' ∧ ys' <+ us'.filterMap nextKeyOf ∧ ps'.length = us'.length ∧
      Logged3 E s₀ o1 o2 y (us ++ us') (ds ++ ds') s (used ++ used') (ys ++ ys') (ps ++ ps') := by
  induction hl with
  | start => exact ⟨[], [], [], .refl _, .refl _, rfl, by simpa using L⟩
  | send _ he ih =>
    obtain ⟨used', ys', ps', h1, h2, h3, L'⟩ := ih
    obtain ⟨p, L''⟩ := L'.onSend he
    refine ⟨used', ys', ps' ++ [p], h1, ?_, by simp [h3], by simpa [List.append_assoc] using L''⟩
    rw [List.filterMap_append]
    show ys' <+ _ ++ []
    rw [List.append_nil]
    exact h2
  | refuse _ hd he ih =>
    obtain ⟨used', ys', ps', h1, h2, h3, L'⟩ := ih
    obtain ⟨d, hd', L''⟩ := L'.onRefuse hd he
    exact ⟨used' ++ d, ys', ps', h1.append hd', h2, h3, by simpa [List.append_assoc] using L''⟩
  | accept _ hd he hp hu ih =>
    obtain ⟨used', ys', ps', h1, h2, h3, L'⟩ := ih
    obtain ⟨d, z, p, hd', hz, L''⟩ := L'.onAccept hd he hp hu
    refine ⟨used' ++ d, ys' ++ z, ps' ++ [p], h1.append hd', ?_, by simp [h3], by simpa [List.append_assoc] using L''⟩
    rw [List.filterMap_append]
    exact h2.append (by simpa [nextKeyOf] using hz)

theorem keys3_held {own : List DH.Keypair} {peer : List Nat} {s : Enc3} (h : Keys3 own peer s.keys) :
    ∃ old a b, own = old ++ [a, b] ∧ (heldPairs s = [a, b] ∨ heldPairs s = [b, a]) ∧ old.length + 1 = s.keys.ours.acknowledged.toNat := by
  have h1 := h.ack
  have h2 := h.ownLen
  have h3 := h.cur
  have h4 := h.next
  refine ⟨own.take (s.keys.ours.acknowledged.toNat - 1), s.keys.ours.keys.get s.keys.ours.acknowledged,
    s.keys.ours.keys.getNext s.keys.ours.acknowledged, ?_, ?_, ?_⟩
  · apply List.ext_getElem?
    intro i
    by_cases hi : i < s.keys.ours.acknowledged.toNat - 1
    · rw [List.getElem?_append_left (by rw [List.length_take]; omega), List.getElem?_take_of_lt hi]
    · rw [List.getElem?_append_right (by rw [List.length_take]; omega), List.length_take,
        show min (s.keys.ours.acknowledged.toNat - 1) own.length = s.keys.ours.acknowledged.toNat - 1 by omega]
      by_cases h5 : i = s.keys.ours.acknowledged.toNat - 1
      · subst h5; rw [Nat.sub_self]; exact h3
      · by_cases h6 : i = s.keys.ours.acknowledged.toNat
        · subst h6
          rw [show s.keys.ours.acknowledged.toNat - (s.keys.ours.acknowledged.toNat - 1) = 1 by omega]
          exact h4
        · rw [List.getElem?_eq_none (by omega), List.getElem?_eq_none (by simp; omega)]
  · unfold heldPairs Slots.get Slots.getNext
    by_cases h5 : s.keys.ours.acknowledged.toNat % 2 = 0
    · rw [if_pos h5, if_neg (by omega)]; exact .inl rfl
    · rw [if_neg h5, if_pos (by omega)]; exact .inr rfl
  · rw [List.length_take]; omega

/-- C104: in the life of a session that began with a key exchange, whatever is sent and received, the messages were encrypted and authenticated
with the keys that follow from the key pairs of the client and the public keys of the peer that their key ids name.  The first key pair is
that of the key exchange, and each of the others is generated from random bytes of its own.  The first public key of the peer is that of the key
exchange, and the others were announced in messages that were accepted.  The client holds the last two of its key pairs and no others; and
the key pairs before the newest one that the peer is known to have used are not among them. -/
theorem C104_keys (E : Env) (our their : UInt32) (ourDh : DH.Keypair) (theirDh : Nat) (rnd : Rand) (s₀ s : Enc3) (us : List Use3)
    (draws : List Bytes) (hf : Enc3.new E our their ourDh theirDh rnd = .ok s₀) (hl : Log3 E s₀ us draws s) :
    ∃ own peer ps, (∃ used, used <+ draws ∧
        own = ourDh :: DH.Keypair.generate E.dh (rnd.bytes [0] 192) :: used.map (DH.Keypair.generate E.dh)) ∧
      (∃ ys, ys <+ us.filterMap nextKeyOf ∧ peer = theirDh :: ys) ∧ List.Forall₂ (KeyedAt3 E own peer s₀) us ps ∧
      ∃ old a b, own = old ++ [a, b] ∧ (heldPairs s = [a, b] ∨ heldPairs s = [b, a]) ∧
        ∀ m ad r, Use3.read m ad r ∈ us → m.receiverKeyid.toNat ≤ old.length + 1 := by
  obtain ⟨used, ys, ps, L⟩ := logged3 hf hl
  obtain ⟨old, a, b, h1, h2, h3⟩ := keys3_held L.keys
  exact ⟨_, _, ps, ⟨used, L.drawn, rfl⟩, ⟨ys, L.nexts, rfl⟩, L.keyed, old, a, b, h1, h2, fun m ad r h => by rw [h3]; exact L.acked m ad r h⟩

/-- C104, forward secrecy: once the client accepted a message that was encrypted for its key pair number `n`, it holds no private key of the
messages that it sent or accepted with its key pairs before `n`; unless two of its key pairs have the same private key. -/
theorem C104_forgets (E : Env) (our their : UInt32) (ourDh : DH.Keypair) (theirDh : Nat) (rnd : Rand) (s₀ s : Enc3) (us : List Use3)
    (draws : List Bytes) (hf : Enc3.new E our their ourDh theirDh rnd = .ok s₀) (hl : Log3 E s₀ us draws s) :
    ∃ own peer ps, List.Forall₂ (KeyedAt3 E own peer s₀) us ps ∧ ((own.map fun k => k.priv).Nodup →
      ∀ m ad r, Use3.read m ad r ∈ us → ∀ p ∈ ps, p.1 + 1 < m.receiverKeyid.toNat → ∀ k, own[p.1]? = some k →
        ∀ k' ∈ heldPairs s, k'.priv ≠ k.priv) := by
  obtain ⟨own, peer, ps, _, _, hk, old, a, b, rfl, h2, h3⟩ := C104_keys E our their ourDh theirDh rnd s₀ s us draws hf hl
  refine ⟨_, _, ps, hk, fun hn m ad r hm p hp hlt k hkp k' hk' e => ?_⟩
  have hlt : p.1 < old.length := by have := h3 m ad r hm; omega
  rw [List.getElem?_append_left hlt] at hkp
  have hmem : k ∈ old := List.mem_of_getElem? hkp
  have hk2 : k' ∈ [a, b] := by
    rcases h2 with h | h
    · rwa [h] at hk'
    · rw [h] at hk'; simp only [List.mem_cons, List.not_mem_nil, or_false] at hk' ⊢; exact hk'.symm
  rw [List.map_append] at hn
  exact (List.nodup_append.mp hn).2.2 _ (List.mem_map_of_mem hmem) _ (List.mem_map_of_mem hk2) e.symm

theorem log3_of_life {E : Env} {s₀ s : Enc3} {h : List Ev3} (hl : Life3 E s₀ h s) : ∃ us draws, Log3 E s₀ us draws s := by
  induction hl with
  | start => exact ⟨_, _, .start⟩
  | send _ he ih =>
    obtain ⟨us, ds, h⟩ := ih
    exact ⟨_, _, .send h he⟩
  | @recv h s s' m ad fresh r _ hd he hr ih =>
    obtain ⟨us, ds, h⟩ := ih
    by_cases hu : ∃ t, r = .err (.unreadableMessage t)
    · obtain ⟨t, rfl⟩ := hu
      exact ⟨_, _, .refuse h hd he⟩
    · exact ⟨_, _, .accept h hd he hr fun t ht => hu ⟨t, ht⟩⟩

/-- Whatever calls a client made, each session that it has with OTRv3 has a log that begins at a key exchange: `C104_keys` and `C104_forgets`
hold of it. -/
theorem C104_session (E : Env) (A : Account) (h : List Ev) (s : Session) (hh : Hist E A h s) (tag : UInt32) (x : Enc3) (smp : SMPContext)
    (hs : stateOf s tag = .encrypted3 x smp) : ∃ our their ourDh theirDh rnd s₀ us draws,
      Enc3.new E our their ourDh theirDh rnd = .ok s₀ ∧ Log3 E s₀ us draws x := by
  obtain ⟨x0, l, _, ⟨our, their, ourDh, theirDh, rnd, hf⟩, hl, _⟩ := (hist_alive hh tag).1 x smp hs
  obtain ⟨us, draws, hu⟩ := log3_of_life hl
  exact ⟨our, their, ourDh, theirDh, rnd, x0, us, draws, hf, hu⟩

/-- C104, the key exchange: once it is complete, in either role, nothing of it is kept. -/
theorem C104_exchange (E : Env) (s s' : AKEState) :
    (∀ host m r, AKE.handleRevealSignature E host m s = (.ok r, s') → s' = .none) ∧
    (∀ m r, AKE.handleSignature E m s = (.ok r, s') → s' = .none) := by
  constructor
  · intro host m r h
    have h := transact_ok.mp h
    split at h
    · simp only [Res.bind_eq_ok, Res.pure_def, Res.ok.injEq, Prod.mk.injEq] at h
      obtain ⟨_, _, _, rfl⟩ := h
      rfl
    · cases h
  · intro m r h
    have h := transact_ok.mp h
    split at h
    · simp only [Res.bind_eq_ok, Res.pure_def, Res.ok.injEq, Prod.mk.injEq] at h
      obtain ⟨_, _, _, rfl⟩ := h
      rfl
    · cases h

open Toy3

/-- A client sends two messages and accepts the reply, which names its second key pair. -/
theorem toy_log3 : Log3 toyEnv a0 ([] ++ [.sent m1 [104, 105]] ++ [.sent m2 [104, 111]] ++
    [.read n1 (authenticatorData 3 b3.our a2.our n1) (.ok (.confidential [111, 107] [], false))]) ([] ++ [[9]]) a3 :=
  .accept (.send (.send .start snd_m1) snd_m2) (by unfold Decoded; decide +kernel) rcv_n1 (by simp) (by simp)

theorem toy_ids3 : n1.receiverKeyid = 2 ∧ m1.senderKeyid = 1 ∧ (DH.Keypair.new toyEnv.dh 3).priv = 3 ∧
    (heldPairs a0).map (fun k => k.priv) = [214, 3] ∧ (heldPairs a3).map (fun k => k.priv) = [214, 9] := by decide +kernel

/-- The private key 3 of the key exchange is gone then. -/
example : ∃ m ad r, Use3.read m ad r ∈ [Use3.sent m1 [104, 105], .sent m2 [104, 111],
    .read n1 (authenticatorData 3 b3.our a2.our n1) (.ok (.confidential [111, 107] [], false))] ∧ m1.senderKeyid.toNat < m.receiverKeyid.toNat ∧
    3 ∈ (heldPairs a0).map (fun k => k.priv) ∧ 3 ∉ (heldPairs a3).map (fun k => k.priv) :=
  ⟨n1, _, _, .tail _ (.tail _ (.head _)), by rw [toy_ids3.1, toy_ids3.2.1]; decide, by rw [toy_ids3.2.2.2.1]; decide, by rw [toy_ids3.2.2.2.2]; decide⟩

example : Enc3.new toyEnv 256 257 (DH.Keypair.new toyEnv.dh 3) (DH.Keypair.new toyEnv.dh 7).pub (smallRand 1) = .ok a0 ∧
    ∃ us draws, us.length = 3 ∧ Log3 toyEnv a0 us draws a3 := ⟨new_a0, _, _, rfl, toy_log3⟩

end Otrr.Props
