import Verif.Lemmas.Hist3
import Verif.Props.Crypto
/-! # Two OTRv3 clients connected by an orderly network -/

namespace Otrr
open KeyManager Spec

/-! ## Slots -/

theorem Slots.get_setNext_same {α : Type} (s : Slots α) (r : UInt32) (v : α) : (s.setNext r v).get r = s.get r := by
  unfold Slots.get Slots.setNext
  by_cases h : r.toNat % 2 = 0
  · have : ¬ (r.toNat + 1) % 2 = 0 := by omega
    simp [h, this]
  · have : (r.toNat + 1) % 2 = 0 := by omega
    simp [h, this]

theorem Slots.getNext_setNext {α : Type} (s : Slots α) (r : UInt32) (v : α) : (s.setNext r v).getNext r = v := by
  unfold Slots.getNext Slots.setNext
  split <;> rfl

theorem Slots.getNext_eq {α : Type} (s : Slots α) {a r : UInt32} (h : r.toNat = a.toNat + 1) :
    s.getNext a = s.get r := by
  simp only [Slots.getNext, Slots.get, h]

theorem Slots.getNext_prev {α : Type} (s : Slots α) {a r : UInt32} (h : r.toNat = a.toNat + 1) :
    s.getNext r = s.get a := by
  simp only [Slots.getNext, Slots.get, h]
  have : (a.toNat + 1 + 1) % 2 = 0 ↔ a.toNat % 2 = 0 := by omega
  simp only [this]

theorem xorStream_twice (ks : Nat → UInt8) (d : Bytes) : xorStream ks (xorStream ks d) = d := by
  apply List.ext_getElem?
  intro i
  simp only [xorStream, List.getElem?_mapIdx]
  cases d[i]? with
  | none => rfl
  | some b => simp [UInt8.xor_assoc]

theorem aesCrypt_twice (E : Env) (k n d : Bytes) : aesCrypt E k n (aesCrypt E k n d) = d := xorStream_twice _ _

/-! ## The invariant -/

/-- A message and its plaintext, as sent with the key pairs `KA` for the holder of `KB`. -/
structure Sent3 (E : Env) (KA KB : Nat → DH.Keypair) (ta tb : UInt32) (x : DataMessage × Bytes) : Prop where
  dec : Decoded x.1
  lt : x.1.senderKeyid.toNat < 4294967295
  dhY : x.1.dhY = (KA (x.1.senderKeyid.toNat + 1)).pub
  sec : ∃ sec, dataSecrets E (KA x.1.senderKeyid.toNat) (KB x.1.receiverKeyid.toNat).pub = .ok sec ∧
    x.1.encrypted = aesCrypt E sec.sendkey (ctrNonce x.1.ctr) x.2 ∧
    x.1.authenticator = E.hmacSha1 (sec.senderMac E) (authenticatorData 3 ta tb x.1)
  nz : anyNonzero x.1.authenticator = true

/-- What relates a sender `a`, a receiver `b` and the messages from `a` to `b`. -/
structure Link (E : Env) (KA KB : Nat → DH.Keypair) (a b : Enc3) (ab : List (DataMessage × Bytes)) : Prop where
  wf : a.keys.WF
  tags : a.their = b.our
  gen : ∀ n, ∃ x, KA n = DH.Keypair.new E.dh x
  ack : a.keys.ours.keys.get a.keys.ours.acknowledged = KA a.keys.ours.acknowledged.toNat
  next : a.keys.ours.keys.getNext a.keys.ours.acknowledged = KA (a.keys.ours.acknowledged.toNat + 1)
  cur : b.keys.theirs.keys.get b.keys.theirs.id = (KA b.keys.theirs.id.toNat).pub
  prev : 2 ≤ b.keys.theirs.id.toNat →
    b.keys.theirs.keys.getNext b.keys.theirs.id = (KA (b.keys.theirs.id.toNat - 1)).pub
  lo : a.keys.ours.acknowledged.toNat ≤ b.keys.theirs.id.toNat
  hi : b.keys.theirs.id.toNat ≤ a.keys.ours.acknowledged.toNat + 1
  sent : ∀ x ∈ ab, Sent3 E KA KB a.our b.our x
  bounds : ∀ x ∈ ab, b.keys.theirs.id.toNat ≤ x.1.senderKeyid.toNat + 1 ∧
    x.1.senderKeyid.toNat ≤ a.keys.ours.acknowledged.toNat ∧
    b.keys.ours.acknowledged.toNat ≤ x.1.receiverKeyid.toNat ∧
    x.1.receiverKeyid.toNat ≤ a.keys.theirs.id.toNat
  sorted : ab.Pairwise fun x y => x.1.senderKeyid.toNat ≤ y.1.senderKeyid.toNat ∧
    x.1.receiverKeyid.toNat ≤ y.1.receiverKeyid.toNat

/-- Only the key ids, keys and tags matter. -/
theorem Link.congr {E : Env} {KA KB : Nat → DH.Keypair} {a b a' b' : Enc3} {ab : List (DataMessage × Bytes)}
    (h : Link E KA KB a b ab) (hwf : a'.keys.WF) (a1 : a'.our = a.our) (a2 : a'.their = a.their)
    (a3 : a'.keys.ours = a.keys.ours) (a4 : a'.keys.theirs = a.keys.theirs) (b1 : b'.our = b.our)
    (b3 : b'.keys.ours = b.keys.ours) (b4 : b'.keys.theirs = b.keys.theirs) : Link E KA KB a' b' ab := by
  obtain ⟨_, h2, h3, h4, h5, h6, h7, h8, h9, h10, h11, h12⟩ := h
  refine ⟨hwf, ?_, h3, ?_, ?_, ?_, ?_, ?_, ?_, ?_, ?_, h12⟩ <;>
    simp only [a1, a2, a3, a4, b1, b3, b4] <;> assumption

theorem Link.tail {E : Env} {KA KB : Nat → DH.Keypair} {a b : Enc3} {x : DataMessage × Bytes}
    {ab : List (DataMessage × Bytes)} (h : Link E KA KB a b (x :: ab)) : Link E KA KB a b ab := by
  obtain ⟨h1, h2, h3, h4, h5, h6, h7, h8, h9, h10, h11, h12⟩ := h
  exact ⟨h1, h2, h3, h4, h5, h6, h7, h8, h9, fun y hy => h10 y (by simp [hy]), fun y hy => h11 y (by simp [hy]),
    (List.pairwise_cons.mp h12).2⟩

theorem authenticatorData_mac (v : UInt16) (s r : UInt32) (m : DataMessage) (x : Bytes) :
    authenticatorData v s r { m with authenticator := x } = authenticatorData v s r m := rfl

/-- Sending. -/
theorem Link.send {E : Env} {KA KB : Nat → DH.Keypair} {a b a' : Enc3} {ab ba : List (DataMessage × Bytes)}
    {flags : UInt8} {plain : Bytes} {m : DataMessage} (h : Link E KA KB a b ab) (g : Link E KB KA b a ba)
    (he : Enc3.encrypt E flags plain a = (.ok m, a')) :
    Link E KA KB a' b (ab ++ [(m, plain)]) ∧ Link E KB KA b a' ba := by
  obtain ⟨hk, o1, o2⟩ := encrypt_keys he
  obtain ⟨ha, e1, e2, _, _, e5, e6, e7⟩ := encrypt3_adv h.wf hk
  obtain ⟨sec, hsec, hlt, _, hm, _, hnz, _⟩ := encrypt3_ok hk
  have hA : Link E KA KB a' b ab := h.congr ha.wf o1 o2 e6 e7 rfl rfl rfl
  refine ⟨?_, g.congr g.wf rfl rfl rfl rfl o1 e6 e7⟩
  have hsent : Sent3 E KA KB a.our b.our (m, plain) := by
    refine ⟨⟨?_, ?_, e5⟩, ?_, ?_, ⟨sec, ?_, ?_, ?_⟩, hnz⟩
    · simp only [e1]; exact h.wf.ack
    · simp only [e2]; exact h.wf.id
    · simp only [e1]; exact hlt
    · simp only [e1]
      rw [hm, ← h.next]
      rfl
    · simp only [e1, e2]
      simp only [KeypairRotation.current, PublicKeyRotation.current, h.ack, g.cur] at hsec
      exact hsec
    · simp only
      exact (congrArg DataMessage.encrypted hm).trans rfl
    · simp only
      rw [← h.tags]
      have e : authenticatorData 3 a.our a.their m =
          authenticatorData 3 a.our a.their (built3 E a.our a.their flags plain a.keys sec m.ctr) := by rw [← hm]
      rw [e]
      exact (congrArg DataMessage.authenticator hm).trans rfl
  refine ⟨hA.wf, hA.tags, hA.gen, hA.ack, hA.next, hA.cur, hA.prev, hA.lo, hA.hi, ?_, ?_, ?_⟩
  · intro x hx
    simp only [List.mem_append, List.mem_singleton] at hx
    rcases hx with hx | rfl
    · exact hA.sent x hx
    · rw [o1]; exact hsent
  · intro x hx
    simp only [List.mem_append, List.mem_singleton] at hx
    rcases hx with hx | rfl
    · exact hA.bounds x hx
    · have := h.hi
      have := h.lo
      have := g.lo
      simp only [e1, e2, e6, e7]
      omega
  · rw [List.pairwise_append]
    refine ⟨hA.sorted, by simp, ?_⟩
    intro x hx y hy
    simp only [List.mem_singleton] at hy
    subst hy
    have := h.bounds x hx
    simp only [e1, e2]
    omega

/-- Acknowledging the receiver's key. -/
theorem Link.acknowledge {E : Env} {KA KB : Nat → DH.Keypair} {a b : Enc3} {ab ba : List (DataMessage × Bytes)}
    (h : Link E KA KB a b ab) (g : Link E KB KA b a ba) {r : UInt32} {fresh : Bytes} (hr0 : r ≠ 0)
    (hr : b.keys.ours.acknowledged = r ∨ r.toNat = b.keys.ours.acknowledged.toNat + 1)
    (hle : r.toNat ≤ a.keys.theirs.id.toNat) (hab : ∀ x ∈ ab, r.toNat ≤ x.1.receiverKeyid.toNat) :
    ∃ KB', Link E KA KB' a { b with keys := b.keys.ackStep E.dh r fresh } ab ∧
      Link E KB' KA { b with keys := b.keys.ackStep E.dh r fresh } a ba := by
  by_cases heq : r = b.keys.ours.acknowledged
  · refine ⟨KB, ?_, ?_⟩
    · rw [KeyManager.ackStep, if_pos heq]; exact h
    · rw [KeyManager.ackStep, if_pos heq]; exact g
  · have hr1 : r.toNat = b.keys.ours.acknowledged.toNat + 1 := hr.resolve_left fun e => heq e.symm
    have hk : b.keys.ackStep E.dh r fresh =
        { b.keys with ours := ⟨b.keys.ours.keys.setNext r (DH.Keypair.generate E.dh fresh), r⟩ }.rotated := by
      rw [KeyManager.ackStep, if_neg heq]
    have hwf : (b.keys.ackStep E.dh r fresh).WF := WF.ackStep g.wf hr0
    have o1 : (b.keys.ackStep E.dh r fresh).ours =
        ⟨b.keys.ours.keys.setNext r (DH.Keypair.generate E.dh fresh), r⟩ := by rw [hk]; rfl
    have o2 : (b.keys.ackStep E.dh r fresh).theirs = b.keys.theirs := ackStep_theirs ..
    have ghi := g.hi
    have glo := g.lo
    refine ⟨fun n => if n = r.toNat + 1 then DH.Keypair.generate E.dh fresh else KB n, ?_, ?_⟩
    · refine ⟨h.wf, h.tags, h.gen, h.ack, h.next, ?_, ?_, ?_, ?_, ?_, ?_, h.sorted⟩
      · simp only [o2]; exact h.cur
      · simp only [o2]; exact h.prev
      · simp only [o2]; exact h.lo
      · simp only [o2]; exact h.hi
      · intro x hx
        have hs := h.sent x hx
        refine ⟨hs.dec, hs.lt, hs.dhY, ?_, hs.nz⟩
        have hb := h.bounds x hx
        have : ¬ x.1.receiverKeyid.toNat = r.toNat + 1 := by omega
        simp only [this, if_false]
        exact hs.sec
      · intro x hx
        have hb := h.bounds x hx
        have := hab x hx
        simp only [o1, o2]
        omega
    · refine ⟨hwf, g.tags, ?_, ?_, ?_, ?_, ?_, ?_, ?_, ?_, ?_, g.sorted⟩
      · intro n
        by_cases hn : n = r.toNat + 1
        · simp only [hn, if_true]
          exact ⟨_, rfl⟩
        · simp only [hn, if_false]
          exact g.gen n
      · simp only [o1, Slots.get_setNext_same]
        have : ¬ r.toNat = r.toNat + 1 := by omega
        simp only [this, if_false]
        rw [← Slots.getNext_eq _ hr1, g.next, hr1]
      · simp only [o1, Slots.getNext_setNext, if_true]
      · have : ¬ a.keys.theirs.id.toNat = r.toNat + 1 := by omega
        simp only [this, if_false]
        exact g.cur
      · intro h2
        have : ¬ a.keys.theirs.id.toNat - 1 = r.toNat + 1 := by omega
        simp only [this, if_false]
        exact g.prev h2
      · simp only [o1]; omega
      · simp only [o1]; omega
      · intro x hx
        have hs := g.sent x hx
        have hb := g.bounds x hx
        have n1 : ¬ x.1.senderKeyid.toNat = r.toNat + 1 := by omega
        have n2 : ¬ x.1.senderKeyid.toNat + 1 = r.toNat + 1 := by omega
        refine ⟨hs.dec, hs.lt, ?_, ?_, hs.nz⟩
        · simp only [n2, if_false]; exact hs.dhY
        · simp only [n1, if_false]; exact hs.sec
      · intro x hx
        have hb := g.bounds x hx
        simp only [o1, o2]
        omega

/-- Registering the sender's next key. -/
theorem Link.register {E : Env} {KA KB : Nat → DH.Keypair} {a b : Enc3} {ab ba : List (DataMessage × Bytes)}
    (h : Link E KA KB a b ab) (g : Link E KB KA b a ba) {s : UInt32} (hlt : s.toNat < 4294967295)
    (hs : b.keys.theirs.id.toNat = s.toNat + 1 ∨ b.keys.theirs.id = s)
    (hle : s.toNat ≤ a.keys.ours.acknowledged.toNat) (hab : ∀ x ∈ ab, s.toNat ≤ x.1.senderKeyid.toNat) :
    Link E KA KB a { b with keys := b.keys.regStep (s + 1) (KA (s.toNat + 1)).pub } ab ∧
      Link E KB KA { b with keys := b.keys.regStep (s + 1) (KA (s.toNat + 1)).pub } a ba := by
  obtain ⟨e1, e2⟩ := add_one_ne_zero hlt
  by_cases heq : b.keys.theirs.id = s + 1
  · rw [KeyManager.regStep, if_pos heq]
    exact ⟨h, g⟩
  · have hid : b.keys.theirs.id = s := hs.resolve_left fun e => heq (UInt32.toNat_inj.mp (by rw [e, e1]))
    have hk : b.keys.regStep (s + 1) (KA (s.toNat + 1)).pub =
        { b.keys with theirs := ⟨b.keys.theirs.keys.setNext b.keys.theirs.id (KA (s.toNat + 1)).pub, s + 1⟩ }.rotated := by
      rw [KeyManager.regStep, if_neg heq]
    have hwf : (b.keys.regStep (s + 1) (KA (s.toNat + 1)).pub).WF := WF.regStep g.wf e2
    have o1 : (b.keys.regStep (s + 1) (KA (s.toNat + 1)).pub).ours = b.keys.ours := regStep_ours ..
    have o2 : (b.keys.regStep (s + 1) (KA (s.toNat + 1)).pub).theirs =
        ⟨b.keys.theirs.keys.setNext b.keys.theirs.id (KA (s.toNat + 1)).pub, s + 1⟩ := by rw [hk]; rfl
    have hhi := h.hi
    have hlo := h.lo
    constructor
    · refine ⟨h.wf, h.tags, h.gen, h.ack, h.next, ?_, ?_, ?_, ?_, h.sent, ?_, h.sorted⟩
      · simp only [o2]
        rw [← Slots.getNext_eq (a := b.keys.theirs.id) _ (by rw [e1, hid]), Slots.getNext_setNext, e1]
      · simp only [o2]
        intro _
        rw [Slots.getNext_prev (a := b.keys.theirs.id) _ (by rw [e1, hid]), Slots.get_setNext_same, h.cur, e1, hid]
        rfl
      · simp only [o2, e1]
        rw [hid] at hlo
        omega
      · simp only [o2, e1]
        omega
      · intro x hx
        have hb := h.bounds x hx
        have := hab x hx
        simp only [o1, o2, e1]
        omega
    · refine ⟨hwf, g.tags, g.gen, ?_, ?_, g.cur, g.prev, ?_, ?_, g.sent, ?_, g.sorted⟩
      · simp only [o1]; exact g.ack
      · simp only [o1]; exact g.next
      · simp only [o1]; exact g.lo
      · simp only [o1]; exact g.hi
      · intro x hx
        have hb := g.bounds x hx
        simp only [o1, o2, e1]
        rw [hid] at hb
        omega

/-! ## Delivery -/

theorem pub_ne_zero {G : DHGroup} (hG : GoodGroup G) (x : Nat) : (DH.Keypair.new G x).pub ≠ 0 := by
  intro h
  simp only [DH.Keypair.new, DH.Keypair.newCustom, modpow] at h
  have hd : G.p ∣ G.g ^ x := Nat.dvd_of_mod_eq_zero h
  have hco : Nat.Coprime G.p (G.g ^ x) := Nat.Coprime.pow_right x (Nat.Coprime.symm hG.2)
  have : G.p = 1 := by
    have := Nat.Coprime.eq_one_of_dvd hco hd
    exact this
  have := hG.1
  omega

/-- The outcome of delivering the oldest message. -/
theorem Link.deliver {E : Env} (hG : GoodGroup E.dh) {KA KB : Nat → DH.Keypair} {a b : Enc3}
    {m : DataMessage} {plain : Bytes} {ab ba : List (DataMessage × Bytes)}
    (h : Link E KA KB a b ((m, plain) :: ab)) (g : Link E KB KA b a ba) (fresh : Bytes) :
    let ad := authenticatorData 3 a.our b.our m
    (beNat m.ctr ≤ beNat b.keys.theirCtr ∧ ∃ mac, mac.length = 20 ∧
      decrypt3 E m ad fresh b.keys = (.err .protocolViolation, b.keys.useMac mac)) ∨
    (beNat b.keys.theirCtr < beNat m.ctr ∧ ∃ mac, mac.length = 20 ∧
      m.dhY = (KA (m.senderKeyid.toNat + 1)).pub ∧
      decrypt3 E m ad fresh b.keys = (.ok plain, b.keys.afterAccept E m mac fresh)) := by
  have hs := h.sent (m, plain) (by simp)
  have hb := h.bounds (m, plain) (by simp)
  obtain ⟨sec, hsec, henc, hauth⟩ := hs.sec
  simp only at hsec henc hauth hb
  have hhi := h.hi
  have hlo := h.lo
  have ghi := g.hi
  have glo := g.lo
  have w1 : b.keys.theirs.id.toNat = m.senderKeyid.toNat + 1 ∨ b.keys.theirs.id = m.senderKeyid := by
    rw [← UInt32.toNat_inj]; omega
  have w2 : b.keys.ours.acknowledged = m.receiverKeyid ∨
      m.receiverKeyid.toNat = b.keys.ours.acknowledged.toNat + 1 := by
    rw [← UInt32.toNat_inj]; omega
  have hw : b.keys.InWindow m := ⟨w1, w2⟩
  have hours : b.keys.ours.keys.get m.receiverKeyid = KB m.receiverKeyid.toNat := by
    rcases w2 with e | e
    · rw [← e]; exact g.ack
    · rw [← Slots.getNext_eq _ e, g.next, e]
  have htheirs : b.keys.theirs.keys.get m.senderKeyid = (KA m.senderKeyid.toNat).pub := by
    rcases w1 with e | e
    · have h2 : 2 ≤ b.keys.theirs.id.toNat := by
        have h0 : m.senderKeyid.toNat ≠ 0 := fun z => hs.dec.1 (UInt32.toNat_inj.mp z)
        omega
      have := h.prev h2
      rw [Slots.getNext_prev _ e, e] at this
      exact this
    · rw [← e]; exact h.cur
  obtain ⟨xa, hxa⟩ := h.gen m.senderKeyid.toNat
  obtain ⟨xb, hxb⟩ := g.gen m.receiverKeyid.toNat
  have hne : (KA m.senderKeyid.toNat).pub ≠ (KB m.receiverKeyid.toNat).pub := by
    rcases dataSecrets_cases E (KA m.senderKeyid.toNat) (KB m.receiverKeyid.toNat).pub with ⟨_, h'⟩ | ⟨h', _⟩
    · rw [h'] at hsec; simp at hsec
    · exact h'
  have hshared : (KB m.receiverKeyid.toNat).sharedSecret E.dh (KA m.senderKeyid.toNat).pub =
      (KA m.senderKeyid.toNat).sharedSecret E.dh (KB m.receiverKeyid.toNat).pub := by
    rw [hxa, hxb]
    exact Props.C64_shared_secret E.dh xb xa
  obtain ⟨ka, kb, hka, hkb, m1, m2, m3, m4⟩ := Props.C64_mirrored E _ _ hne
    (wMpi ((KA m.senderKeyid.toNat).sharedSecret E.dh (KB m.receiverKeyid.toNat).pub))
  have hka' : ka = sec := by
    have e : dataSecrets E (KA m.senderKeyid.toNat) (KB m.receiverKeyid.toNat).pub = .ok ka := hka
    rw [hsec] at e
    exact (Res.ok.inj e).symm
  subst hka'
  have hkb' : dataSecrets E (b.keys.ours.keys.get m.receiverKeyid) (b.keys.theirs.keys.get m.senderKeyid) = .ok kb := by
    rw [hours, htheirs, dataSecrets, hshared]
    exact hkb
  have hdY : m.dhY ≠ 0 := by
    obtain ⟨x, hx⟩ := h.gen (m.senderKeyid.toNat + 1)
    have := hs.dhY
    simp only at this
    rw [this, hx]
    exact pub_ne_zero hG x
  have hkey : b.keys.theirs.id.toNat = m.senderKeyid.toNat + 1 → b.keys.theirs.keys.get b.keys.theirs.id = m.dhY := by
    intro e
    rw [h.cur, e]
    exact hs.dhY.symm
  have hplain : aesCrypt E kb.recvkey (ctrNonce m.ctr) m.encrypted = plain := by
    rw [henc, ← m1, aesCrypt_twice]
  have hmac : m.authenticator = E.hmacSha1 (kb.receiverMac E) (authenticatorData 3 a.our b.our m) := by
    rw [← m3]; exact hauth
  rcases decrypt3_cases (E := E) m (authenticatorData 3 a.our b.our m) fresh hs.dec.1 hs.dec.2.1 hs.dec.2.2 g.wf with
    ⟨h1, _⟩ | ⟨_, h1, _⟩ | ⟨_, sec', hsec', ⟨h1, _⟩ | ⟨_, _, ⟨h1, h2⟩ | ⟨hc, ⟨h1 | h1, _⟩ | ⟨_, _, ⟨h1, h2, _⟩ | ⟨_, h1⟩⟩⟩⟩⟩
  · exact absurd hw h1
  · rw [hours, htheirs] at h1; exact absurd h1.symm hne
  · rw [hkb'] at hsec'
    obtain rfl := Res.ok.inj hsec'
    exact absurd ⟨hmac, hs.nz⟩ h1
  · exact .inl ⟨h1, _, hmac_len _, h2⟩
  · have := hs.lt; simp only at this; omega
  · exact absurd h1 hdY
  · exact absurd (hkey h1) h2
  · rw [hkb'] at hsec'
    obtain rfl := Res.ok.inj hsec'
    rw [hplain] at h1
    exact .inr ⟨hc, _, hmac_len _, hs.dhY, h1⟩

/-- Delivery keeps the invariant. -/
theorem Link.recv {E : Env} (hG : GoodGroup E.dh) {KA KB : Nat → DH.Keypair} {a b b' : Enc3}
    {m : DataMessage} {plain fresh : Bytes} {ab ba : List (DataMessage × Bytes)} {r : Res (PMessage × Bool)}
    (h : Link E KA KB a b ((m, plain) :: ab)) (g : Link E KB KA b a ba)
    (hh : Enc3.handle E m (authenticatorData 3 a.our b.our m) fresh b = (r, b')) :
    ∃ KB', Link E KA KB' a b' ab ∧ Link E KB' KA b' a ba := by
  obtain ⟨rd, hd, o1, o2, _⟩ := handle_decrypt hh
  have hb' : b' = { b with keys := b'.keys } := by rw [← o1, ← o2]
  rcases h.deliver hG g fresh with ⟨_, mac, hl, hdel⟩ | ⟨hc, mac, hl, hy, hdel⟩
  · rw [hd] at hdel
    obtain ⟨_, hk⟩ := Prod.mk.inj hdel
    have e3 : b'.keys.ours = b.keys.ours := by rw [hk, useMac_ours]
    have e4 : b'.keys.theirs = b.keys.theirs := by rw [hk, useMac_theirs]
    refine ⟨KB, h.tail.congr h.wf rfl rfl rfl rfl o1 e3 e4, g.congr ?_ o1 o2 e3 e4 rfl rfl rfl⟩
    rw [hk]
    exact WF.useMac g.wf hl
  · rw [hd] at hdel
    obtain ⟨_, hk⟩ := Prod.mk.inj hdel
    have hs := h.sent (m, plain) (by simp)
    have hb := h.bounds (m, plain) (by simp)
    simp only at hb
    have hso := (List.pairwise_cons.mp h.sorted).1
    have hhi := h.hi
    have hlo := h.lo
    have ghi := g.hi
    have glo := g.lo
    let b1 : Enc3 := { b with keys := (b.keys.useMac mac).seeCtr m.ctr }
    have wf1 : b1.keys.WF := by
      have := WF.useMac g.wf hl
      exact ⟨this.ack, this.id, this.ourCtr, hs.dec.2.2, this.used, this.old⟩
    have e3 : b1.keys.ours = b.keys.ours := useMac_ours ..
    have e4 : b1.keys.theirs = b.keys.theirs := useMac_theirs ..
    have h1 : Link E KA KB a b1 ab := h.tail.congr h.wf rfl rfl rfl rfl rfl e3 e4
    have g1 : Link E KB KA b1 a ba := g.congr wf1 rfl rfl e3 e4 rfl rfl rfl
    obtain ⟨KB', h2, g2⟩ := h1.acknowledge g1 (r := m.receiverKeyid) (fresh := fresh) hs.dec.2.1
      (by rw [e3, ← UInt32.toNat_inj]; omega) hb.2.2.2 fun x hx => (hso x hx).2
    have h3 := h2.register g2 (s := m.senderKeyid) hs.lt
      (by
        simp only [ackStep_theirs, e4]
        rw [← UInt32.toNat_inj]
        omega) hb.2.1 fun x hx => (hso x hx).1
    rw [hb', hk, KeyManager.afterAccept, hy]
    exact ⟨KB', h3⟩

/-- What `Reach3` guarantees. -/
theorem reach3_link {E : Env} (hG : GoodGroup E.dh) {s : Pair3} (h : Reach3 E s) :
    ∃ KA KB, Link E KA KB s.a s.b s.ab ∧ Link E KB KA s.b s.a s.ba := by
  induction h with
  | @start ta tb xa xb ra rb a b ha hb =>
    simp only [Enc3.new, KeyManager.new, KeypairRotation.new, PublicKeyRotation.new, Res.bind_eq_ok, Res.pure_def,
      Res.ok.injEq] at ha hb
    obtain ⟨_, ⟨_, _, _, _, _, ⟨_, _, _, _, rfl⟩, _, ⟨_, _, _, _, rfl⟩, rfl⟩, rfl⟩ := ha
    obtain ⟨_, ⟨_, _, _, _, _, ⟨_, _, _, _, rfl⟩, _, ⟨_, _, _, _, rfl⟩, rfl⟩, rfl⟩ := hb
    refine ⟨fun n => if n = 1 then DH.Keypair.new E.dh xa else DH.Keypair.generate E.dh (ra.bytes [0] 192),
      fun n => if n = 1 then DH.Keypair.new E.dh xb else DH.Keypair.generate E.dh (rb.bytes [0] 192), ?_, ?_⟩
    · refine ⟨⟨by simp, by simp, rfl, rfl, by simp, rfl⟩, rfl, ?_, rfl, by simp [Slots.getNext, Slots.set], rfl, ?_, by simp, by simp, by simp,
        by simp, by simp⟩
      · intro n
        by_cases hn : n = 1
        · simp only [hn, if_true]; exact ⟨_, rfl⟩
        · simp only [hn, if_false]; exact ⟨_, rfl⟩
      · intro h2
        have : (1 : UInt32).toNat = 1 := rfl
        simp only at h2
        omega
    · refine ⟨⟨by simp, by simp, rfl, rfl, by simp, rfl⟩, rfl, ?_, rfl, by simp [Slots.getNext, Slots.set], rfl, ?_, by simp, by simp, by simp,
        by simp, by simp⟩
      · intro n
        by_cases hn : n = 1
        · simp only [hn, if_true]; exact ⟨_, rfl⟩
        · simp only [hn, if_false]; exact ⟨_, rfl⟩
      · intro h2
        have : (1 : UInt32).toNat = 1 := rfl
        simp only at h2
        omega
  | sendA _ he ih =>
    obtain ⟨KA, KB, h, g⟩ := ih
    exact ⟨KA, KB, h.send g he⟩
  | sendB _ he ih =>
    obtain ⟨KA, KB, h, g⟩ := ih
    have := g.send h he
    exact ⟨KA, KB, this.2, this.1⟩
  | recvB _ hab hh _ ih =>
    obtain ⟨KA, KB, h, g⟩ := ih
    rw [hab] at h
    obtain ⟨KB', h'⟩ := h.recv hG g hh
    exact ⟨KA, KB', h'⟩
  | recvA _ hab hh _ ih =>
    obtain ⟨KA, KB, h, g⟩ := ih
    rw [hab] at g
    obtain ⟨KA', h'⟩ := g.recv hG h hh
    exact ⟨KA', KB, h'.2, h'.1⟩
  | loseB _ hab ih =>
    obtain ⟨KA, KB, h, g⟩ := ih
    rw [hab] at h
    exact ⟨KA, KB, h.tail, g⟩
  | loseA _ hab ih =>
    obtain ⟨KA, KB, h, g⟩ := ih
    rw [hab] at g
    exact ⟨KA, KB, h, g.tail⟩

theorem reach3_swap {E : Env} {s : Pair3} (h : Reach3 E s) : Reach3 E s.swap := by
  induction h with
  | start ha hb => exact .start hb ha
  | sendA _ he ih => exact .sendB (s := Pair3.swap _) ih he
  | sendB _ he ih => exact .sendA (s := Pair3.swap _) ih he
  | recvB _ hab hh hr ih => exact .recvA (s := Pair3.swap _) ih hab hh hr
  | recvA _ hab hh hr ih => exact .recvB (s := Pair3.swap _) ih hab hh hr
  | loseB _ hab ih => exact .loseA (s := Pair3.swap _) ih hab
  | loseA _ hab ih => exact .loseB (s := Pair3.swap _) ih hab

/-- The result of handling a composed message that decrypts. -/
theorem handle_of_decrypt {E : Env} {m : DataMessage} {ad fresh text plain : Bytes} {tlvs : List TLV} {s : Enc3}
    {k : KeyManager} (hc : Composed text tlvs plain) (h : decrypt3 E m ad fresh s.keys = (.ok plain, k)) :
    Enc3.handle E m ad fresh s = (.ok (received text tlvs), { s with keys := k }) := by
  simp only [Enc3.handle, h, parseMessage_composed hc]
  by_cases hd : ∃ t ∈ tlvs, t.typ = 1
  · simp only [received, hd, if_true]
  · simp only [received, hd, if_false]

theorem handle_of_err {E : Env} {m : DataMessage} {ad fresh : Bytes} {s : Enc3} {k : KeyManager} {e : OTRError}
    (h : decrypt3 E m ad fresh s.keys = (.err e, k)) :
    Enc3.handle E m ad fresh s = (.err (.unreadableMessage s.their), { s with keys := k }) := by
  simp only [Enc3.handle, h]

theorem handle_of_panic {E : Env} {m : DataMessage} {ad fresh : Bytes} {s : Enc3}
    (h : (decrypt3 E m ad fresh s.keys).1 = .panic) : (Enc3.handle E m ad fresh s).1 = .panic := by
  generalize hd : decrypt3 E m ad fresh s.keys = x at h
  obtain ⟨r, k⟩ := x
  simp only at h
  subst h
  simp only [Enc3.handle, hd]

/-- A rotation on either side clears the counter. -/
theorem afterAccept_ctr {E : Env} {k : KeyManager} {m : DataMessage} {mac fresh : Bytes} :
    (k.afterAccept E m mac fresh).theirCtr = COUNTER_INITIAL ∨
      (m.receiverKeyid = k.ours.acknowledged ∧ k.theirs.id = m.senderKeyid + 1 ∧
        (k.afterAccept E m mac fresh).theirCtr = m.ctr) := by
  simp only [KeyManager.afterAccept]
  by_cases h1 : k.theirs.id = m.senderKeyid + 1
  · rw [KeyManager.regStep, if_pos (by rw [ackStep_theirs, seeCtr, useMac_theirs]; exact h1)]
    by_cases h2 : m.receiverKeyid = k.ours.acknowledged
    · rw [KeyManager.ackStep, if_pos (by rw [seeCtr, useMac_ours]; exact h2)]
      exact .inr ⟨h2, h1, rfl⟩
    · rw [KeyManager.ackStep, if_neg (by rw [seeCtr, useMac_ours]; exact h2)]
      exact .inl rfl
  · rw [KeyManager.regStep, if_neg (by rw [ackStep_theirs, seeCtr, useMac_theirs]; exact h1)]
    exact .inl rfl

theorem initial_zero : beNat COUNTER_INITIAL = 0 := by decide

/-! ## Taking turns -/

theorem new3_link {E : Env} {ta tb : UInt32} {xa xb : Nat} {ra rb : Rand} {a b : Enc3}
    (ha : Enc3.new E ta tb (DH.Keypair.new E.dh xa) (DH.Keypair.new E.dh xb).pub ra = .ok a)
    (hb : Enc3.new E tb ta (DH.Keypair.new E.dh xb) (DH.Keypair.new E.dh xa).pub rb = .ok b) :
    a.keys.ours.acknowledged = 1 ∧ a.keys.theirs.id = 1 ∧ b.keys.ours.acknowledged = 1 ∧ b.keys.theirs.id = 1 ∧
      a.keys.theirCtr = COUNTER_INITIAL ∧ b.keys.theirCtr = COUNTER_INITIAL := by
  simp only [Enc3.new, KeyManager.new, KeypairRotation.new, PublicKeyRotation.new, Res.bind_eq_ok, Res.pure_def,
    Res.ok.injEq] at ha hb
  obtain ⟨_, ⟨_, _, _, _, _, ⟨_, _, _, _, rfl⟩, _, ⟨_, _, _, _, rfl⟩, rfl⟩, rfl⟩ := ha
  obtain ⟨_, ⟨_, _, _, _, _, ⟨_, _, _, _, rfl⟩, _, ⟨_, _, _, _, rfl⟩, rfl⟩, rfl⟩ := hb
  exact ⟨rfl, rfl, rfl, rfl, rfl, rfl⟩

theorem turns3_inv {E : Env} (hG : GoodGroup E.dh) {a b : Enc3} (h : Turns3 E a b) :
    Reach3 E ⟨a, b, [], []⟩ ∧ b.keys.theirs.id = a.keys.ours.acknowledged ∧
      beNat a.keys.theirCtr = 0 ∧ beNat b.keys.theirCtr = 0 := by
  induction h with
  | start ha hb =>
    obtain ⟨h1, _, _, h4, h5, h6⟩ := new3_link ha hb
    exact ⟨.start ha hb, by rw [h1, h4], by rw [h5]; exact initial_zero, by rw [h6]; exact initial_zero⟩
  | @turn a b flags plain m a' fresh r b' _ he hh hr ih =>
    obtain ⟨hreach, hid, hca, hcb⟩ := ih
    have h1 := Reach3.sendA hreach he
    obtain ⟨hk, o1, o2⟩ := encrypt_keys he
    obtain ⟨sec, _, _, _, hm, _, _, _, hk'⟩ := encrypt3_ok hk
    have e1 : a'.keys.theirCtr = a.keys.theirCtr := by rw [hk']
    have e2 : a'.keys.theirs = a.keys.theirs := by rw [hk']
    have ms : m.senderKeyid = a.keys.ours.acknowledged := by rw [hm]; rfl
    have mr : m.receiverKeyid = a.keys.theirs.id := by rw [hm]; rfl
    have h2 : Reach3 E ⟨a', b', [], []⟩ :=
      Reach3.recvB (s := ⟨a', b, [(m, plain)], []⟩) h1 rfl (by simp only [o1]; exact hh) hr
    refine ⟨reach3_swap h2, ?_⟩
    obtain ⟨KA, KB, l, g⟩ := reach3_link hG h1
    obtain ⟨hk0, _⟩ := encrypt_keys he
    obtain ⟨rd, hd, _⟩ := handle_decrypt hh
    rcases l.deliver hG g fresh with ⟨hc, _⟩ | ⟨hc, mac, hl, hy, hdel⟩
    · simp only [hcb] at hc
      obtain ⟨KA0, KB0, l0, _⟩ := reach3_link hG hreach
      obtain ⟨_, _, _, hv, _⟩ := encrypt3_adv l0.wf hk0
      omega
    · simp only [o1] at hdel
      rw [hd] at hdel
      obtain ⟨_, hbk⟩ := Prod.mk.inj hdel
      refine ⟨?_, ?_, ?_⟩
      · rw [hbk, KeyManager.afterAccept, regStep_ours, ackStep_ack, mr, e2]
      · rw [hbk]
        rcases afterAccept_ctr (E := E) (k := b.keys) (m := m) (mac := mac) (fresh := fresh) with h' | ⟨_, h', _⟩
        · rw [h']; exact initial_zero
        · exfalso
          rw [hid, ms] at h'
          have hlt := (l.sent (m, plain) (by simp)).lt
          simp only [ms] at hlt
          have := (add_one_ne_zero hlt).1
          rw [← h'] at this
          omega
      · rw [e1]; exact hca

/-! ## Before the first reply -/

theorem early3_reach {E : Env} {s : Pair3} (h : Early3 E s) : Reach3 E s := by
  induction h with
  | start ha hb => exact .start ha hb
  | sendA _ he ih => exact .sendA ih he
  | sendB _ he ih => exact .sendB ih he
  | recvB _ hab hh hr ih => exact .recvB ih hab hh hr
  | loseB _ hab ih => exact .loseB ih hab
  | loseA _ hab ih => exact .loseA ih hab

theorem early3_ctr {E : Env} (hG : GoodGroup E.dh) {s : Pair3} (h : Early3 E s) :
    (∀ x ∈ s.ab, beNat s.b.keys.theirCtr < beNat x.1.ctr ∧ beNat x.1.ctr ≤ beNat s.a.keys.ourCtr) ∧
    (s.ab.Pairwise fun x y => beNat x.1.ctr < beNat y.1.ctr) ∧
    beNat s.b.keys.theirCtr ≤ beNat s.a.keys.ourCtr := by
  induction h with
  | start ha hb =>
    refine ⟨by simp, by simp, ?_⟩
    rw [(new3_link ha hb).2.2.2.2.2, initial_zero]
    exact Nat.zero_le _
  | @sendA s flags plain m a' hs he ih =>
    obtain ⟨KA, KB, l, g⟩ := reach3_link hG (early3_reach hs)
    obtain ⟨_, _, _, hv, ho, _⟩ := encrypt3_adv l.wf (encrypt_keys he).1
    obtain ⟨i1, i2, i3⟩ := ih
    simp only [ho]
    refine ⟨?_, ?_, by omega⟩
    · intro x hx
      simp only [List.mem_append, List.mem_singleton] at hx
      rcases hx with hx | rfl
      · have := i1 x hx
        omega
      · simp only
        omega
    · rw [List.pairwise_append]
      refine ⟨i2, by simp, ?_⟩
      intro x hx y hy
      simp only [List.mem_singleton] at hy
      subst hy
      have := i1 x hx
      simp only
      omega
  | @sendB s flags plain m b' hs he ih =>
    obtain ⟨_, _, _, _, _, _, _, _, hk⟩ := encrypt3_ok (encrypt_keys he).1
    have e : b'.keys.theirCtr = s.b.keys.theirCtr := by rw [hk]
    simp only [e]
    exact ih
  | @recvB s m plain rest fresh r b' hs hab hh hr ih =>
    obtain ⟨KA, KB, l, g⟩ := reach3_link hG (early3_reach hs)
    rw [hab] at l ih
    obtain ⟨i1, i2, i3⟩ := ih
    obtain ⟨j1, j2⟩ := List.pairwise_cons.mp i2
    have hm := i1 (m, plain) (by simp)
    simp only at hm
    obtain ⟨rd, hd, _⟩ := handle_decrypt hh
    have key : beNat b'.keys.theirCtr ≤ beNat m.ctr := by
      rcases l.deliver hG g fresh with ⟨hc, mac, hl, hdel⟩ | ⟨hc, mac, hl, hy, hdel⟩
      · rw [hd] at hdel
        rw [(Prod.mk.inj hdel).2, useMac_theirCtr]
        omega
      · rw [hd] at hdel
        rw [(Prod.mk.inj hdel).2]
        rcases afterAccept_ctr (E := E) (k := s.b.keys) (m := m) (mac := mac) (fresh := fresh) with h' | ⟨_, _, h'⟩
        · rw [h', initial_zero]; exact Nat.zero_le _
        · rw [h']
    refine ⟨fun x hx => ?_, j2, ?_⟩
    · have h1 := j1 x hx
      have h2 := i1 x (by simp [hx])
      simp only at h1 ⊢
      omega
    · simp only
      omega
  | loseB _ hab ih =>
    rw [hab] at ih
    exact ⟨fun x hx => ih.1 x (by simp [hx]), (List.pairwise_cons.mp ih.2.1).2, ih.2.2⟩
  | loseA _ hab ih => exact ih

end Otrr
