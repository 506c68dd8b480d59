import Verif.Spec.SessionSmp
import Verif.Lemmas.SessionExchange
import Verif.Lemmas.SessionMeetToy
/-! C74: two clients exchange keys and talk. -/

namespace Otrr.Props
open Otrr Otrr.Spec Otrr.Session

theorem dakeOf_inst (s : Session) (k : UInt32) : dakeOf s k = (s.inst k).dake := by
  unfold dakeOf inst
  cases lookup s.instances k <;> rfl

theorem tag_ne_zero {t : UInt32} (h : 0x100 ≤ t) : t ≠ 0 := by
  rintro rfl
  exact absurd h (by decide)

/-- Receiving a query, when the policy selects OTRv4. -/
theorem offer4_run {E : Env} {B : Account} {c : Call} {s : Session} (hi : Inv E s) {q : Bytes} {vs : List Version} (hf : matchFragment q = false)
    (hp : parse E q = .ok (.query vs)) (h4 : .v4 ∈ vs) (ha : AllowsV4 B) {r : EncodedMessageType} {d : DAKEState} {t : Bytes}
    (h : DAKE.initiate E (c.dake B) (c.rnd.sub 0) (s.inst 0).dake = (.ok r, d))
    (ht : serialize (.encoded ⟨.v4, B.tag, 0, r⟩) = .ok t) (hl : t.length ≤ c.messageSize) :
    ((Op.receive q).run E B c s).result = .ok (.user .none) ∧ ((Op.receive q).run E B c s).sent = [t] ∧
      ((Op.receive q).run E B c s).after.inst 0 = { s.inst 0 with dake := d } ∧
      ∀ k, k ≠ 0 → ((Op.receive q).run E B c s).after.inst k = s.inst k := by
  have hb : Best B vs .v4 := ⟨h4, ha⟩
  have h0 : (s.inst 0).receiver = 0 := hi.receiver 0
  have hrun : Instance.initiate E B c .v4 ⟨s.inst 0, []⟩ = (.ok .none, ⟨{ s.inst 0 with dake := d }, [t]⟩) :=
    Instance.initiate4_eq h (by rw [h0]; exact ht) hl
  have hr : receive E B c q ⟨s, []⟩ =
      (.ok .none, ⟨{ s with instances := insertKey s.instances 0 { s.inst 0 with dake := d } }, [t]⟩) := by
    simp only [receive, not_disabled hb.some, Bool.false_eq_true, if_false, hf, receiveWhole, StM.bind_run, StM.lift, hp, answerOffer,
      select_best hb, Session.initiate, entry, INSTANCE_ZERO]
    have : (lookup s.instances 0).getD (.new 0) = s.inst 0 := rfl
    rw [this, hrun]
    rfl
  refine ⟨?_, ?_, ?_, fun k hk => ?_⟩
  · rw [Op.run, perform_result, hr]; rfl
  · rw [Op.run, perform_sent, hr]
  · rw [Op.run, perform_after, hr]; exact inst_insert
  · rw [Op.run, perform_after, hr]
    unfold inst
    rw [lookup_insertKey, if_neg (Ne.symm hk)]

/-- A number that passes the checks of D-H keys fits. -/
theorem valid_fits {E : Env} (hg : FitsMpi E.dh3.p) {v : Nat} (h : Valid3072 E v) : v ≤ E.dh3.p ∧ FitsMpi v := by
  have : v ≤ E.dh3.p := Nat.le_trans h.2.1 (Nat.sub_le _ _)
  obtain ⟨k, hk, hp⟩ := hg
  exact ⟨this, k, hk, Nat.lt_of_le_of_lt this hp⟩

/-- The exchange, with the steps of the key exchange in each call. -/
theorem exchange4 (E : Env) (A B : Account) (hA hB : List Ev) (sA sB : Session) (hhA : Hist E A hA sA) (hhB : Hist E B hB sB)
    (cB1 cA2 cB3 cA4 : Call) (meet : CanMeet4 E A B cA2 cB1) (sameB : cB3.dake B = cB1.dake B) (sameA : cA4.dake A = cA2.dake A)
    (room : Roomy E cB3)
    (fresh : (DH.Keypair.generate3 E.dh3 (((cB3.rnd.sub 0).sub 1).bytes [0] 80)).pub ≠
      (DH.Keypair.generate3 E.dh3 ((cB1.rnd.sub 0).bytes [3] 80)).pub)
    (q : Bytes) (vs : List Version) (hf : matchFragment q = false) (hq : parse E q = .ok (.query vs)) (h4 : .v4 ∈ vs)
    (idleB : dakeOf sB 0 = .initial) (idleA : ∀ st, dakeOf sA B.tag ≠ .awaitingAuthR st) :
    let e1 := (Op.receive q).run E B cB1 sB
    e1.result = .ok (.user .none) ∧ ∃ mI tI dB, DAKE.initiate E (cB1.dake B) (cB1.rnd.sub 0) .initial = (.ok (.identity mI), dB) ∧ Sends e1 ⟨.v4, B.tag, 0, .identity mI⟩ tI ∧
    let e2 := (Op.receive tI).run E A cA2 sA
    e2.result = .ok (.user .none) ∧ ∃ mR tR dA, DAKE.handleIdentity E (cA2.dake A) mI (cA2.rnd.sub 0) (dakeOf sA B.tag) = (.ok (.authR mR), dA) ∧
      Sends e2 ⟨.v4, A.tag, B.tag, .authR mR⟩ tR ∧
    (GoodProof E mR.sigma →
    let e3 := (Op.receive tR).run E B cB3 e1.after
    e3.result = .ok (.user (.sessionStarted A.tag)) ∧ ∃ mA tA, (∃ mat d, DAKE.handleAuthR E (cB1.dake B) mR (cB3.rnd.sub 0) cB3.now dB = (.ok (mat, .authI mA), d)) ∧
      Sends e3 ⟨.v4, B.tag, A.tag, .authI mA⟩ tA ∧
    (GoodProof E mA.sigma →
    let e4 := (Op.receive tA).run E A cA4 e2.after
    e4.result = .ok (.user (.sessionStarted B.tag)) ∧ e4.sent = [] ∧ Connected4 E A B e4.after e3.after ∧
    ∃ PA PB pa pb ssid, Party E (cA2.dake A) PA pa ∧ Party E (cB1.dake B) PB pb ∧ Acquainted4 E A B (fingerprint4 E pa.identityKey pa.forgingKey)
      (fingerprint4 E pb.identityKey pb.forgingKey) ssid e4.after e3.after)) := by
  obtain ⟨PA, PB, pa, pb, partyA, partyB, d1, d2, d3, d4⟩ := meet.profiles
  have hiA := hist_inv hhA
  have hiB := hist_inv hhB
  have nA := tag_ne_zero meet.tags.1
  have nB := tag_ne_zero meet.tags.2
  rw [dakeOf_inst] at idleB
  have idleA' : ∀ st, (sA.inst B.tag).dake ≠ .awaitingAuthR st := by rw [← dakeOf_inst]; exact idleA
  obtain ⟨mI, dB, i1, mR, dA, i2, rest⟩ := C33_agree E meet.curve (cA2.dake A) (cB1.dake B) PA PB pa pb partyA partyB meet.names.1
    meet.names.2 (cB1.rnd.sub 0) (cA2.rnd.sub 0) (cB3.rnd.sub 0) meet.keysB meet.keysA d1 d2 d3 d4 (sA.inst B.tag).dake
    (fun st h => absurd h (idleA' st)) cA4.now cB3.now
  -- the forms of the messages
  obtain ⟨st, j1, j2⟩ := initiate_of (ownPayload_party meet.curve partyB) (cB1.rnd.sub 0)
  rw [j1] at i1
  simp only [Prod.mk.injEq, Res.ok.injEq, EncodedMessageType.identity.injEq] at i1
  obtain ⟨e, rfl⟩ := i1
  rw [e] at j1 j2
  obtain ⟨sg, j3⟩ := DAKE.handleIdentity_fields i2 (ownPayload_party meet.curve partyA)
  have gB := meet.keysB
  have gA := meet.keysA
  have wI : WfMessage E (.identity mI) := by
    rw [j2]
    exact ⟨partyB.wf, (generated_good meet.curve gB.ecdh).1.on, (valid_fits meet.group gB.dh).2, (generated_good meet.curve gB.ecdh0).1.on,
      (valid_fits meet.group gB.dh0).2⟩
  have hvI : Version.v4 = .v3 ∧ AllowsV3 A ∨ Version.v4 = .v4 ∧ AllowsV4 A := .inr ⟨rfl, meet.allow.1⟩
  have hvB : Version.v4 = .v3 ∧ AllowsV3 B ∨ Version.v4 = .v4 ∧ AllowsV4 B := .inr ⟨rfl, meet.allow.2⟩
  obtain ⟨tI, sI, pI⟩ := C03_transport E meet.curve ⟨.v4, B.tag, 0, .identity mI⟩ (.inr meet.tags.2) (.inl rfl) rfl wI
  have lI : tI.length ≤ cB1.messageSize := by
    refine identity_size meet.room.2 ?_ ?_ ?_ sI
    · rw [j2]; exact partyB.bytes
    · rw [j2]; exact (valid_fits meet.group gB.dh).1
    · rw [j2]; exact (valid_fits meet.group gB.dh0).1
  obtain ⟨r1, o1, a1, _⟩ := offer4_run (c := cB1) hiB hf hq h4 meet.allow.2 (by rw [idleB]; exact j1) sI lI
  refine ⟨r1, mI, tI, _, j1, ⟨sI, o1⟩, ?_⟩
  -- Alice answers
  obtain ⟨tR, sR⟩ : ∃ tR, serialize (.encoded ⟨.v4, A.tag, B.tag, .authR mR⟩) = .ok tR := ⟨_, rfl⟩
  have lR : tR.length ≤ cA2.messageSize := by
    refine authR_size meet.room.1 ?_ ?_ ?_ sR
    · rw [j3]; exact partyA.bytes
    · rw [j3]; exact (valid_fits meet.group gA.dh).1
    · rw [j3]; exact (valid_fits meet.group gA.dh0).1
  obtain ⟨x2, _, _, _, _, r2, o2, a2, _⟩ := text_run (A := A) (c := cA2) hiA (encoded_notFragment sI) pI hvI nB
    (header_first pI nB rfl (.inl ⟨_, rfl⟩)) (x := fun i => { i with dake := dA })
    fun i h1 _ _ h5 => Instance.process_identity h1 (by rw [h5]; exact i2) sR lR
  refine ⟨r2, mR, tR, dA, by rw [dakeOf_inst]; exact i2, ⟨sR, o2⟩, fun gR => ?_⟩
  -- Bob completes
  obtain ⟨matB, mA, i3, rest⟩ := rest gR.2
  have wR : WfMessage E (.authR mR) := by
    have := gR.1
    rw [j3] at this ⊢
    exact ⟨partyA.wf, (generated_good meet.curve gA.ecdh).1.on, (valid_fits meet.group gA.dh).2, this, (generated_good meet.curve gA.ecdh0).1.on,
      (valid_fits meet.group gA.dh0).2⟩
  obtain ⟨tR', sR', pR⟩ := C03_transport E meet.curve ⟨.v4, A.tag, B.tag, .authR mR⟩ (.inr meet.tags.1) (.inr meet.tags.2) rfl wR
  rw [sR] at sR'
  cases sR'
  obtain ⟨tA, sA'⟩ : ∃ tA, serialize (.encoded ⟨.v4, B.tag, A.tag, .authI mA⟩) = .ok tA := ⟨_, rfl⟩
  have lA : tA.length ≤ cB3.messageSize := authI_size room sA'
  have hi1 : Inv E ((Op.receive q).run E B cB1 sB).after := hiB.run _
  obtain ⟨x3, _, _, _, _, r3, o3, a3, _⟩ := text_run (A := B) (c := cB3) hi1 (encoded_notFragment sR) pR hvB nA
    (header_ok pR nA rfl nB) (x := fun i => { i with dake := .initial, state := PState.secure4 B.tag A.tag matB })
    fun i h1 _ _ h5 => Instance.process_authR h1 (by
      rw [h5, sameB]
      unfold handedDake
      rw [a1]
      exact i3) sA' lA
  refine ⟨r3, mA, tA, ⟨_, _, i3⟩, ⟨sA', o3⟩, fun gI => ?_⟩
  -- Alice completes
  obtain ⟨matA, dA', i4, agree, usA, themA⟩ := rest gI.2
  obtain ⟨tA', sA'', pA⟩ := C03_transport E meet.curve ⟨.v4, B.tag, A.tag, .authI mA⟩ (.inr meet.tags.2) (.inr meet.tags.1) rfl gI.1
  rw [sA'] at sA''
  cases sA''
  have hi2 : Inv E ((Op.receive tI).run E A cA2 sA).after := hiA.run _
  obtain ⟨x4, _, _, _, _, r4, o4, a4, _⟩ := text_run (A := A) (c := cA4) hi2 (encoded_notFragment sA') pA hvI nB
    (header_ok pA nB rfl nA) (x := fun i => { i with dake := dA', state := PState.secure4 A.tag B.tag matA })
    fun i h1 _ _ h5 => Instance.process_authI h1 (by
      rw [h5, sameA]
      show DAKE.handleAuthI E (cA2.dake A) mA cA4.now (inst _ B.tag).dake = _
      rw [a2]
      exact i4)
  have q1 : stateOf ((Op.receive tA).run E A cA4 ((Op.receive tI).run E A cA2 sA).after).after B.tag =
      .encrypted4 ⟨A.tag, B.tag, matA.ratchet⟩ (SMP4.new matA.us matA.them matA.ssid) := by rw [stateOf_inst, a4]; rfl
  have q2 : stateOf ((Op.receive tR).run E B cB3 ((Op.receive q).run E B cB1 sB).after).after A.tag =
      .encrypted4 ⟨B.tag, A.tag, matB.ratchet⟩ (SMP4.new matB.us matB.them matB.ssid) := by rw [stateOf_inst, a3]; rfl
  have calm : Calm4 E ⟨⟨A.tag, B.tag, matA.ratchet⟩, ⟨B.tag, A.tag, matB.ratchet⟩, [], []⟩ := by
    refine C33_first_messages E agree ?_ _ _
    rw [DAKE.handleAuthR_dh i3, j2]
    exact fresh
  refine ⟨r4, o4, ⟨_, _, _, _, matA.ssid, q1, q2, ?_, ?_, rfl, rfl, rfl, rfl, calm⟩, PA, PB, pa, pb, matA.ssid, partyA, partyB,
    ⟨_, _, _, _, q1, q2, rfl, rfl, rfl, rfl, .inl calm⟩, _, _, _, _, q1, q2, rfl, agree.ssid.symm, usA, themA, ?_, ?_, rfl, nofun, rfl, nofun⟩
  · exact ssid_of_inst (by rw [a4]; rfl)
  · exact ssid_of_inst (by rw [a3, agree.ssid]; rfl)
  · exact agree.them.1.symm.trans themA
  · exact agree.them.2.trans usA

/-- C74: two clients that can meet complete the OTRv4 key exchange, whatever happened in their sessions before: Bob gets a query that
offers OTRv4 and has not begun an exchange without a receiver; Alice does not insist on an exchange of hers with Bob.  Each message
is sent as one text and delivered as it is.  Then both clients report the session with the other, are connected,
and know each other's fingerprints, so that they can run the SMP. -/
theorem C74_exchange4 (E : Env) (A B : Account) (hA hB : List Ev) (sA sB : Session) (hhA : Hist E A hA sA) (hhB : Hist E B hB sB)
    (cB1 cA2 cB3 cA4 : Call) (meet : CanMeet4 E A B cA2 cB1) (sameB : cB3.dake B = cB1.dake B) (sameA : cA4.dake A = cA2.dake A)
    (room : Roomy E cB3)
    (fresh : (DH.Keypair.generate3 E.dh3 (((cB3.rnd.sub 0).sub 1).bytes [0] 80)).pub ≠
      (DH.Keypair.generate3 E.dh3 ((cB1.rnd.sub 0).bytes [3] 80)).pub)
    (q : Bytes) (vs : List Version) (hf : matchFragment q = false) (hq : parse E q = .ok (.query vs)) (h4 : .v4 ∈ vs)
    (idleB : dakeOf sB 0 = .initial) (idleA : ∀ st, dakeOf sA B.tag ≠ .awaitingAuthR st) :
    let e1 := (Op.receive q).run E B cB1 sB
    e1.result = .ok (.user .none) ∧ ∃ mI tI, Sends e1 ⟨.v4, B.tag, 0, .identity mI⟩ tI ∧
    let e2 := (Op.receive tI).run E A cA2 sA
    e2.result = .ok (.user .none) ∧ ∃ mR tR, Sends e2 ⟨.v4, A.tag, B.tag, .authR mR⟩ tR ∧
    (GoodProof E mR.sigma →
    let e3 := (Op.receive tR).run E B cB3 e1.after
    e3.result = .ok (.user (.sessionStarted A.tag)) ∧ ∃ mA tA, Sends e3 ⟨.v4, B.tag, A.tag, .authI mA⟩ tA ∧
    (GoodProof E mA.sigma →
    let e4 := (Op.receive tA).run E A cA4 e2.after
    e4.result = .ok (.user (.sessionStarted B.tag)) ∧ e4.sent = [] ∧ Connected4 E A B e4.after e3.after ∧
    ∃ PA PB pa pb ssid, Party E (cA2.dake A) PA pa ∧ Party E (cB1.dake B) PB pb ∧ Acquainted4 E A B (fingerprint4 E pa.identityKey pa.forgingKey)
      (fingerprint4 E pb.identityKey pb.forgingKey) ssid e4.after e3.after)) := by
  obtain ⟨r1, mI, tI, _, _, s1, r2, mR, tR, _, _, s2, h3⟩ := exchange4 E A B hA hB sA sB hhA hhB cB1 cA2 cB3 cA4 meet sameB sameA room fresh q vs
    hf hq h4 idleB idleA
  refine ⟨r1, mI, tI, s1, r2, mR, tR, s2, fun gR => ?_⟩
  obtain ⟨r3, mA, tA, _, s3, h4⟩ := h3 gR
  exact ⟨r3, mA, tA, s3, h4⟩

/-! ## Conversations -/

theorem b64Encode_ge (d : Bytes) : d.length ≤ (b64Encode d).length := by
  fun_induction b64Encode d with
  | case1 a b c r ih => simp only [List.length_cons]; omega
  | case2 a b => simp
  | case3 a => simp
  | case4 => simp

theorem text_ge {m : EncodedMessage} {t : Bytes} (h : serialize (.encoded m) = .ok t) :
    ∃ body, wBody m.message = .ok body ∧ body.length ≤ t.length := by
  simp only [serialize, encodeEncoded, Res.bind_eq_ok, Res.pure_def, Res.ok.injEq] at h
  obtain ⟨b, ⟨v, _, ty, _, body, hb, rfl⟩, rfl⟩ := h
  refine ⟨body, hb, ?_⟩
  have := b64Encode_ge (wU16 v ++ wU8 ty ++ wU32 m.sender ++ wU32 m.receiver ++ body)
  simp only [List.length_append] at this ⊢
  omega

/-- A data message that was sent as a text of reasonable size can be read. -/
theorem encrypt4_wf {E : Env} (hc : GoodCurve E.curve) (hG : GoodGroup E.dh3) (hg : FitsMpi E.dh3.p) {our their : UInt32} {x x' : DoubleRatchet} {rv : Bytes} {flags : UInt8} {content : Bytes} {rnd : Rand}
    {now : Nat} {m : DataMessage4} (h1 : encrypt4 E our their flags content rv rnd now x = .ok (m, x')) (hfl : flags = 0 ∨ flags = 1) (ho : Own E x') {v : Version} {a b : UInt32} {t : Bytes}
    (ht : serialize (.encoded ⟨v, a, b, .data4 m⟩) = .ok t) (hl : t.length < 2 ^ 32) :
    m.validate E = .ok () ∧ WfMessage E (.data4 m) := by
  obtain ⟨rv, d1, keys, _, _, hm, hv, hrot⟩ := encrypt4_ok h1
  refine ⟨hv, ?_⟩
  obtain ⟨V, _⟩ := valid4_of hv
  obtain ⟨body, hb, hlen⟩ := text_ge ht
  have hb' : body = wDataMessage4 m := by
    simp only [wBody] at hb
    split at hb
    · exact (Res.ok.inj hb).symm
    · cases hb
  subst hb'
  simp only [wDataMessage4, wData, List.length_append] at hlen
  have hsh := (DoubleRatchet.rotateSenderChain_ok hrot)
  refine ⟨by rw [hm]; exact hfl, ?_, ?_, by omega, by rw [hm]; exact kdf2_length .., by omega, Nat.dvd_of_mod_eq_zero V.reveals⟩
  · have : m.ecdh = x'.shared.ecdh.pub := by
      rw [hm, hsh.2.1]; rfl
    rw [this, ho.ecdh]
    exact (mulG_good hc _).1
  · intro w hw
    have hd := V.dhKey w hw
    exact ⟨verify3_pos hG (verify3_iff.mpr hd), (valid_fits hg hd).2⟩

theorem data4_wf {E : Env} (hc : GoodCurve E.curve) (hG : GoodGroup E.dh3) (hg : FitsMpi E.dh3.p) {x x' : Enc4} {flags : UInt8} {content : Bytes} {rnd : Rand}
    {now : Nat} {m : DataMessage4} (he : Enc4.encrypt E flags content rnd now x = (.ok m, x')) (hfl : flags = 0 ∨ flags = 1) (ho : Own E x'.ratchet) {v : Version} {a b : UInt32} {t : Bytes}
    (ht : serialize (.encoded ⟨v, a, b, .data4 m⟩) = .ok t) (hl : t.length < 2 ^ 32) :
    m.validate E = .ok () ∧ WfMessage E (.data4 m) :=
  encrypt4_wf hc hG hg (encrypt4_enc he).1 hfl ho ht hl

/-- A message that is fragmented becomes at least two fragments. -/
theorem fragment_two {rnd : Bytes} {n : Nat} {v : Version} {a b : UInt32} {content : Bytes} {fs : List Fragment}
    (h : fragmentContent rnd n v a b content = .ok fs) : 2 ≤ fs.length := by
  simp only [fragmentContent, Res.bind_eq_ok, Res.assert_eq_ok, Res.pure_def, Res.ok.injEq, exists_const, Prod.exists,
    decide_eq_true_eq] at h
  obtain ⟨h3, h4, hbig, size, ident, hsz, _, rfl⟩ := h
  have hs : 0 < size ∧ size < n := by
    cases v <;> simp at hsz h3 h4 <;> omega
  rw [numberFragments_length]
  have hf := slices_flatten hs.1 content.length content (Nat.le_refl _)
  have hm := slices_mem hs.1 content.length content
  cases hp : slices size content.length content with
  | nil =>
    rw [hp] at hf
    rw [← hf] at hbig
    simp at hbig
  | cons p ps =>
    cases ps with
    | nil =>
      rw [hp] at hf hm
      have := (hm p (by simp)).2.1
      rw [← hf] at hbig
      simp only [List.flatten_cons, List.flatten_nil, List.append_nil] at hbig
      omega
    | cons q ps => simp only [List.length_cons]; omega

theorem mapM_length {f : α → Res β} : ∀ {l : List α} {out : List β}, l.mapM f = .ok out → out.length = l.length
  | [], out, h => by
    simp only [List.mapM_nil, Res.pure_def, Res.ok.injEq] at h
    rw [← h]; rfl
  | a :: l, out, h => by
    simp only [List.mapM_cons, Res.bind_eq_ok, Res.pure_def, Res.ok.injEq] at h
    obtain ⟨_, _, bs, h2, rfl⟩ := h
    simp only [List.length_cons, mapM_length h2]

/-- One text of a conversation, seen from both sides. -/
theorem turn4 {E : Env} (hC : GoodCurve E.curve) (hG : GoodGroup E.dh3) (hg : FitsMpi E.dh3.p) {S R : Account} {h : List Ev} {sS sR : Session}
    (hhS : Hist E S h sS) (hiR : Inv E sR) (aS : AllowsV4 S) (aR : AllowsV4 R) (tS : 0x100 ≤ S.tag) (tR : 0x100 ≤ R.tag) {x y : Enc4} {mx my : SMP4Context}
    (hx : stateOf sS R.tag = .encrypted4 x mx) (hy : stateOf sR S.tag = .encrypted4 y my) {c c' : Call} {content text : Bytes}
    (hs : ((Op.send R.tag content).run E S c sS).result = .ok (.texts [text])) (hl : text.length < 2 ^ 32) :
    ∃ m rnd x', Enc4.encrypt E 0 (noNul content) rnd c.now x = (.ok m, x') ∧
      stateOf ((Op.send R.tag content).run E S c sS).after R.tag = .encrypted4 x' mx ∧
      (Own E x'.ratchet → ∀ y', Enc4.handle E m (authenticatorData4 4 S.tag R.tag m) c'.now y = (.ok (received (noNul content) []), y') →
        ((Op.receive text).run E R c' sR).result = .ok (.user (.confidential S.tag (noNul content) [])) ∧
        ((Op.receive text).run E R c' sR).sent = [] ∧ stateOf ((Op.receive text).run E R c' sR).after S.tag = .encrypted4 y' my) := by
  have hst : sS.status R.tag = some .encrypted := status_of_inst (by rw [← stateOf_inst, hx]; rfl) (by decide)
  rcases C16_encrypted E S h sS hhS c R.tag content (.inr aS) hst with hp | ⟨i, s', m, out, hlk, hout, haft, _, henc, htr⟩
  · rw [hs] at hp; cases hp
  rw [hs] at hout
  cases hout
  have hi : i.state = .encrypted4 x mx := by
    rw [stateOf_inst, inst_of_lookup hlk] at hx
    exact hx
  rw [hi] at henc htr
  obtain ⟨x0, x', smp, d, rnd, e1, e2, rfl, he⟩ : ∃ x0 x' smp d rnd, PState.encrypted4 x mx = .encrypted4 x0 smp ∧ s' = .encrypted4 x' smp ∧ m = .data4 d ∧
      Enc4.encrypt E 0 (noNul content) rnd c.now x0 = (.ok d, x') := by
    rcases henc with ⟨_, _, _, _, h, _⟩ | h
    · cases h
    · exact h
  cases e1
  subst e2
  have htxt : serialize (.encoded ⟨.v4, S.tag, R.tag, .data4 d⟩) = .ok text := by
    obtain ⟨t, h1, h2⟩ := htr
    rcases h2 with ⟨_, h2⟩ | ⟨h2, ident, fs, _, h3, h4⟩
    · cases h2; exact h1
    · have h5 := fragment_two h3
      rw [← mapM_length h4] at h5
      simp at h5
  refine ⟨d, rnd, x', he, ?_, fun hown y' hh => ?_⟩
  · rw [haft, stateOf_inst, inst_insert]
  obtain ⟨hv, hwf⟩ := data4_wf hC hG hg he (.inl rfl) hown htxt hl
  obtain ⟨t, h1, h2⟩ := C03_transport E hC ⟨.v4, S.tag, R.tag, .data4 d⟩ (.inr tS) (.inr tR) rfl hwf
  rw [htxt] at h1
  cases h1
  have hrec : received (noNul content) [] = (.confidential (noNul content) [], false) := by simp [received]
  obtain ⟨i', fl, s1, z, h3, h4, hz, _, hrun⟩ := data_runTo (c := c') (s' := .encrypted4 y' my) (msg := .confidential (noNul content) []) hiR
    (.inl ⟨encoded_notFragment htxt, h2⟩) (.inr ⟨rfl, aR⟩) (tag_ne_zero tS) rfl (tag_ne_zero tR)
    (.inr ⟨y, my, d, y', false, hy, rfl, rfl, hv, by rw [hh, hrec], rfl⟩)
  simp only [Instance.handleDecrypted, StM.bind_run, StM.gets, List.any_nil, Bool.false_eq_true, if_false, StM.pure_run, h4] at hz
  subst hz
  refine ⟨?_, ?_, ?_⟩
  · rw [Op.run, perform_result, hrun]; rfl
  · rw [Op.run, perform_sent, hrun]
  · rw [Op.run, perform_after, hrun, stateOf_inst]
    rw [inst_insert]
    exact h3

theorem own_of {E : Env} {a b : DoubleRatchet} (h : Rel E a b) : Own E a ∧ Own E b := by
  rcases h with h | h | h | h
  · exact ⟨h.oa, h.ob⟩
  · exact ⟨h.ob, h.oa⟩
  · exact ⟨h.oa, h.ob⟩
  · exact ⟨h.ob, h.oa⟩

theorem ssid_state {s : Session} {k : UInt32} {x : Enc4} {m : SMP4Context} (h : stateOf s k = .encrypted4 x m) :
    Session.ssid s k = .ok m.ssid := ssid_of_inst (by rw [← stateOf_inst, h]; rfl)

theorem noNul_composed (content : Bytes) : Composed (noNul content) [] (noNul content) :=
  ⟨fun b hb => by simpa using (List.mem_filter.mp hb).2, by simp, .inr ⟨rfl, rfl⟩⟩

theorem handle4_tags {E : Env} {m : DataMessage4} {ad : Bytes} {now : Nat} {s s' : Enc4} {r : Res (PMessage × Bool)}
    (h : Enc4.handle E m ad now s = (r, s')) : s'.our = s.our ∧ s'.their = s.their := by
  unfold Enc4.handle Enc4.onRatchet at h
  repeat' split at h
  all_goals grind

/-- What holds of a conversation. -/
theorem talk4 (E : Env) (hC : GoodCurve E.curve) (hG : GoodGroup E.dh3) (hg : FitsMpi E.dh3.p) (A B : Account)
    (allow : AllowsV4 A ∧ AllowsV4 B) (tags : 0x100 ≤ A.tag ∧ 0x100 ≤ B.tag) (hA hB : List Ev) (sA sB sA' sB' : Session) (ts : List Turn)
    (hhA : Hist E A hA sA) (hhB : Hist E B hB sB) (hcon : Connected4 E A B sA sB) (ht : Talk E A B sA sB ts sA' sB') :
    (∀ t ∈ ts, t.effect.result = .ok (.user (.confidential (if t.alice then A.tag else B.tag) (noNul t.content) [])) ∧ t.effect.sent = []) ∧
    Connected4 E A B sA' sB' ∧ ((∃ h, Hist E A h sA') ∧ ∃ h, Hist E B h sB') ∧
    (∀ x m, stateOf sA B.tag = .encrypted4 x m → ∃ x', stateOf sA' B.tag = .encrypted4 x' m) ∧
    (∀ x m, stateOf sB A.tag = .encrypted4 x m → ∃ x', stateOf sB' A.tag = .encrypted4 x' m) := by
  induction ht generalizing hA hB with
  | nil => exact ⟨by simp, hcon, ⟨⟨_, hhA⟩, _, hhB⟩, fun x m h => ⟨x, h⟩, fun x m h => ⟨x, h⟩⟩
  | @alice sA sB content text c c' ts sA' sB' hs hl hfr htalk ih =>
    obtain ⟨xA, mA, xB, mB, ssid, h1, h2, h3, h4, o1, o2, o3, o4, calm⟩ := hcon
    obtain ⟨m, rnd, x', he, hst, hrecv⟩ := turn4 (c' := c') hC hG hg hhA (hist_inv hhB) allow.1 allow.2 tags.1 tags.2 h1 h2 hs hl
    have calm' := Calm4.sendA calm rfl he (hfr _ _ _ _ h1 hst)
    obtain ⟨I, _⟩ := reach4_inv hC hG calm'.reach
    have hh := C47_calm E hC hG _ calm' m _ _ [] [] rfl (noNul_composed content) c'.now
    obtain ⟨y', hy'⟩ : ∃ y', Enc4.handle E m (authenticatorData4 4 A.tag B.tag m) c'.now xB = (.ok (received (noNul content) []), y') := by
      have e1 : x'.our = A.tag := by rw [(encrypt4_enc he).2]; exact o1
      simp only [e1, o3] at hh
      exact ⟨_, Prod.ext hh rfl⟩
    obtain ⟨r1, r2, r3⟩ := hrecv (own_of I.rel).1 y' hy'
    have e1 : x'.our = A.tag ∧ x'.their = B.tag := by rw [(encrypt4_enc he).2]; exact ⟨o1, o2⟩
    have e2 := handle4_tags hy'
    have calm2 := Calm4.recvB (now := c'.now) (r := .ok (received (noNul content) [])) (b' := y') calm' rfl
      (by simp only [e1.1, o3]; exact hy') (by simp)
    have hA2 := Hist.step hhA (op := .send B.tag content) (c := c) rfl (by rw [hs]; simp)
    have hB2 := Hist.step hhB (op := .receive text) (c := c') rfl (by rw [r1]; simp)
    obtain ⟨k1, k2, k3, k4, k5⟩ := ih _ _ hA2 hB2 ⟨x', mA, y', mB, ssid, hst, r3, by rw [ssid_state hst, ← h3, ssid_state h1],
      by rw [ssid_state r3, ← h4, ssid_state h2], e1.1, e1.2, by rw [e2.1, o3], by rw [e2.2, o4], calm2⟩
    refine ⟨?_, k2, k3, fun x m h => ?_, fun x m h => ?_⟩
    rotate_left
    · rw [h1] at h; cases h; exact k4 _ _ hst
    · rw [h2] at h; cases h; exact k5 _ _ r3
    intro t ht
    rcases List.mem_cons.mp ht with rfl | ht
    · exact ⟨r1, r2⟩
    · exact k1 t ht
  | @bob sA sB content text c c' ts sA' sB' hs hl hfr htalk ih =>
    obtain ⟨xA, mA, xB, mB, ssid, h1, h2, h3, h4, o1, o2, o3, o4, calm⟩ := hcon
    obtain ⟨m, rnd, x', he, hst, hrecv⟩ := turn4 (c' := c') hC hG hg hhB (hist_inv hhA) allow.2 allow.1 tags.2 tags.1 h2 h1 hs hl
    have calm' := Calm4.sendB calm rfl he (hfr _ _ _ _ h2 hst)
    obtain ⟨I, _⟩ := reach4_inv hC hG calm'.reach
    have hh := C47_calm' E hC hG _ calm' m _ _ [] [] rfl (noNul_composed content) c'.now
    have e1 : x'.our = B.tag ∧ x'.their = A.tag := by rw [(encrypt4_enc he).2]; exact ⟨o3, o4⟩
    obtain ⟨y', hy'⟩ : ∃ y', Enc4.handle E m (authenticatorData4 4 B.tag A.tag m) c'.now xA = (.ok (received (noNul content) []), y') := by
      simp only [e1.1, o1] at hh
      exact ⟨_, Prod.ext hh rfl⟩
    obtain ⟨r1, r2, r3⟩ := hrecv (own_of I.rel).2 y' hy'
    have e2 := handle4_tags hy'
    have calm2 := Calm4.recvA (now := c'.now) (r := .ok (received (noNul content) [])) (a' := y') calm' rfl
      (by simp only [e1.1, o1]; exact hy') (by simp)
    have hB2 := Hist.step hhB (op := .send A.tag content) (c := c) rfl (by rw [hs]; simp)
    have hA2 := Hist.step hhA (op := .receive text) (c := c') rfl (by rw [r1]; simp)
    obtain ⟨k1, k2, k3, k4, k5⟩ := ih _ _ hA2 hB2 ⟨y', mA, x', mB, ssid, r3, hst, by rw [ssid_state r3, ← h3, ssid_state h1],
      by rw [ssid_state hst, ← h4, ssid_state h2], by rw [e2.1, o1], by rw [e2.2, o2], e1.1, e1.2, calm2⟩
    refine ⟨?_, k2, k3, fun x m h => ?_, fun x m h => ?_⟩
    rotate_left
    · rw [h1] at h; cases h; exact k4 _ _ r3
    · rw [h2] at h; cases h; exact k5 _ _ hst
    intro t ht
    rcases List.mem_cons.mp ht with rfl | ht
    · exact ⟨r1, r2⟩
    · exact k1 t ht

/-- What two connected clients say to each other: the texts arrive as they were written (without NUL bytes), nothing else is sent, and the
clients stay connected. -/
theorem C74_talk4 (E : Env) (hC : GoodCurve E.curve) (hG : GoodGroup E.dh3) (hg : FitsMpi E.dh3.p) (A B : Account)
    (allow : AllowsV4 A ∧ AllowsV4 B) (tags : 0x100 ≤ A.tag ∧ 0x100 ≤ B.tag) (hA hB : List Ev) (sA sB sA' sB' : Session) (ts : List Turn)
    (hhA : Hist E A hA sA) (hhB : Hist E B hB sB) (hcon : Connected4 E A B sA sB) (ht : Talk E A B sA sB ts sA' sB') :
    (∀ t ∈ ts, t.effect.result = .ok (.user (.confidential (if t.alice then A.tag else B.tag) (noNul t.content) [])) ∧ t.effect.sent = []) ∧
    Connected4 E A B sA' sB' := by
  obtain ⟨h1, h2, _⟩ := talk4 E hC hG hg A B allow tags hA hB sA sB sA' sB' ts hhA hhB hcon ht
  exact ⟨h1, h2⟩

/-- The same conversation, with the names of the clients exchanged. -/
theorem talk_swap {E : Env} {A B : Account} {sA sB sA' sB' : Session} {ts : List Turn} (h : Talk E A B sA sB ts sA' sB') :
    Talk E B A sB sA (ts.map fun t => { t with alice := !t.alice }) sB' sA' := by
  induction h with
  | nil => exact .nil
  | alice h1 h2 h3 _ ih => exact .bob h1 h2 h3 ih
  | bob h1 h2 h3 _ ih => exact .alice h1 h2 h3 ih

namespace ToyTalk
open ToySession

/-- The two toy clients are connected after the exchange, and know each other. -/
theorem acquainted : Connected4 tinyEnv acA acB l4.after k3.after ∧ ∃ fA fB ssid, Acquainted4 tinyEnv acA acB fA fB ssid l4.after k3.after := by
  obtain ⟨_, _, _, _, ⟨t1, t2, t3⟩, _⟩ := runTalk
  obtain ⟨r1, mI, tI, dB, i1, ⟨_, s1⟩, r2, mR, tR, dA, i2, ⟨_, s2⟩, h3⟩ := exchange4 tinyEnv acA acB [] [] .new .new .new .new
    (meetB 5000 3) (meetA 5000 8) (meetB 5000 3) (meetA 5000 4) toy_meet rfl
    (by simp only [meetA, callA, Call.dake]) toy_meet.room.2 keys.2.2.2.2.1 query4 [.v4] (by decide +kernel)
    (by decide +kernel) (by simp) rfl (fun st h => by cases h)
  have e1 : (Op.receive query4).run tinyEnv acB (meetB 5000 3) .new = k1 := by unfold k1; rfl
  simp only [e1] at s1 h3
  rw [t1] at s1
  cases s1
  have e2 : (Op.receive (msg k1)).run tinyEnv acA (meetA 5000 8) .new = l2 := by unfold l2; rfl
  rw [e2] at s2
  simp only [e2] at h3
  rw [t2] at s2
  cases s2
  have i2 : DAKE.handleIdentity tinyEnv ((meetA 5000 8).dake acA) mI ((meetA 5000 8).rnd.sub 0) .initial = (.ok (.authR mR), dA) := i2
  have hp := proofs
  rw [i1] at hp
  simp only [i2] at hp
  have g : (∃ mat d mA, DAKE.handleAuthR tinyEnv ((meetB 5000 3).dake acB) mR ((meetB 5000 3).rnd.sub 0) 3 dB = (.ok (mat, .authI mA), d) ∧
      GoodProof tinyEnv mR.sigma ∧ GoodProof tinyEnv mA.sigma) := by
    split at hp
    · rename_i mat mA d hd
      obtain ⟨h1, h2, h3, h4⟩ := of_decide_eq_true hp
      exact ⟨mat, d, mA, hd, ⟨h1, h2⟩, ⟨h3, h4⟩⟩
    · cases hp
  obtain ⟨mat, d, mA, hd, gR, gA⟩ := g
  obtain ⟨r3, mA', tA, ⟨_, _, i3⟩, ⟨_, s3⟩, h4⟩ := h3 gR
  have i3 : DAKE.handleAuthR tinyEnv ((meetB 5000 3).dake acB) mR ((meetB 5000 3).rnd.sub 0) 3 dB = _ := i3
  rw [hd] at i3
  cases i3
  have e3 : (Op.receive (msg l2)).run tinyEnv acB (meetB 5000 3) k1.after = k3 := by unfold k3; rfl
  rw [e3] at s3
  simp only [e3] at h4
  rw [t3] at s3
  cases s3
  have e4 : (Op.receive (msg k3)).run tinyEnv acA (meetA 5000 4) l2.after = l4 := by unfold l4; rfl
  obtain ⟨_, _, hc, _, _, _, _, ssid, _, _, ha⟩ := h4 gA
  rw [e4] at hc ha
  exact ⟨hc, _, _, ssid, ha⟩

theorem connected : Connected4 tinyEnv acA acB l4.after k3.after := acquainted.1

theorem talk : ∃ ts, Talk tinyEnv acA acB l4.after k3.after ts l10.after k11.after ∧ ts.map Turn.content = [[104, 0, 105], [111, 107], [33]] := by
  obtain ⟨_, _, _, _, _, ⟨s1, s2, s3⟩, ⟨n1, n2, n3⟩, f1, f2, f3⟩ := runTalk
  have e6 : (Op.send acA.tag [104, 0, 105]).run tinyEnv acB (meetB 5000 6) k3.after = k6 := by unfold k6; rfl
  have e7 : (Op.receive (text k6)).run tinyEnv acA (meetA 5000 7) l4.after = l7 := by unfold l7; rfl
  have e8 : (Op.send acB.tag [111, 107]).run tinyEnv acA (meetA 5000 8) l7.after = l8 := by unfold l8; rfl
  have e9 : (Op.receive (text l8)).run tinyEnv acB (meetB 5000 9) k6.after = k9 := by unfold k9; rfl
  have e10 : (Op.send acB.tag [33]).run tinyEnv acA (meetA 5000 10) l8.after = l10 := by unfold l10; rfl
  have e11 : (Op.receive (text l10)).run tinyEnv acB (meetB 5000 11) k9.after = k11 := by unfold k11; rfl
  have h3 := Talk.alice (E := tinyEnv) (A := acA) (B := acB) (sA := l8.after) (sB := k9.after) (c := meetA 5000 10) (c' := meetB 5000 11) (by rw [e10]; exact s3) n3
    (by rw [e10]; exact fresh_of f3) .nil
  rw [e10, e11] at h3
  have h2 := Talk.alice (E := tinyEnv) (A := acA) (B := acB) (sA := l7.after) (sB := k6.after) (c := meetA 5000 8) (c' := meetB 5000 9) (content := [111, 107])
    (text := text l8) (by rw [e8]; exact s2) n2 (by rw [e8]; exact fresh_of f2) (by rw [e8, e9]; exact h3)
  have h1 := Talk.bob (E := tinyEnv) (A := acA) (B := acB) (sA := l4.after) (sB := k3.after) (c := meetB 5000 6) (c' := meetA 5000 7) (content := [104, 0, 105])
    (text := text k6) (by rw [e6]; exact s1) n1 (by rw [e6]; exact fresh_of f1) (by rw [e6, e7]; exact h2)
  exact ⟨_, h1, rfl⟩

theorem histA : ∃ h, Hist tinyEnv acA h l4.after := by
  obtain ⟨_, r2, _, r4, _⟩ := runTalk
  have h2 : ∃ h, Hist tinyEnv acA h l2.after := ⟨_, .step .new (by unfold l2; rfl) (by rw [r2]; nofun)⟩
  exact h2.elim fun _ h => ⟨_, .step h (by unfold l4; rfl) (by rw [r4]; exact fun h => by cases h)⟩

theorem histB : ∃ h, Hist tinyEnv acB h k3.after := by
  obtain ⟨r1, _, r3, _, _⟩ := runTalk
  have h1 : ∃ h, Hist tinyEnv acB h k1.after := ⟨_, .step .new (by unfold k1; rfl) (by rw [r1]; nofun)⟩
  exact h1.elim fun _ h => ⟨_, .step h (by unfold k3; rfl) (by rw [r3]; exact fun h => by cases h)⟩

end ToyTalk

/-- Two toy clients meet; their ring signatures are good. -/
example : CanMeet4 ToySession.tinyEnv ToySession.acA ToySession.acB (ToySession.meetA 5000 8) (ToySession.meetB 5000 3) ∧
    Connected4 ToySession.tinyEnv ToySession.acA ToySession.acB ToySession.l4.after ToySession.k3.after := ⟨ToySession.toy_meet, ToyTalk.connected⟩

/-- They exchange three texts. -/
example : GoodCurve ToySession.tinyEnv.curve ∧ GoodGroup ToySession.tinyEnv.dh3 ∧ FitsMpi ToySession.tinyEnv.dh3.p ∧
    (∃ h, Hist ToySession.tinyEnv ToySession.acA h ToySession.l4.after) ∧ (∃ h, Hist ToySession.tinyEnv ToySession.acB h ToySession.k3.after) ∧
    ∃ ts, Talk ToySession.tinyEnv ToySession.acA ToySession.acB ToySession.l4.after ToySession.k3.after ts ToySession.l10.after ToySession.k11.after ∧
      ts.length = 3 := by
  obtain ⟨ts, h1, h2⟩ := ToyTalk.talk
  refine ⟨toy_goodCurve, (by constructor <;> decide), ToySession.toy_meet.group, ToyTalk.histA, ToyTalk.histB, ts, h1, ?_⟩
  rw [← List.length_map (f := Turn.content), h2]
  rfl

end Otrr.Props
