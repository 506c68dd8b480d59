import Verif.Props.SessionData
import Verif.Props.Dake
import Verif.Spec.SessionExchange
/-! Lemmas for C74: two clients that exchange keys and talk. -/

namespace Otrr
open Spec Props

/-! ## The size of messages -/

theorem b64Encode_length (d : Bytes) : 3 * (b64Encode d).length ≤ 4 * d.length + 8 := by
  fun_induction b64Encode d with
  | case1 a b c r ih => simp only [List.length_cons]; omega
  | case2 a b => simp
  | case3 a => simp
  | case4 => simp

theorem wMpi_length_le {v n : Nat} (h : byteLen v ≤ n) : (wMpi v).length ≤ n + 4 := by
  unfold wMpi
  split
  · show 4 ≤ _
    omega
  · rename_i hv
    rw [List.length_append, natToBE_length hv]
    show 4 + _ ≤ _
    omega

theorem byteLen_mono {a b : Nat} (h : a ≤ b) : byteLen a ≤ byteLen b :=
  byteLen_le_of_lt_pow (Nat.lt_of_le_of_lt h (lt_pow_byteLen b))

theorem byteLen_le_natToBE (v : Nat) : byteLen v ≤ (natToBE v).length := by
  by_cases h : v = 0
  · subst h; rw [byteLen_zero]; exact Nat.zero_le _
  · exact (natToBE_length h).ge

theorem wRing_length (s : RingSignature) : (wRing s).length = 342 := by
  simp [wRing, wScalar]

theorem wPoint_length (P : Point) : (wPoint P).length = 57 := P.encode_length

/-- A text with an encoded message is not taken for a fragment. -/
theorem encoded_notFragment {m : EncodedMessage} {t : Bytes} (h : serialize (.encoded m) = .ok t) : matchFragment t = false := by
  simp only [serialize, Res.bind_eq_ok, Res.pure_def, Res.ok.injEq] at h
  obtain ⟨b, _, rfl⟩ := h
  simp [matchFragment, OTR_FRAGMENT_V2_PREFIX, OTR_FRAGMENT_V3_PREFIX, OTR_ENCODED_PREFIX, List.isPrefixOf]

/-- The size of the text of a message of an exchange. -/
theorem text_length {m : EncodedMessage} {t body : Bytes} (h : serialize (.encoded m) = .ok t) (hb : wBody m.message = .ok body) :
    3 * t.length ≤ 4 * body.length + 70 := by
  simp only [serialize, encodeEncoded, hb, Res.bind_eq_ok, Res.pure_def, Res.ok.injEq] at h
  obtain ⟨b, ⟨v, _, ty, _, body', rfl, rfl⟩, rfl⟩ := h
  have := b64Encode_length (wU16 v ++ wU8 ty ++ wU32 m.sender ++ wU32 m.receiver ++ body)
  simp only [List.length_append, OTR_ENCODED_PREFIX, OTR_ENCODED_SUFFIX, List.length_cons, List.length_nil] at this ⊢
  have e1 : (wU16 v).length = 2 := rfl
  have e2 : (wU8 ty).length = 1 := rfl
  have e3 : ∀ x, (wU32 x).length = 4 := fun _ => rfl
  rw [e1, e2, e3, e3] at this
  omega

theorem identity_size {E : Env} {c : Call} (hr : Roomy E c) {m : IdentityMessage} (hp : c.profile = wPayload m.profile) (hb : m.b ≤ E.dh3.p)
    (hd : m.dh0 ≤ E.dh3.p) {v : Version} {a b : UInt32} {t : Bytes} (h : serialize (.encoded ⟨v, a, b, .identity m⟩) = .ok t) :
    t.length ≤ c.messageSize := by
  have h1 := text_length h (show wBody (.identity m) = .ok (wIdentity m) from rfl)
  unfold Roomy at hr
  rw [hp] at hr
  have h4 := byteLen_le_natToBE E.dh3.p
  have h2 := wMpi_length_le (byteLen_mono hb)
  have h3 := wMpi_length_le (byteLen_mono hd)
  simp only [wIdentity, List.length_append, wPoint_length] at h1
  omega

theorem authR_size {E : Env} {c : Call} (hr : Roomy E c) {m : AuthRMessage} (hp : c.profile = wPayload m.profile) (hb : m.a ≤ E.dh3.p)
    (hd : m.dh0 ≤ E.dh3.p) {v : Version} {a b : UInt32} {t : Bytes} (h : serialize (.encoded ⟨v, a, b, .authR m⟩) = .ok t) :
    t.length ≤ c.messageSize := by
  have h1 := text_length h (show wBody (.authR m) = .ok (wAuthR m) from rfl)
  unfold Roomy at hr
  rw [hp] at hr
  have h4 := byteLen_le_natToBE E.dh3.p
  have h2 := wMpi_length_le (byteLen_mono hb)
  have h3 := wMpi_length_le (byteLen_mono hd)
  simp only [wAuthR, List.length_append, wPoint_length, wRing_length] at h1
  omega

theorem authI_size {E : Env} {c : Call} (hr : Roomy E c) {m : AuthIMessage} {v : Version} {a b : UInt32} {t : Bytes}
    (h : serialize (.encoded ⟨v, a, b, .authI m⟩) = .ok t) : t.length ≤ c.messageSize := by
  have h1 := text_length h (show wBody (.authI m) = .ok (wAuthI m) from rfl)
  unfold Roomy at hr
  simp only [wAuthI, wRing_length] at h1
  omega

/-- A message that is small enough is injected as one text. -/
theorem inject_whole {A : Account} {c : Call} {rnd : Rand} {v : Version} {k : UInt32} {m : EncodedMessageType} {i : Instance}
    {sent : List Bytes} {t : Bytes} (hk : i.receiver = k) (ht : serialize (.encoded ⟨v, A.tag, k, m⟩) = .ok t)
    (hl : t.length ≤ c.messageSize) : Instance.inject A c rnd v k m ⟨i, sent⟩ = (.ok (), ⟨i, sent ++ [t]⟩) := by
  subst hk
  have ha : (i.receiver != 0 && i.receiver == 0 || i.receiver == i.receiver) = true := by simp
  simp only [Instance.inject, StM.bind_run, StM.gets, StM.lift, ha, Res.assert, if_true, encodeMessage, ht, Instance.payloads, if_pos hl,
    Instance.emit]

/-! ## Receiving messages of an exchange -/

namespace Session

/-- The OTRv4 exchange with the sender of the message, after that of instance 0 was handed over if the message answers it. -/
def handedDake (s : Session) (m : EncodedMessage) : DAKEState :=
  match m.version, m.message, (s.inst 0).dake with
  | .v4, .authR _, .awaitingAuthR st => .awaitingAuthR st
  | _, _, _ => (s.inst m.sender).dake

/-- The OTRv3 exchange likewise. -/
def handedAke (s : Session) (m : EncodedMessage) : AKEState :=
  match m.version, m.message, (s.inst 0).ake with
  | .v3, .dhKey _, .awaitingDHKey kp r => .awaitingDHKey kp r
  | _, _, _ => (s.inst m.sender).ake

theorem handOver_eq {E : Env} {s : Session} {sent : List Bytes} (hi : Inv E s) (m : EncodedMessage) :
    ∃ h, handOver m ⟨s, sent⟩ = (.ok h, ⟨s, sent⟩) ∧ h.1.getD (s.inst m.sender).ake = handedAke s m ∧
      h.2.getD (s.inst m.sender).dake = handedDake s m := by
  obtain ⟨z, hz⟩ := Option.isSome_iff_exists.mp hi.zero
  have hr := hi.receiver INSTANCE_ZERO
  have hz0 : s.inst 0 = z := inst_of_lookup hz
  rw [inst_of_lookup hz] at hr
  simp only [handOver, StM.query, hz, hr, if_true]
  obtain ⟨v, snd, rcv, msg⟩ := m
  unfold handedAke handedDake
  rw [hz0]
  cases v with
  | v3 =>
    cases msg with
    | dhKey msg => simp only [Res.bind_ok]; cases z.ake <;> exact ⟨_, rfl, rfl, rfl⟩
    | _ => exact ⟨_, rfl, rfl, rfl⟩
  | v4 =>
    cases msg with
    | authR msg => simp only [Res.bind_ok]; cases z.dake <;> exact ⟨_, rfl, rfl, rfl⟩
    | _ => exact ⟨_, rfl, rfl, rfl⟩
  | none => exact ⟨_, rfl, rfl, rfl⟩
  | unsupported v => exact ⟨_, rfl, rfl, rfl⟩

theorem adopt_eq {h : Option AKEState × Option DAKEState} {i : Instance} {sent : List Bytes} (hr : i.receiver ≠ 0) :
    adopt h ⟨i, sent⟩ = (.ok (), ⟨{ i with ake := h.1.getD i.ake, dake := h.2.getD i.dake }, sent⟩) := by
  have hb : (i.receiver != 0) = true := bne_iff_ne.mpr hr
  obtain ⟨a, d⟩ := h
  cases a <;> cases d <;>
    simp only [adopt, StM.bind_run, StM.gets, StM.lift, hb, Res.assert, if_true, StM.modify, Option.getD] <;> rfl

/-- What happens to a delivered message: it is processed by the instance of its sender, to which an exchange of instance 0 may
have been handed over before. -/
theorem message_run {E : Env} {A : Account} {c : Call} {s : Session} (hi : Inv E s) {payload : Bytes} {m : EncodedMessage}
    (hd : Delivers E A s payload m) (hv : m.version = .v3 ∧ AllowsV3 A ∨ m.version = .v4 ∧ AllowsV4 A) (hs : m.sender ≠ 0)
    (hh : verifyHeader A m = .ok ()) :
    ∃ (i1 : Instance) (s1 : Session), Session.Rel SameKex s s1 ∧ i1.receiver = m.sender ∧ i1.state = (s.inst m.sender).state ∧
      i1.ake = handedAke s m ∧ i1.dake = handedDake s m ∧ receive E A c payload ⟨s, []⟩ =
        ((Instance.process E A c m ⟨i1, []⟩).1,
          ⟨({ s1 with instances := insertKey s1.instances m.sender (Instance.process E A c m ⟨i1, []⟩).2.st } : Session),
            (Instance.process E A c m ⟨i1, []⟩).2.sent⟩) := by
  obtain ⟨h1, h2, h3⟩ := allowed_iff hv
  obtain ⟨s1, hk, _, hrun⟩ := deliver_run (c := c) h2 hd hs
  obtain ⟨a, ha⟩ := hk.each m.sender
  obtain ⟨a0, ha0⟩ := hk.each 0
  have hi1 : Inv E s1 := by
    have hq := fun k => hk.each k
    exact
      { zero := hk.keys _ hi.zero
        nodup := hk.nodup hi.nodup
        plain := by obtain ⟨b, hb⟩ := hq 0; rw [show s1.inst INSTANCE_ZERO = _ from hb]; exact hi.plain
        receiver := fun k => by obtain ⟨b, hb⟩ := hq k; rw [hb]; exact hi.receiver k
        ake := fun k => by obtain ⟨b, hb⟩ := hq k; rw [hb]; exact hi.ake k
        dake := fun k => by obtain ⟨b, hb⟩ := hq k; rw [hb]; exact hi.dake k }
  obtain ⟨h, hh1, hh2, hh3⟩ := handOver_eq (sent := []) hi1 m
  have e1 : handedAke s1 m = handedAke s m := by unfold handedAke; rw [ha, ha0]
  have e2 : handedDake s1 m = handedDake s m := by unfold handedDake; rw [ha, ha0]
  have hrec : (s1.inst m.sender).receiver = m.sender := hi1.receiver _
  let i0 : Instance := { s1.inst m.sender with ake := handedAke s m, dake := handedDake s m }
  have hadopt : adopt h ⟨s1.inst m.sender, []⟩ = (.ok (), ⟨i0, []⟩) := by
    rw [adopt_eq (by rw [hrec]; exact hs), hh2, hh3, e1, e2]
  have hcl : ∃ i1, SameKex i0 i1 ∧ Instance.clearAssembler m.version ⟨i0, []⟩ = (.ok (), ⟨i1, []⟩) := by
    unfold Instance.clearAssembler
    rcases h3 with h3 | h3 <;> rw [h3]
    · refine ⟨{ i0 with assembler := { i0.assembler with inorder := .new } }, ⟨_, rfl⟩, ?_⟩
      simp [StM.bind_run, StM.query, Assembler.cleanup, StM.modify]
    · exact ⟨i0, kex_pre.refl _, rfl⟩
  obtain ⟨i1, ⟨a1, hi1'⟩, hcl⟩ := hcl
  refine ⟨i1, s1, hk, ?_, ?_, ?_, ?_, ?_⟩
  · rw [hi1']; exact hrec
  · rw [hi1']; show (s1.inst m.sender).state = _; rw [ha]
  · rw [hi1']
  · rw [hi1']
  · rw [hrun]
    simp only [receiveEncoded, StM.bind_run, StM.lift, hh, h1, Bool.not_true, Bool.false_eq_true, if_false, hh1, entry, Instance.handle]
    have : (lookup s1.instances m.sender).getD (.new m.sender) = s1.inst m.sender := rfl
    simp only [this, hadopt, hcl]

theorem header_first {E : Env} {A : Account} {text : Bytes} {m : EncodedMessage} (hp : parse E text = .ok (.encoded m))
    (hs : m.sender ≠ 0) (hr : m.receiver = 0) (hm : (∃ d, m.message = .identity d) ∨ ∃ d, m.message = .dhCommit d) :
    verifyHeader A m = .ok () := by
  obtain ⟨h1, _, h3, h4⟩ := C13_header E text m hp
  unfold verifyHeader
  have ht : verifyTag m.sender = .ok m.sender := verifyTag_valid h3
  have ht' : verifyTag m.receiver = .ok m.receiver := verifyTag_valid h4
  rw [hr] at ht'
  obtain ⟨d, hm⟩ | ⟨d, hm⟩ := hm <;> rcases h1 with h1 | h1 <;>
    simp [h1, ht, ht', hm, Res.mapErr, Res.guard, INSTANCE_ZERO, hs, hr]

theorem inst_insert {s : Session} {k : UInt32} {i : Instance} : inst { s with instances := insertKey s.instances k i } k = i := by
  unfold inst
  rw [lookup_insertKey, if_pos rfl]
  rfl

end Session

/-! ## The steps of the OTRv4 exchange -/

namespace DAKE

/-- The Auth-R message contains the profile and the new keys of the client. -/
theorem handleIdentity_fields {E : Env} {host : DAKEHost} {m : IdentityMessage} {rnd : Rand} {s s' : DAKEState} {mR : AuthRMessage}
    (h : handleIdentity E host m rnd s = (.ok (.authR mR), s')) {P : ClientProfilePayload} (hP : ownPayload E host = .ok P) :
    ∃ sg, mR = ⟨P, (ECDHKeyPair.generate E (rnd.bytes [0] 57)).pub, (DH.Keypair.generate3 E.dh3 (rnd.bytes [1] 80)).pub, sg,
      (ECDHKeyPair.generate E (rnd.bytes [2] 57)).pub, (DH.Keypair.generate3 E.dh3 (rnd.bytes [3] 80)).pub⟩ := by
  have h := transact_ok.mp h
  have key : ∀ {bob x}, answerIdentity E host m bob rnd = .ok (.authR mR, x) →
    ∃ sg, mR = ⟨P, (ECDHKeyPair.generate E (rnd.bytes [0] 57)).pub, (DH.Keypair.generate3 E.dh3 (rnd.bytes [1] 80)).pub, sg,
      (ECDHKeyPair.generate E (rnd.bytes [2] 57)).pub, (DH.Keypair.generate3 E.dh3 (rnd.bytes [3] 80)).pub⟩ := by
    intro bob x h
    simp only [answerIdentity, hP, Res.bind_eq_ok, Res.pure_def, Res.ok.injEq, Prod.mk.injEq, EncodedMessageType.authR.injEq] at h
    obtain ⟨p, rfl, own, _, sg, _, k, _, rfl, _⟩ := h
    exact ⟨sg, rfl⟩
  simp only [Res.bind_eq_ok] at h
  obtain ⟨bob, _, h⟩ := h
  split at h
  · split at h
    · simp at h
    · exact key h
  · exact key h

/-- The D-H key that the client generates when it completes the exchange it began. -/
theorem handleAuthR_dh {E : Env} {host : DAKEHost} {m : AuthRMessage} {rnd : Rand} {now : Nat} {s s' : DAKEState} {mat : MixedKeyMaterial}
    {out : EncodedMessageType} (h : handleAuthR E host m rnd now s = (.ok (mat, out), s')) :
    mat.ratchet.shared.dh = DH.Keypair.generate3 E.dh3 ((rnd.sub 1).bytes [0] 80) := by
  have h := transact_ok.mp h
  split at h
  · simp only [answerAuthR, DoubleRatchet.rotateSender, DoubleRatchet.init, Mixed.rotateKeypairs, Res.bind_eq_ok, Res.pure_def, Res.ok.injEq,
      Prod.mk.injEq] at h
    obtain ⟨_, ⟨_, _, _, _, _, _, _, _, _, _, _, _, _, ⟨_, _, sh, hsh, _, _, rfl⟩, rfl⟩, ⟨rfl, rfl⟩, rfl⟩ := h
    simp only [show ((0 : UInt32) % 3 == 0) = true from rfl, if_true, Res.expect_eq_ok] at hsh
    rw [(Mixed.next_ok hsh).2.2.2.2]
  · simp at h

end DAKE

namespace Instance
variable {E : Env} {A : Account} {c : Call}

theorem initiate4_eq {i : Instance} {r : EncodedMessageType} {d : DAKEState} {t : Bytes}
    (h : DAKE.initiate E (c.dake A) (c.rnd.sub 0) i.dake = (.ok r, d))
    (ht : serialize (.encoded ⟨.v4, A.tag, i.receiver, r⟩) = .ok t) (hl : t.length ≤ c.messageSize) :
    initiate E A c .v4 ⟨i, []⟩ = (.ok .none, ⟨{ i with dake := d }, [t]⟩) := by
  have h1 : onDake (DAKE.initiate E (c.dake A) (c.rnd.sub 0)) ⟨i, []⟩ = (.ok r, ⟨{ i with dake := d }, []⟩) := by
    simp only [onDake, h]
  simp only [initiate, StM.bind_run, h1, StM.gets]
  rw [inject_whole (i := { i with dake := d }) rfl ht hl]
  rfl

theorem process_identity {i : Instance} {msg : IdentityMessage} {snd rcv : UInt32} {r : EncodedMessageType} {d : DAKEState} {t : Bytes}
    (hr : i.receiver = snd) (h : DAKE.handleIdentity E (c.dake A) msg (c.rnd.sub 0) i.dake = (.ok r, d))
    (ht : serialize (.encoded ⟨.v4, A.tag, snd, r⟩) = .ok t) (hl : t.length ≤ c.messageSize) :
    process E A c ⟨.v4, snd, rcv, .identity msg⟩ ⟨i, []⟩ = (.ok .none, ⟨{ i with dake := d }, [t]⟩) := by
  have h1 : onDake (DAKE.handleIdentity E (c.dake A) msg (c.rnd.sub 0)) ⟨i, []⟩ = (.ok r, ⟨{ i with dake := d }, []⟩) := by
    simp only [onDake, h]
  simp only [process, StM.bind_run, h1, StM.gets]
  rw [inject_whole (i := { i with dake := d }) hr ht hl]
  rfl

theorem process_authR {i : Instance} {msg : AuthRMessage} {snd rcv : UInt32} {r : EncodedMessageType} {mat : MixedKeyMaterial} {d : DAKEState}
    {t : Bytes} (hr : i.receiver = snd) (h : DAKE.handleAuthR E (c.dake A) msg (c.rnd.sub 0) c.now i.dake = (.ok (mat, r), d))
    (ht : serialize (.encoded ⟨.v4, A.tag, snd, r⟩) = .ok t) (hl : t.length ≤ c.messageSize) :
    process E A c ⟨.v4, snd, rcv, .authR msg⟩ ⟨i, []⟩ =
      (.ok (.sessionStarted snd), ⟨{ i with dake := d, state := PState.secure4 A.tag snd mat }, [t]⟩) := by
  have h1 : onDake (DAKE.handleAuthR E (c.dake A) msg (c.rnd.sub 0) c.now) ⟨i, []⟩ = (.ok (mat, r), ⟨{ i with dake := d }, []⟩) := by
    simp only [onDake, h]
  simp only [process, StM.bind_run, h1, StM.gets]
  rw [inject_whole (i := { i with dake := d }) hr ht hl, hr]
  rfl

theorem process_authI {i : Instance} {msg : AuthIMessage} {snd rcv : UInt32} {mat : MixedKeyMaterial} {d : DAKEState}
    (hr : i.receiver = snd) (h : DAKE.handleAuthI E (c.dake A) msg c.now i.dake = (.ok mat, d)) :
    process E A c ⟨.v4, snd, rcv, .authI msg⟩ ⟨i, []⟩ =
      (.ok (.sessionStarted snd), ⟨{ i with dake := d, state := PState.secure4 A.tag snd mat }, []⟩) := by
  have h1 : onDake (DAKE.handleAuthI E (c.dake A) msg c.now) ⟨i, []⟩ = (.ok mat, ⟨{ i with dake := d }, []⟩) := by
    simp only [onDake, h]
  simp only [process, StM.bind_run, h1, StM.gets, hr]
  rfl

end Instance

namespace Session

/-- A whole text that reads as a message is processed by the instance of the sender. -/
theorem text_run {E : Env} {A : Account} {c : Call} {s : Session} (hi : Inv E s) {t : Bytes} {m : EncodedMessage} (hf : matchFragment t = false)
    (hp : parse E t = .ok (.encoded m)) (hv : m.version = .v3 ∧ AllowsV3 A ∨ m.version = .v4 ∧ AllowsV4 A) (hs : m.sender ≠ 0)
    (hh : verifyHeader A m = .ok ()) {x : Instance → Instance} {u : UserMessage} {out : List Bytes}
    (hx : ∀ i : Instance, i.receiver = m.sender → i.state = (s.inst m.sender).state → i.ake = handedAke s m → i.dake = handedDake s m →
      Instance.process E A c m ⟨i, []⟩ = (.ok u, ⟨x i, out⟩)) :
    ∃ i1, i1.receiver = m.sender ∧ i1.state = (s.inst m.sender).state ∧ i1.ake = handedAke s m ∧ i1.dake = handedDake s m ∧
      ((Op.receive t).run E A c s).result = .ok (.user u) ∧ ((Op.receive t).run E A c s).sent = out ∧
      (((Op.receive t).run E A c s).after.inst m.sender = x i1) ∧
      ∀ k, k ≠ m.sender → SameKex (s.inst k) (((Op.receive t).run E A c s).after.inst k) := by
  obtain ⟨i1, s1, hk, h1, h2, h3, h4, hrun⟩ := message_run (c := c) hi (.inl ⟨hf, hp⟩) hv hs hh
  rw [hx i1 h1 h2 h3 h4] at hrun
  refine ⟨i1, h1, h2, h3, h4, ?_, ?_, ?_, fun k hk' => ?_⟩
  · rw [Op.run, perform_result, hrun]; rfl
  · rw [Op.run, perform_sent, hrun]
  · rw [Op.run, perform_after, hrun]; exact inst_insert
  · rw [Op.run, perform_after, hrun]
    have : inst { s1 with instances := insertKey s1.instances m.sender (x i1) } k = s1.inst k := by
      unfold inst
      rw [lookup_insertKey, if_neg (Ne.symm hk')]
    rw [this]
    exact hk.each k

end Session
end Otrr
