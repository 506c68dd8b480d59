import Verif.Props.SessionUse
import Verif.Spec.SessionData
import Verif.Lemmas.SessionSmpToy
/-! C71 to C73: data messages in sessions. -/

namespace Otrr.Props
open Otrr Otrr.Spec Otrr.Session

theorem stateOf_inst (s : Session) (k : UInt32) : stateOf s k = (s.inst k).state := by
  unfold stateOf inst
  cases lookup s.instances k <;> rfl

/-! ## C71 -/

/-- The states of the other instances and of this one, after one instance was replaced. -/
theorem insert_effects {s s1 : Session} {k : UInt32} {i i' : Instance} (hk : Session.Rel SameKex s s1) (hi : (s.inst k).state.status = i.state.status)
    (hi' : (s.inst k).state.ssid? = i.state.ssid?) (heq : i' = i) :
    let s' : Session := { s1 with instances := insertKey s1.instances k i' }
    (∀ j st, s.status j = some st → s'.status j = some st) ∧ ∀ j x, s'.ssid j = .ok x ↔ s.ssid j = .ok x := by
  subst heq
  intro s'
  have hinst : ∀ j, (s'.inst j).state.status = (s.inst j).state.status ∧ (s'.inst j).state.ssid? = (s.inst j).state.ssid? := by
    intro j
    by_cases h : k = j
    · subst h
      have : s'.inst k = i' := by simp only [s', inst, lookup_insertKey, if_true, Option.getD_some]
      rw [this]
      exact ⟨hi.symm, hi'.symm⟩
    · have : s'.inst j = s1.inst j := by simp only [s', inst, lookup_insertKey, if_neg h]
      rw [this, (hk.each j).same.1]
      trivial
  refine ⟨fun j st hst => ?_, fun j x => ⟨fun h => ?_, fun h => ?_⟩⟩
  · have hs : (lookup s'.instances j).isSome := by
      obtain ⟨a, ha, _⟩ := status_lookup hst
      have := hk.keys j (by rw [ha]; rfl)
      simp only [s', lookup_insertKey]
      split
      · rfl
      · exact this
    obtain ⟨b, hb⟩ := Option.isSome_iff_exists.mp hs
    have h1 := status_inst hst
    have h2 := (hinst j).1
    rw [inst_of_lookup hb] at h2
    unfold Session.status
    rw [hb, Option.map_some, Instance.status, h2]
    exact congrArg some h1
  · apply ssid_of_inst
    rw [← (hinst j).2]
    exact ssid_inst h
  · apply ssid_of_inst
    rw [(hinst j).2]
    exact ssid_inst h

/-- C71: a data message that this client cannot read is answered with an error message, and reported as unreadable, unless it is
flagged "ignore unreadable".  All sessions go on as they were. -/
theorem C71_unreadable (E : Env) (A : Account) (h : List Ev) (s : Session) (hh : Hist E A h s) (c : Call) (payload : Bytes) (m : EncodedMessage)
    (hd : Delivers E A s payload m) (hv : m.version = .v3 ∧ AllowsV3 A ∨ m.version = .v4 ∧ AllowsV4 A)
    (hs : m.sender ≠ 0) (hr : m.receiver = A.tag) (ht : A.tag ≠ 0) (hu : Unreadable E c m (stateOf s m.sender)) :
    let e := (Op.receive payload).run E A c s
    e.result = (if (dataFlags m.message).toNat.testBit 0 then .ok (.user .none) else .err (.unreadableMessage m.sender)) ∧
      e.sent = [unreadableText] ∧ (∀ k st, s.status k = some st → e.after.status k = some st) ∧
      ∀ k x, e.after.ssid k = .ok x ↔ s.ssid k = .ok x := by
  have hi := hist_inv hh
  rw [stateOf_inst] at hu
  have hn : (∀ d, m.message ≠ .dhKey d) ∧ ∀ d, m.message ≠ .authR d := by
    constructor <;> intro d hx <;> rcases hu with ⟨_, _, hm, _⟩ | ⟨_, _, hm, _⟩ <;> rw [hm] at hx <;> cases hx
  obtain ⟨i, s1, hk, hki, hrun⟩ := process_run (c := c) hd hv hs hr ht hn.1 hn.2
  have hrec : i.receiver = m.sender := by rw [hki.same.2, hi.receiver]
  have hfl : ∀ f : UInt8, (f &&& IGNORE_UNREADABLE = IGNORE_UNREADABLE) ↔ f.toNat.testBit 0 = true := by
    intro f
    rw [← UInt8.toNat_inj, UInt8.toNat_and, show IGNORE_UNREADABLE.toNat = 2 ^ 0 from rfl, Nat.and_two_pow]
    cases f.toNat.testBit 0 <;> simp
  have hp : ∃ s', s'.status = i.state.status ∧ s'.ssid? = i.state.ssid? ∧ Instance.process E A c m ⟨i, []⟩ =
      (if (dataFlags m.message).toNat.testBit 0 then .ok .none else .err (.unreadableMessage m.sender),
        ⟨{ i with state := s' }, [unreadableText]⟩) := by
    have hst := hki.same.1
    rw [← hst] at hu
    obtain ⟨v, snd, rcv, em⟩ := m
    simp only at hrec
    have fin : ∀ (v : Version) (fl : UInt8) (t : UInt32) (i' : Instance), i'.receiver = snd →
        Instance.handleDecrypted E A c v snd fl (.err (.unreadableMessage t)) ⟨i', []⟩ =
          (if fl.toNat.testBit 0 then .ok .none else .err (.unreadableMessage snd), ⟨i', [unreadableText]⟩) := by
      intro v fl t i' hi'
      have hser : serialize (.error Instance.UNREADABLE) = .ok unreadableText := rfl
      simp only [Instance.handleDecrypted, StM.bind_run, StM.gets, StM.lift, hser, Instance.emit, List.nil_append, hi', hfl]
      split <;> rfl
    rcases hu with ⟨d, hv', hm, hx⟩ | ⟨d, hv', hm, hval, hx⟩
    · simp only at hv' hm hx
      subst hv' hm
      have key : ∃ t s', s'.status = i.state.status ∧ s'.ssid? = i.state.ssid? ∧
          i.state.handle3 E d (authenticatorData 3 snd rcv d) (c.rnd.bytes [0] 192) = (.err (.unreadableMessage t), s') := by
        cases hs' : i.state with
        | plaintext => exact ⟨_, _, rfl, rfl, rfl⟩
        | finished => exact ⟨_, _, rfl, rfl, rfl⟩
        | encrypted4 x smp => exact ⟨_, _, rfl, rfl, rfl⟩
        | encrypted3 x smp =>
          obtain ⟨t, hx⟩ := hx x smp hs'
          cases hy : Enc3.handle E d (authenticatorData 3 snd rcv d) (c.rnd.bytes [0] 192) x with
          | mk r x' =>
            rw [hy] at hx
            simp only at hx
            subst hx
            refine ⟨t, .encrypted3 x' smp, rfl, rfl, ?_⟩
            rw [PState.handle3, hy]
            rfl
      obtain ⟨t, s', h1, h2, h3⟩ := key
      refine ⟨s', h1, h2, ?_⟩
      simp only [Instance.process, StM.bind_run, StM.gets, Instance.attempt, Instance.onState, h3, fin _ _ _ _ (show ({ i with state := s' } : Instance).receiver = snd from hrec)]
      rfl
    · simp only at hv' hm hx
      subst hv' hm
      have key : ∃ t s', s'.status = i.state.status ∧ s'.ssid? = i.state.ssid? ∧
          i.state.handle4 E d (authenticatorData4 4 snd rcv d) c.now = (.err (.unreadableMessage t), s') := by
        cases hs' : i.state with
        | plaintext => exact ⟨_, _, rfl, rfl, rfl⟩
        | finished => exact ⟨_, _, rfl, rfl, rfl⟩
        | encrypted3 x smp => exact ⟨_, _, rfl, rfl, rfl⟩
        | encrypted4 x smp =>
          obtain ⟨t, hx⟩ := hx x smp hs'
          cases hy : Enc4.handle E d (authenticatorData4 4 snd rcv d) c.now x with
          | mk r x' =>
            rw [hy] at hx
            simp only at hx
            subst hx
            refine ⟨t, .encrypted4 x' smp, rfl, rfl, ?_⟩
            rw [PState.handle4, hy]
            rfl
      obtain ⟨t, s', h1, h2, h3⟩ := key
      refine ⟨s', h1, h2, ?_⟩
      simp only [Instance.process, StM.bind_run, StM.gets, StM.lift, hval, Instance.attempt, Instance.onState, h3, fin _ _ _ _ (show ({ i with state := s' } : Instance).receiver = snd from hrec)]
      rfl
  obtain ⟨s', h1, h2, hproc⟩ := hp
  have hfx := insert_effects (i := { i with state := s' }) hk (by rw [show ({ i with state := s' } : Instance).state = s' from rfl, h1, hki.same.1])
    (by rw [show ({ i with state := s' } : Instance).state = s' from rfl, h2, hki.same.1]) rfl
  rw [hproc] at hrun
  simp only [Op.run]
  rw [perform_result, perform_sent, perform_after, hrun]
  refine ⟨?_, rfl, hfx⟩
  simp only
  split <;> rfl

/-- Bob gets a data message in which the network changed a character. -/
example : ∃ h m, Hist ToySession.smpEnv ToySession.acB h ToySession.g5.after ∧
    Delivers ToySession.smpEnv ToySession.acB ToySession.g5.after (ToySession.twice.set 60 66) m ∧
    (m.version = .v3 ∧ AllowsV3 ToySession.acB ∨ m.version = .v4 ∧ AllowsV4 ToySession.acB) ∧ m.sender ≠ 0 ∧
    m.receiver = ToySession.acB.tag ∧ ToySession.acB.tag ≠ 0 ∧ (stateOf ToySession.g5.after m.sender).status = .encrypted ∧
    Unreadable ToySession.smpEnv (ToySession.callB 1000 9) m (stateOf ToySession.g5.after m.sender) := by
  obtain ⟨h, hh⟩ := ToySession.hist_g5
  obtain ⟨hs, d, hp, hu⟩ := ToySession.unread_true ToySession.runSmp3.2.2.2.2.2.2.2.2.2
  exact ⟨h, _, hh, .inl ⟨ToySession.runSmp3.2.2.2.2.2.2.2.2.1, hp⟩, .inl ⟨rfl, by simp only [AllowsV3, PolicyBit]; decide⟩, (by show (0x100 : UInt32) ≠ 0; decide), rfl,
    by decide, hs, hu⟩

/-! ## C72, C73 -/

theorem tlvPlain_onlyTlv (t : TLV) : Instance.tlvPlain t = if t.value.length < 2 ^ 16 then .ok (onlyTlv t) else .panic := by
  unfold Instance.tlvPlain tlvOk
  by_cases h : t.value.length < 2 ^ 16
  · rw [if_pos h, decide_eq_true h]; rfl
  · rw [if_neg h, decide_eq_false h]; rfl

/-- Sending a TLV in an encrypted session. -/
theorem sendTlv_run {E : Env} {A : Account} {c : Call} {rnd : Rand} {k : UInt32} {t : TLV} {i : Instance} {sent : List Bytes}
    (hk : i.receiver = k) (he : i.state.status = .encrypted) :
    (Instance.sendTlv E A c rnd k t ⟨i, sent⟩).1 = .panic ∨
      ∃ s' out, Instance.sendTlv E A c rnd k t ⟨i, sent⟩ = (.ok (), ⟨{ i with state := s' }, sent ++ out⟩) ∧
        SendsTlv E A c k t i.state s' out ∧ smpStatusOf s' = smpStatusOf i.state ∧ s'.status = .encrypted := by
  simp only [Instance.sendTlv, StM.bind_run, StM.lift, tlvPlain_onlyTlv]
  by_cases hlen : t.value.length < 2 ^ 16
  · rw [if_pos hlen]
    simp only [Instance.onState, StM.gets]
    rcases prepare_encrypts (E := E) (c := c) (fl := IGNORE_UNREADABLE) (content := onlyTlv t) (rnd := rnd.sub 0) he with hp | ⟨m, s', hp, henc⟩
    · left
      cases hx : i.state.prepare E IGNORE_UNREADABLE (onlyTlv t) (rnd.sub 0) c.now with
      | mk r x => rw [hx] at hp; simp only at hp; subst hp; rfl
    · rw [hp]
      simp only
      have hv : s'.version = i.state.version ∧ smpStatusOf s' = smpStatusOf i.state ∧ s'.status = .encrypted := by
        rcases henc with ⟨_, _, _, _, h1, h2, _⟩ | ⟨_, _, _, _, _, h1, h2, _⟩ <;> rw [h1, h2] <;> exact ⟨rfl, rfl, rfl⟩
      rcases inject_run (A := A) (c := c) (rnd := rnd.sub 1) (v := s'.version) (k := k) (m := m) (i := { i with state := s' }) (sent := sent) hk with
        h | ⟨out, h, ht⟩
      · left
        exact h
      · right
        rw [hv.1] at ht
        exact ⟨s', out, h, ⟨hlen, m, henc, ht⟩, hv.2⟩
  · rw [if_neg hlen]
    exact .inl rfl

theorem isSmpTlv_iff {v : Version} (hv : v = .v3 ∨ v = .v4) (t : TLV) : isSmpTlv v t = true ↔ SmpType v t := by
  rcases hv with rfl | rfl
  · simp [isSmpTlv, SMP.isSmpTlv, SmpType, SMP.T1, SMP.T1Q, SMP.T2, SMP.T3, SMP.T4, SMP.TAbort]
    tauto
  · simp [isSmpTlv, SMP4.isSmpTlv, SmpType, SMP4.T1, SMP4.T2, SMP4.T3, SMP4.T4, SMP4.TAbort]
    tauto

theorem _root_.Otrr.Spec.DecryptsTo.decrypts {E : Env} {c : Call} {m : EncodedMessage} {s s' : PState} {msg : PMessage}
    (h : DecryptsTo E c m s msg s') : Decrypts E c m s msg := by
  rcases h with ⟨x, smp, d, x', last, h1, h2, h3, h4, _⟩ | ⟨x, smp, d, x', last, h1, h2, h3, h4, h5, _⟩
  · exact .inl ⟨x, smp, d, x', last, h1, h2, h3, h4⟩
  · exact .inr ⟨x, smp, d, x', last, h1, h2, h3, h4, h5⟩

theorem _root_.Otrr.Spec.Decrypts.to {E : Env} {c : Call} {m : EncodedMessage} {s : PState} {msg : PMessage}
    (h : Decrypts E c m s msg) : ∃ s', DecryptsTo E c m s msg s' := by
  rcases h with ⟨x, smp, d, x', last, h1, h2, h3, h4⟩ | ⟨x, smp, d, x', last, h1, h2, h3, h4, h5⟩
  · exact ⟨_, .inl ⟨x, smp, d, x', last, h1, h2, h3, h4, rfl⟩⟩
  · exact ⟨_, .inr ⟨x, smp, d, x', last, h1, h2, h3, h4, h5, rfl⟩⟩

/-- A data message that decrypts, with the state it leads to. -/
theorem process_decryptsTo {E : Env} {A : Account} {c : Call} {m : EncodedMessage} {i : Instance} {msg : PMessage} {s' : PState}
    (h : DecryptsTo E c m i.state msg s') (sent : List Bytes) :
    ∃ fl, Instance.process E A c m ⟨i, sent⟩ =
      Instance.handleDecrypted E A c m.version m.sender fl (.ok msg) ⟨{ i with state := s' }, sent⟩ := by
  obtain ⟨v, snd, rcv, em⟩ := m
  rcases h with ⟨x, smp, d, x', last, h1, h2, h3, h4, rfl⟩ | ⟨x, smp, d, x', last, h1, h2, h3, hval, h4, rfl⟩
  · simp only at h2 h3 h4
    subst h2 h3
    refine ⟨d.flags, ?_⟩
    have key : i.state.handle3 E d (authenticatorData 3 snd rcv d) (c.rnd.bytes [0] 192) =
        (.ok msg, if last then .finished else .encrypted3 x' smp) := by
      rw [h1, PState.handle3, h4]
      cases last <;> rfl
    simp only [Instance.process, StM.bind_run, StM.gets, Instance.attempt, Instance.onState, key]
  · simp only at h2 h3 h4
    subst h2 h3
    refine ⟨d.flags, ?_⟩
    have key : i.state.handle4 E d (authenticatorData4 4 snd rcv d) c.now =
        (.ok msg, if last then .finished else .encrypted4 x' smp) := by
      rw [h1, PState.handle4, h4]
      cases last <;> rfl
    simp only [Instance.process, StM.bind_run, StM.gets, StM.lift, hval, Instance.attempt, Instance.onState, key]

/-- `data_run` with the state after decryption. -/
theorem data_runTo {E : Env} {A : Account} {c : Call} {s : Session} (hi : Inv E s) {payload : Bytes} {m : EncodedMessage} {msg : PMessage} {s' : PState}
    (hd : Delivers E A s payload m) (hv : m.version = .v3 ∧ AllowsV3 A ∨ m.version = .v4 ∧ AllowsV4 A)
    (hs : m.sender ≠ 0) (hr : m.receiver = A.tag) (ht : A.tag ≠ 0) (hdec : DecryptsTo E c m (stateOf s m.sender) msg s') :
    ∃ (i' : Instance) (fl : UInt8) (s1 : Session) (x : Res UserMessage × World Instance), i'.state = s' ∧ i'.receiver = m.sender ∧
      x = Instance.handleDecrypted E A c m.version m.sender fl (.ok msg) ⟨i', []⟩ ∧ Session.Rel SameKex s s1 ∧
      receive E A c payload ⟨s, []⟩ =
        (x.1, ⟨({ s1 with instances := insertKey s1.instances m.sender x.2.st } : Session), x.2.sent⟩) := by
  have hn : (∀ d, m.message ≠ .dhKey d) ∧ ∀ d, m.message ≠ .authR d := by
    constructor <;> intro d hx <;> rcases hdec with ⟨_, _, _, _, _, _, _, hm, _⟩ | ⟨_, _, _, _, _, _, _, hm, _⟩ <;> rw [hm] at hx <;> cases hx
  obtain ⟨i, s1, hk, hki, hrun⟩ := process_run (c := c) hd hv hs hr ht hn.1 hn.2
  rw [stateOf_inst, ← hki.same.1] at hdec
  obtain ⟨fl, hp⟩ := process_decryptsTo (A := A) hdec []
  refine ⟨{ i with state := s' }, fl, s1, _, rfl, ?_, rfl, hk, ?_⟩
  · show i.receiver = _
    rw [hki.same.2, hi.receiver]
  · rw [hrun, hp]

/-- The SMP of the session handles a TLV. -/
theorem smpHandle_run {E : Env} {c : Call} {v : Version} {t : TLV} {s : PState} (hs : s.status = .encrypted) (hv : s.version = v) :
    (Instance.smpHandle E c (c.rnd.sub 1) v t s).1 = .panic ∨
      ∃ reply s', Instance.smpHandle E c (c.rnd.sub 1) v t s = (.ok reply, s') ∧ SmpAnswers E c s t reply s' ∧ s'.status = .encrypted ∧
        ∃ st, smpStatusOf s' = some st ∧ Instance.smpStatus v s' = .ok st := by
  cases s with
  | plaintext => simp [PState.status] at hs
  | finished => simp [PState.status] at hs
  | encrypted3 x smp =>
    subst hv
    simp only [PState.version, Instance.smpHandle, PState.onSmp]
    cases hh : SMP.handle E c.smp t (c.rnd.sub 1) smp with
    | mk r smp' =>
      cases r with
      | panic => exact .inl rfl
      | err e =>
        exfalso
        unfold SMP.handle at hh
        dsimp only at hh
        split at hh <;> simp at hh
      | ok reply => exact .inr ⟨reply, _, rfl, .inl ⟨x, smp, smp', rfl, rfl, hh⟩, rfl, _, rfl, rfl⟩
  | encrypted4 x smp =>
    subst hv
    simp only [PState.version, Instance.smpHandle, PState.onSmp4]
    cases hh : SMP4.handle E c.smp t (c.rnd.sub 1) smp with
    | mk r smp' =>
      cases r with
      | panic => exact .inl rfl
      | err e =>
        exfalso
        unfold SMP4.handle at hh
        split at hh <;> simp at hh
      | ok reply => exact .inr ⟨reply, _, rfl, .inr ⟨x, smp, smp', rfl, rfl, hh⟩, rfl, _, rfl, rfl⟩

theorem smpEnd_run {v : Version} {i : Instance} {sent : List Bytes} {st : SMPStatus} (h : Instance.smpStatus v i.state = .ok st) :
    (Instance.smpEnd v ⟨i, sent⟩).1 = .panic ∨
      ∃ um, Instance.smpEnd v ⟨i, sent⟩ = (.ok um, ⟨i, sent⟩) ∧ SmpReported i.receiver st um := by
  simp only [Instance.smpEnd, StM.bind_run, StM.gets, StM.query, h]
  cases st with
  | initial => exact .inl rfl
  | inProgress => exact .inr ⟨_, rfl, .running⟩
  | completed => exact .inr ⟨_, rfl, .success⟩
  | aborted => exact .inr ⟨_, rfl, .failure⟩

/-- One SMP TLV. -/
theorem handleSmp_run {E : Env} {A : Account} {c : Call} {v : Version} {k : UInt32} {pre post : List TLV} {t : TLV} {i : Instance}
    (hk : i.receiver = k) (he : i.state.status = .encrypted) (hv : i.state.version = v) (h3 : v = .v3 ∨ v = .v4) (ht : SmpType v t)
    (hno : ∀ u ∈ pre ++ post, ¬ SmpType v u) :
    (Instance.handleSmp E A c v k (pre ++ t :: post) ⟨i, []⟩).1 = .panic ∨
      ∃ s2 s3 reply st um out, Instance.handleSmp E A c v k (pre ++ t :: post) ⟨i, []⟩ = (.ok um, ⟨{ i with state := s3 }, out⟩) ∧
        SmpAnswers E c i.state t reply s2 ∧
        (reply = none ∧ out = [] ∧ s3 = s2 ∨ ∃ r, reply = some r ∧ SendsTlv E A c k r s2 s3 out) ∧
        smpStatusOf s2 = some st ∧ SmpReported k st um := by
  have hf : ∀ l : List TLV, (∀ u ∈ l, ¬ SmpType v u) → l.filter (isSmpTlv v) = [] ∧ l.find? (isSmpTlv v) = none := by
    intro l hl
    have : ∀ u ∈ l, ¬ isSmpTlv v u = true := fun u hu => by rw [isSmpTlv_iff h3]; exact hl u hu
    exact ⟨List.filter_eq_nil_iff.mpr this, List.find?_eq_none.mpr this⟩
  have ht' : isSmpTlv v t = true := (isSmpTlv_iff h3 t).mpr ht
  have e1 : (pre ++ t :: post).filter (isSmpTlv v) = [t] := by
    rw [List.filter_append, List.filter_cons, if_pos ht', (hf pre fun u hu => hno u (by simp [hu])).1,
      (hf post fun u hu => hno u (by simp [hu])).1]
    rfl
  have e2 : (pre ++ t :: post).find? (isSmpTlv v) = some t := by
    rw [List.find?_append, (hf pre fun u hu => hno u (by simp [hu])).2, Option.none_or, List.find?_cons_of_pos ht']
  have e3 : Instance.handleSmp E A c v k (pre ++ t :: post) ⟨i, []⟩ =
      (do
        match ← Instance.onState (Instance.smpHandle E c (c.rnd.sub 1) v t) with
        | some reply => do Instance.sendTlv E A c (c.rnd.sub 2) k reply; Instance.smpEnd v
        | .none => Instance.smpEnd v : InstM UserMessage) ⟨i, []⟩ := by
    unfold Instance.handleSmp
    rw [e1, e2, if_neg (show ¬ 1 < [t].length by simp)]
    simp only [StM.bind_run]
    cases Instance.onState (Instance.smpHandle E c (c.rnd.sub 1) v t) ⟨i, []⟩ with
    | mk r w => cases r with
      | ok a => cases a <;> rfl
      | err e => rfl
      | panic => rfl
  rw [e3]
  simp only [StM.bind_run, Instance.onState]
  rcases smpHandle_run (E := E) (c := c) (t := t) he hv with hp | ⟨reply, s2, hp, hans, he2, st, hst, hst'⟩
  · left
    cases hx : Instance.smpHandle E c (c.rnd.sub 1) v t i.state with
    | mk r x => rw [hx] at hp; simp only at hp; subst hp; rfl
  · rw [hp]
    simp only
    cases reply with
    | none =>
      simp only
      rcases smpEnd_run (v := v) (i := { i with state := s2 }) (sent := []) hst' with h | ⟨um, h, hr⟩
      · exact .inl h
      · refine .inr ⟨s2, s2, none, st, um, [], h, hans, .inl ⟨rfl, rfl, rfl⟩, hst, ?_⟩
        rw [← hk]; exact hr
    | some r =>
      simp only [StM.bind_run]
      rcases sendTlv_run (E := E) (A := A) (c := c) (rnd := c.rnd.sub 2) (t := r) (i := { i with state := s2 }) (sent := []) hk he2 with
        h | ⟨s3, out, h, hsend, hsm, he3⟩
      · left
        cases hx : Instance.sendTlv E A c (c.rnd.sub 2) k r ⟨{ i with state := s2 }, []⟩ with
        | mk r x => rw [hx] at h; simp only at h; subst h; rfl
      · rw [h]
        simp only [List.nil_append]
        have hst3 : Instance.smpStatus v s3 = .ok st := by
          have hv2 : s3.version = v := by
            obtain ⟨_, m, henc, _⟩ := hsend
            have hv2 : s2.version = v := by
              rcases hans with ⟨_, _, _, h1, h2, _⟩ | ⟨_, _, _, h1, h2, _⟩ <;> rw [h2] <;> rw [h1] at hv <;> exact hv
            rcases henc with ⟨_, _, _, _, h1, h2, _⟩ | ⟨_, _, _, _, _, h1, h2, _⟩ <;>
              simp only at h1 <;> rw [h1] at hv2 <;> rw [h2] <;> exact hv2
          simp only at hsm
          rw [hst] at hsm
          clear hst' h hsend he2 hp e3 hans
          cases s3 with
          | plaintext => cases he3
          | finished => cases he3
          | encrypted3 x smp => cases hv2; cases hsm; rfl
          | encrypted4 x smp => cases hv2; cases hsm; rfl
        rcases smpEnd_run (v := v) (i := { i with state := s3 }) (sent := out) hst3 with h' | ⟨um, h', hr⟩
        · exact .inl h'
        · refine .inr ⟨s2, s3, some r, st, um, out, h', hans, .inr ⟨r, rfl, hsend⟩, hst, ?_⟩
          rw [← hk]; exact hr

theorem _root_.Otrr.Spec.DecryptsTo.confidential {E : Env} {c : Call} {m : EncodedMessage} {s s' : PState} {content : Bytes} {tlvs : List TLV}
    (h : DecryptsTo E c m s (.confidential content tlvs) s') : s'.status = .encrypted ∧ s'.version = m.version := by
  rcases h with ⟨x, smp, d, x', last, h1, h2, h3, h4, rfl⟩ | ⟨x, smp, d, x', last, h1, h2, h3, hval, h4, rfl⟩
  · have : last = false := by
      cases last
      · rfl
      · obtain ⟨_, h⟩ := (Instance.handle3_last h4).mp rfl; cases h
    subst this
    exact ⟨rfl, h2.symm⟩
  · have : last = false := by
      cases last
      · rfl
      · obtain ⟨_, h⟩ := (Instance.handle4_last h4).mp rfl; cases h
    subst this
    exact ⟨rfl, h2.symm⟩

/-- C72: a data message with one SMP TLV: the TLV is handed to the SMP of the session, whose reply, if any, is sent, encrypted,
to the peer, and whose success or failure is reported (if the call does not crash).  The text is not reported. -/
theorem C72_smp (E : Env) (A : Account) (h : List Ev) (s : Session) (hh : Hist E A h s) (c : Call) (payload : Bytes) (m : EncodedMessage)
    (hd : Delivers E A s payload m) (hv : m.version = .v3 ∧ AllowsV3 A ∨ m.version = .v4 ∧ AllowsV4 A)
    (hs : m.sender ≠ 0) (hr : m.receiver = A.tag) (ht : A.tag ≠ 0) (content : Bytes) (pre post : List TLV) (t : TLV) (s1 : PState)
    (hdec : DecryptsTo E c m (stateOf s m.sender) (.confidential content (pre ++ t :: post)) s1)
    (htt : SmpType m.version t) (hno : ∀ u ∈ pre ++ post, ¬ SmpType m.version u) :
    let e := (Op.receive payload).run E A c s
    e.result = .panic ∨
      ∃ s2 reply st um, SmpAnswers E c s1 t reply s2 ∧
        (reply = none ∧ e.sent = [] ∧ stateOf e.after m.sender = s2 ∨
          ∃ r, reply = some r ∧ SendsTlv E A c m.sender r s2 (stateOf e.after m.sender) e.sent) ∧
        smpStatusOf s2 = some st ∧ SmpReported m.sender st um ∧ e.result = .ok (.user um) := by
  obtain ⟨i, fl, s', x, hi, hrc, rfl, hk, hrun⟩ := data_runTo (hist_inv hh) hd hv hs hr ht hdec
  obtain ⟨h1, h2⟩ := hdec.confidential
  rw [← hi] at h1 h2
  have h3 := (allowed_iff hv).2.2
  have hany : (pre ++ t :: post).any (isSmpTlv m.version) = true := by
    simp [(isSmpTlv_iff h3 t).mpr htt]
  have hx : Instance.handleDecrypted E A c m.version m.sender fl (.ok (.confidential content (pre ++ t :: post))) ⟨i, []⟩ =
      Instance.handleSmp E A c m.version m.sender (pre ++ t :: post) ⟨i, []⟩ := by
    simp only [Instance.handleDecrypted, StM.bind_run, StM.gets]
    rw [if_pos hany]
  rw [hx] at hrun
  simp only [Op.run]
  rw [perform_result, perform_sent, perform_after, hrun]
  rcases handleSmp_run (E := E) (A := A) (c := c) hrc h1 h2 h3 htt hno with hp | ⟨s2, s3, reply, st, um, out, hp, hans, hrep, hst, hum⟩
  · left
    simp only [hp]
    rfl
  · right
    rw [hp]
    have : stateOf ({ s' with instances := insertKey s'.instances m.sender { i with state := s3 } } : Session) m.sender = s3 := by
      simp only [stateOf, lookup_insertKey, if_true]
    refine ⟨s2, reply, st, um, hi ▸ hans, ?_, hst, hum, rfl⟩
    simp only [this]
    exact hrep

/-- Bob gets the first message of the SMP of Alice, with a question (type 7). -/
example : ∃ h m content t s1, Hist ToySession.smpEnv ToySession.acB h ToySession.g5.after ∧
    Delivers ToySession.smpEnv ToySession.acB ToySession.g5.after (ToySession.msg ToySession.h6) m ∧
    (m.version = .v3 ∧ AllowsV3 ToySession.acB ∨ m.version = .v4 ∧ AllowsV4 ToySession.acB) ∧ m.sender ≠ 0 ∧
    m.receiver = ToySession.acB.tag ∧ ToySession.acB.tag ≠ 0 ∧ SmpType m.version t ∧
    DecryptsTo ToySession.smpEnv (ToySession.callB 1000 4) m (stateOf ToySession.g5.after m.sender) (.confidential content ([] ++ t :: [])) s1 := by
  obtain ⟨h, hh⟩ := ToySession.hist_g5
  have ho := ToySession.runSmp3.2.2.2.2.2.2.1
  rw [Option.map_eq_some_iff] at ho
  obtain ⟨⟨a, l, s1⟩, ho, hl⟩ := ho
  obtain ⟨t, l', rfl, ht, hl⟩ := List.map_eq_cons_iff.mp hl
  rw [List.map_eq_nil_iff] at hl
  subst hl
  obtain ⟨d, hp, hdec⟩ := ToySession.opened_some ho
  exact ⟨h, _, a, t, s1, hh, .inl ⟨ToySession.runSmp3.2.2.2.2.1, hp⟩, .inl ⟨rfl, by simp only [AllowsV3, PolicyBit]; decide⟩, (by show (0x100 : UInt32) ≠ 0; decide), rfl,
    by decide, .inr ⟨rfl, ht⟩, hdec⟩
/-- The answer is sent, and in the end both clients report success; or the abort of the other is reported. -/
example : ToySession.g7.result = .ok (.user .none) ∧ ToySession.h8.result = .ok (.user .none) ∧
    ToySession.g9.result = .ok (.user (.smpSucceeded 0x100)) ∧ ToySession.h10.result = .ok (.user (.smpSucceeded 0x102)) ∧
    ToySession.g11.result = .ok .done ∧ ToySession.h12.result = .ok (.user (.smpFailed 0x102)) :=
  ToySession.runSmp3.1.2.2.2.2.2.2

/-- C72: a data message with several SMP TLVs is an error; nothing is sent. -/
theorem C72_many (E : Env) (A : Account) (h : List Ev) (s : Session) (hh : Hist E A h s) (c : Call) (payload : Bytes) (m : EncodedMessage)
    (hd : Delivers E A s payload m) (hv : m.version = .v3 ∧ AllowsV3 A ∨ m.version = .v4 ∧ AllowsV4 A)
    (hs : m.sender ≠ 0) (hr : m.receiver = A.tag) (ht : A.tag ≠ 0) (content : Bytes) (t1 t2 t3 : List TLV) (t t' : TLV) (s1 : PState)
    (hdec : DecryptsTo E c m (stateOf s m.sender) (.confidential content (t1 ++ t :: (t2 ++ t' :: t3))) s1)
    (htt : SmpType m.version t) (htt' : SmpType m.version t') :
    let e := (Op.receive payload).run E A c s
    e.result = .err .protocolViolation ∧ e.sent = [] ∧ stateOf e.after m.sender = s1 := by
  obtain ⟨i, fl, s', x, hi, hrc, rfl, hk, hrun⟩ := data_runTo (hist_inv hh) hd hv hs hr ht hdec
  have h3 := (allowed_iff hv).2.2
  have hb := (isSmpTlv_iff h3 t).mpr htt
  have hb' := (isSmpTlv_iff h3 t').mpr htt'
  have hany : (t1 ++ t :: (t2 ++ t' :: t3)).any (isSmpTlv m.version) = true := by simp [hb]
  have hlen : 1 < ((t1 ++ t :: (t2 ++ t' :: t3)).filter (isSmpTlv m.version)).length := by
    simp only [List.filter_append, List.filter_cons, hb, hb', if_true, List.length_append, List.length_cons]
    omega
  have hx : Instance.handleDecrypted E A c m.version m.sender fl (.ok (.confidential content (t1 ++ t :: (t2 ++ t' :: t3)))) ⟨i, []⟩ =
      (.err .protocolViolation, ⟨i, []⟩) := by
    simp only [Instance.handleDecrypted, StM.bind_run, StM.gets]
    rw [if_pos hany]
    unfold Instance.handleSmp
    rw [if_pos hlen]
    rfl
  rw [hx] at hrun
  simp only [Op.run]
  rw [perform_result, perform_sent, perform_after, hrun]
  refine ⟨rfl, rfl, ?_⟩
  simp only [stateOf, lookup_insertKey, if_true, hi]

/-- A message with two abort TLVs. -/
example : ∃ h m content t t' s1, Hist ToySession.smpEnv ToySession.acB h ToySession.g5.after ∧
    Delivers ToySession.smpEnv ToySession.acB ToySession.g5.after ToySession.twice m ∧
    (m.version = .v3 ∧ AllowsV3 ToySession.acB ∨ m.version = .v4 ∧ AllowsV4 ToySession.acB) ∧ m.sender ≠ 0 ∧
    m.receiver = ToySession.acB.tag ∧ ToySession.acB.tag ≠ 0 ∧ SmpType m.version t ∧ SmpType m.version t' ∧
    DecryptsTo ToySession.smpEnv (ToySession.callB 1000 4) m (stateOf ToySession.g5.after m.sender)
      (.confidential content ([] ++ t :: ([] ++ t' :: []))) s1 := by
  obtain ⟨h, hh⟩ := ToySession.hist_g5
  have ho := ToySession.runSmp3.2.2.2.2.2.2.2.1
  rw [Option.map_eq_some_iff] at ho
  obtain ⟨⟨a, l, s1⟩, ho, hl⟩ := ho
  obtain ⟨t, l', rfl, ht, hl⟩ := List.map_eq_cons_iff.mp hl
  obtain ⟨t', l'', rfl, ht', hl⟩ := List.map_eq_cons_iff.mp hl
  rw [List.map_eq_nil_iff] at hl
  subst hl
  obtain ⟨d, hp, hdec⟩ := ToySession.opened_some ho
  exact ⟨h, _, a, t, t', s1, hh, .inl ⟨ToySession.runSmp3.2.2.2.2.2.1, hp⟩, .inl ⟨rfl, by simp only [AllowsV3, PolicyBit]; decide⟩, (by show (0x100 : UInt32) ≠ 0; decide), rfl,
    by decide, .inl (by rw [ht]; decide), .inl (by rw [ht']; decide), hdec⟩

theorem existing_run {α : Type} {s : Session} {k : UInt32} {i : Instance} (hl : lookup s.instances k = some i) (f : InstM α) :
    existing k f ⟨s, []⟩ = ((f ⟨i, []⟩).1, ⟨{ s with instances := insertKey s.instances k (f ⟨i, []⟩).2.st }, (f ⟨i, []⟩).2.sent⟩) := by
  simp only [existing, entry, hl, Option.getD_some]

theorem start_state {E : Env} {A : Account} {c : Call} {secret question : Bytes} {k : UInt32} {i : Instance}
    (hk : i.receiver = k) (he : i.state.status = .encrypted) :
    (Instance.startSmp E A c secret question ⟨i, []⟩).1 = .panic ∧ ¬ SmpBusy i.state ∨
      Instance.startSmp E A c secret question ⟨i, []⟩ = (.err .smpInProgress, ⟨i, []⟩) ∧ SmpBusy i.state ∨
      ¬ SmpBusy i.state ∧ ∃ t s1 s2 out, Instance.startSmp E A c secret question ⟨i, []⟩ = (.ok (), ⟨{ i with state := s2 }, out⟩) ∧
        SmpStarts E c secret question i.state t s1 ∧ SendsTlv E A c k t s1 s2 out := by
  have fin : ∀ (t : TLV) (s1 : PState), s1.status = .encrypted → ¬ SmpBusy i.state → SmpStarts E c secret question i.state t s1 →
      Instance.startSmp E A c secret question ⟨i, []⟩ = Instance.sendTlv E A c (c.rnd.sub 1) k t ⟨{ i with state := s1 }, []⟩ →
      (Instance.startSmp E A c secret question ⟨i, []⟩).1 = .panic ∧ ¬ SmpBusy i.state ∨
      Instance.startSmp E A c secret question ⟨i, []⟩ = (.err .smpInProgress, ⟨i, []⟩) ∧ SmpBusy i.state ∨
      ¬ SmpBusy i.state ∧ ∃ t s1 s2 out, Instance.startSmp E A c secret question ⟨i, []⟩ = (.ok (), ⟨{ i with state := s2 }, out⟩) ∧
        SmpStarts E c secret question i.state t s1 ∧ SendsTlv E A c k t s1 s2 out := by
    intro t s1 h1 hb hst hrun
    rcases sendTlv_run (E := E) (A := A) (c := c) (rnd := c.rnd.sub 1) (t := t) (i := { i with state := s1 }) (sent := []) hk h1 with
      h | ⟨s2, out, h, hsend, _, _⟩
    · exact .inl ⟨by rw [hrun]; exact h, hb⟩
    · exact .inr (.inr ⟨hb, t, s1, s2, out, by rw [hrun, h]; rfl, hst, hsend⟩)
  subst hk
  cases hs : i.state with
  | plaintext => rw [hs] at he; cases he
  | finished => rw [hs] at he; cases he
  | encrypted3 x smp =>
    rw [hs] at fin
    cases hh : SMP.start E c.smp secret question (c.rnd.sub 0) smp with
    | mk r smp' =>
      have hrun : Instance.startSmp E A c secret question ⟨i, []⟩ = match r with
          | .ok t => Instance.sendTlv E A c (c.rnd.sub 1) i.receiver t ⟨{ i with state := .encrypted3 x smp' }, []⟩
          | .err e => (.err e, ⟨{ i with state := .encrypted3 x smp' }, []⟩)
          | .panic => (.panic, ⟨{ i with state := .encrypted3 x smp' }, []⟩) := by
        simp only [Instance.startSmp, StM.bind_run, StM.gets, hs, PState.version, Instance.onState, PState.onSmp, hh]
        cases r <;> rfl
      have hcase := hh
      unfold SMP.start at hcase
      by_cases hb : smp.state = .expect1
      · have hnb : ¬ SmpBusy (.encrypted3 x smp) := fun h => h hb
        cases r with
        | panic => exact .inl ⟨by rw [hrun], hnb⟩
        | err e =>
          exfalso
          simp only [hb] at hcase
          split at hcase <;> simp at hcase
        | ok t => exact fin t (.encrypted3 x smp') rfl hnb (.inl ⟨x, smp, smp', rfl, rfl, hh⟩) hrun
      · have : (r, smp') = (.err .smpInProgress, smp) := by
          rw [← hcase]
          split
          · rename_i h; exact absurd h hb
          · rfl
        simp only [Prod.mk.injEq] at this
        obtain ⟨rfl, rfl⟩ := this
        refine .inr (.inl ⟨?_, hb⟩)
        rw [hrun, ← hs]
  | encrypted4 x smp =>
    rw [hs] at fin
    cases hh : SMP4.start E secret question (c.rnd.sub 0) smp with
    | mk r smp' =>
      have hrun : Instance.startSmp E A c secret question ⟨i, []⟩ = match r with
          | .ok t => Instance.sendTlv E A c (c.rnd.sub 1) i.receiver t ⟨{ i with state := .encrypted4 x smp' }, []⟩
          | .err e => (.err e, ⟨{ i with state := .encrypted4 x smp' }, []⟩)
          | .panic => (.panic, ⟨{ i with state := .encrypted4 x smp' }, []⟩) := by
        simp only [Instance.startSmp, StM.bind_run, StM.gets, hs, PState.version, Instance.onState, PState.onSmp4, hh]
        cases r <;> rfl
      have hcase := hh
      unfold SMP4.start at hcase
      by_cases hb : smp.status = .inProgress
      · rw [if_pos hb] at hcase
        simp only [Prod.mk.injEq] at hcase
        obtain ⟨rfl, rfl⟩ := hcase
        refine .inr (.inl ⟨?_, hb⟩)
        rw [hrun, ← hs]
      · have hnb : ¬ SmpBusy (.encrypted4 x smp) := hb
        rw [if_neg hb] at hcase
        cases r with
        | panic => exact .inl ⟨by rw [hrun], hnb⟩
        | err e =>
          exfalso
          dsimp only at hcase
          split at hcase
          · simp at hcase
          · rename_i e' he'
            exact Res.NoErr.bind (Res.NoErr.expect _) (fun _ => Res.NoErr.expect _) e' he'
          · simp at hcase
        | ok t => exact fin t (.encrypted4 x smp') rfl hnb (.inr ⟨x, smp, smp', rfl, rfl, hh⟩) hrun

/-- C73: starting the SMP in an encrypted session: an error if one is in progress, and nothing changes; else the first message is sent,
encrypted, to the peer (if the call does not crash). -/
theorem C73_start (E : Env) (A : Account) (h : List Ev) (s : Session) (hh : Hist E A h s) (c : Call) (k : UInt32) (secret question : Bytes)
    (he : s.status k = some .encrypted) :
    let e := (Op.startSmp k secret question).run E A c s
    (SmpBusy (stateOf s k) → e = ⟨.err .smpInProgress, s, []⟩) ∧
    (¬ SmpBusy (stateOf s k) → e.result = .panic ∨ e.result = .ok .done ∧
      ∃ t s1, SmpStarts E c secret question (stateOf s k) t s1 ∧ SendsTlv E A c k t s1 (stateOf e.after k) e.sent) := by
  have hi := hist_inv hh
  obtain ⟨i, hl, hst⟩ := status_lookup he
  rw [Instance.status] at hst
  have hrc : i.receiver = k := by rw [← inst_of_lookup hl, hi.receiver]
  have hso : stateOf s k = i.state := by unfold stateOf; rw [hl]
  have hrun := existing_run hl (Instance.startSmp E A c secret question)
  simp only [Op.run, perform, Session.startSmp, hrun, hso]
  rcases start_state (E := E) (A := A) (c := c) (secret := secret) (question := question) hrc hst with ⟨h1, h2⟩ | ⟨h1, h2⟩ | ⟨h2, t, s1, s2, out, h1, h3, h4⟩
  · exact ⟨fun h => absurd h h2, fun _ => .inl (by rw [h1])⟩
  · refine ⟨fun _ => ?_, fun h => absurd h2 h⟩
    rw [h1]
    simp only [insertKey_same hl]
  · refine ⟨fun h => absurd h h2, fun _ => .inr ?_⟩
    rw [h1]
    have : stateOf ({ s with instances := insertKey s.instances k { i with state := s2 } } : Session) k = s2 := by
      simp only [stateOf, lookup_insertKey, if_true]
    simp only [this]
    exact ⟨by first | rfl | trivial, t, s1, h3, h4⟩

/-- C73: aborting the SMP in an encrypted session resets it and sends one abort TLV, encrypted, to the peer (if the call does not crash). -/
theorem C73_abort (E : Env) (A : Account) (h : List Ev) (s : Session) (hh : Hist E A h s) (c : Call) (k : UInt32)
    (he : s.status k = some .encrypted) :
    let e := (Op.abortSmp k).run E A c s
    e.result = .panic ∨ e.result = .ok .done ∧
      ∃ s1, SmpAborts (stateOf s k) s1 ∧ SendsTlv E A c k ⟨6, []⟩ s1 (stateOf e.after k) e.sent := by
  have hi := hist_inv hh
  obtain ⟨i, hl, hst⟩ := status_lookup he
  rw [Instance.status] at hst
  have hrc : i.receiver = k := by rw [← inst_of_lookup hl, hi.receiver]
  have hso : stateOf s k = i.state := by unfold stateOf; rw [hl]
  have hrun := existing_run hl (Instance.abortSmp E A c)
  simp only [Op.run, perform, Session.abortSmp, hrun, hso]
  have key : ∃ s1, SmpAborts i.state s1 ∧ s1.status = .encrypted ∧
      Instance.abortSmp E A c ⟨i, []⟩ = Instance.sendTlv E A c (c.rnd.sub 1) k ⟨6, []⟩ ⟨{ i with state := s1 }, []⟩ := by
    subst hrc
    cases hs : i.state with
    | plaintext => rw [hs] at hst; cases hst
    | finished => rw [hs] at hst; cases hst
    | encrypted3 x smp =>
      refine ⟨_, .inl ⟨x, smp, rfl, rfl⟩, rfl, ?_⟩
      simp only [Instance.abortSmp, StM.bind_run, StM.gets, hs, PState.version, Instance.onState, PState.onSmp, SMP.abort]
      rfl
    | encrypted4 x smp =>
      refine ⟨_, .inr ⟨x, smp, rfl, rfl⟩, rfl, ?_⟩
      simp only [Instance.abortSmp, StM.bind_run, StM.gets, hs, PState.version, Instance.onState, PState.onSmp4, SMP4.abort]
      rfl
  obtain ⟨s1, h1, h2, h3⟩ := key
  rcases sendTlv_run (E := E) (A := A) (c := c) (rnd := c.rnd.sub 1) (t := ⟨6, []⟩) (i := { i with state := s1 }) (sent := []) hrc h2 with
    h | ⟨s2, out, h, hsend, _, _⟩
  · left
    rw [h3, h]
  · right
    rw [h3, h]
    have : stateOf ({ s with instances := insertKey s.instances k { i with state := s2 } } : Session) k = s2 := by
      simp only [stateOf, lookup_insertKey, if_true]
    simp only [this]
    exact ⟨by first | rfl | trivial, s1, h1, hsend⟩

/-- C73: without an encrypted session the SMP cannot be started or aborted: an error, and nothing changes. -/
theorem C73_refused (E : Env) (A : Account) (c : Call) (s : Session) (k : UInt32) (secret question : Bytes) (he : s.status k ≠ some .encrypted) :
    (Op.startSmp k secret question).run E A c s = ⟨.err (if s.status k = none then .unknownInstance k else .incorrectState), s, []⟩ ∧
    (Op.abortSmp k).run E A c s = ⟨.err (if s.status k = none then .unknownInstance k else .incorrectState), s, []⟩ := by
  cases hl : lookup s.instances k with
  | none =>
    have : s.status k = none := by rw [Session.status, hl]; rfl
    rw [if_pos this]
    simp only [Op.run, perform, Session.startSmp, Session.abortSmp, existing, hl]
    trivial
  | some i =>
    have hst : s.status k = some i.state.status := by rw [Session.status, hl]; rfl
    rw [if_neg (by rw [hst]; nofun)]
    have hv : i.state.version = .none := by
      rw [hst] at he
      cases hs : i.state <;> rw [hs] at he <;> first | rfl | exact absurd rfl he
    have h1 : Instance.startSmp E A c secret question ⟨i, []⟩ = (.err .incorrectState, ⟨i, []⟩) := by
      simp only [Instance.startSmp, StM.bind_run, StM.gets, hv, StM.lift]
    have h2 : Instance.abortSmp E A c ⟨i, []⟩ = (.err .incorrectState, ⟨i, []⟩) := by
      simp only [Instance.abortSmp, StM.bind_run, StM.gets, hv, StM.lift]
    simp only [Op.run, perform, Session.startSmp, Session.abortSmp, existing_run hl, h1, h2, insertKey_same hl]
    trivial

/-- Alice in an encrypted session starts the SMP; it is in progress afterwards, and Bob, asked, aborts it. -/
example : ∃ h, Hist ToySession.smpEnv ToySession.acA h ToySession.h4.after ∧ ToySession.h4.after.status 0x102 = some .encrypted ∧
    ToySession.h6 = (Op.startSmp 0x102 [1] [113]).run ToySession.smpEnv ToySession.acA (ToySession.callA 1000 1) ToySession.h4.after ∧
    ToySession.h6.result = .ok .done := by
  obtain ⟨h, hh⟩ := ToySession.hist_h4
  exact ⟨h, hh, ToySession.runSmp3.2.1, by unfold ToySession.h6; rfl, ToySession.runSmp3.1.2.2.2.2.2.1⟩
example : ∃ h, Hist ToySession.smpEnv ToySession.acB h ToySession.g7.after ∧ ToySession.g7.after.status 0x100 = some .encrypted ∧
    ToySession.g11 = (Op.abortSmp 0x100).run ToySession.smpEnv ToySession.acB (ToySession.callB 1000 2) ToySession.g7.after ∧
    ToySession.g11.result = .ok .done := by
  obtain ⟨h, hh⟩ := ToySession.hist_g7
  exact ⟨h, hh, ToySession.runSmp3.2.2.2.1, by unfold ToySession.g11; rfl, ToySession.runSmp3.1.2.2.2.2.2.2.2.2.2.2.1⟩
/-- Before the key exchange is finished. -/
example : ToySession.a2.after.status 0x102 ≠ some .encrypted := by rw [ToySession.status_a2]; decide

end Otrr.Props
