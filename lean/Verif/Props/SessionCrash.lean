import Verif.Lemmas.SessionCrash
/-!
# Crashes of `receive`

C88.
-/

namespace Otrr
namespace Props
open Spec Session

/-- C88: in every session that calls can lead to, `receive` crashes only for the causes that `Crash` lists. -/
theorem C88_partial (E : Env) (hnd : ∀ n, E.nd n = true → n.isValidChar) (hG : SmpGroup E.dh) (hC : SmpCurve E.curve) (hG3 : GoodGroup E.dh3) (A : Account) (hA : 0x100 ≤ A.tag)
    {h : List Ev} {s : Session} (hh : Hist E A h s) (c : Call) (hk : c.identity.pub = Point.mul E.curve E.curve.G c.identity.sk) (payload : Bytes)
    (hp : ((Op.receive payload).run E A c s).result = .panic) : Crash E A c s payload := by
  obtain ⟨r, st, new, hr, hr', hc⟩ := lim_receive hnd hA hG hC hG3 hh c hk payload
  by_cases hn : ∀ t ∈ new, Sendable c.messageSize t
  · refine hc ?_
    obtain ⟨sent', hr'⟩ := hr' _ [] hn
    have hr' : receive E A c payload ⟨s, []⟩ = (r, ⟨st, sent'⟩) := hr'
    simp only [Op.run, perform_result, hr'] at hp
    revert hp
    cases r with
    | panic => intro _; rfl
    | ok a => nofun
    | err e => nofun
  · simp only [not_forall] at hn
    obtain ⟨t, ht, hl⟩ := hn
    obtain ⟨n, hn⟩ := fits new
    refine .size (n := n) (t := t) ?_ hl
    simp only [Op.run, perform_sent]
    have := hr n [] hn
    simp only at this
    rw [this]
    exact ht

/-- C88: the fragments of the list of causes do crash the client, in every session, unless OTR is switched off. -/
theorem C88_fragment (E : Env) (hnd : ∀ n, E.nd n = true → n.isValidChar) (A : Account) (hA : SomeVersion A) (c : Call) (s : Session)
    (payload : Bytes) (hf : matchFragment payload = true) (hb : BadFragment E.nd payload) :
    ((Op.receive payload).run E A c s).result = .panic := by
  have hp := (C09_exact hnd payload).mpr hb
  simp only [Op.run, perform_result, receive, not_disabled hA, Bool.false_eq_true, if_false, hf, if_true, receiveFragment, hp]
  rfl

/-- C88: a fragment for which the assembler has counted to its end does crash the client. -/
theorem C88_assembler (E : Env) (A : Account) (hA : SomeVersion A) (c : Call) (s : Session) (payload : Bytes) (f : Fragment) (i : Instance)
    (hf : matchFragment payload = true) (hp : parseFragment E.nd payload = .ok (some f)) (hv : verifyFragment f = true)
    (hr : f.receiver = 0 ∨ f.receiver = A.tag) (hl : lookup s.instances f.sender = some i) (hfull : Full i.assembler f) :
    ((Op.receive payload).run E A c s).result = .panic := by
  have ha : (i.assembler.assemble f).1 = .panic := by
    unfold Assembler.assemble
    rcases parseFragment_version hp with h | h
    · rw [Full, if_pos h] at hfull
      simp only [h, InOrder.assemble, hv, Bool.not_true, Bool.false_eq_true, if_false, if_neg hfull.2.1, if_pos hfull.2.2, if_pos hfull.1]
    · rw [Full, if_neg (by rw [h]; nofun)] at hfull
      simp only [h, Unordered.assemble, hv, Bool.not_true, Bool.false_eq_true, if_false, if_pos hfull]
      split <;> rfl
  have hr' : (f.receiver == INSTANCE_ZERO || f.receiver == A.tag) = true := by simpa [INSTANCE_ZERO] using hr
  simp only [Op.run, perform_result, receive, not_disabled hA, Bool.false_eq_true, if_false, hf, if_true, receiveFragment, StM.bind_run, StM.lift, hp,
    hv, hr', Res.guard, entry, hl, Option.getD_some, assemble]
  revert ha
  cases i.assembler.assemble f with
  | mk r a => rintro rfl; rfl

/-- Non-vacuity: Bob has got part 65535 of 65535, and then gets the second part of another message of as many parts. -/
example : SomeVersion ToySession.acB ∧ ∃ f, matchFragment (ascii "?OTR|100|102,2,65535,a,") = true ∧
    parseFragment ToySession.tinyEnv.nd (ascii "?OTR|100|102,2,65535,a,") = .ok (some f) ∧ verifyFragment f = true ∧ f.receiver = ToySession.acB.tag ∧
    Full ⟨⟨65535, 65535, []⟩, .new⟩ f := by
  refine ⟨.inr (by simp only [AllowsV4, PolicyBit, ToySession.acB]; decide), ⟨.v3, [0, 0, 0, 0], 0x100, 0x102, 2, 65535, [0x61]⟩,
    by decide +kernel, by decide +kernel, by decide +kernel, by decide +kernel, ?_⟩
  rw [Full, if_pos rfl]
  decide

/-- C88: the queries and tags without versions do crash the client, in every session, unless OTR is switched off. -/
theorem C88_text (E : Env) (hnd : ∀ n, E.nd n = true → n.isValidChar) (A : Account) (hA : SomeVersion A) (c : Call) (s : Session)
    (payload : Bytes) (hf : matchFragment payload = false) (hplain : ¬ (OTR_ENCODED_PREFIX <+: payload ∧ [0x2e] <:+ payload))
    (hb : BadText E.nd payload) : ((Op.receive payload).run E A c s).result = .panic := by
  have hp : parse E payload = .panic := by
    rw [C10_exact E hnd payload hplain]
    cases hb with
    | query h1 h2 h3 => exact ⟨h1, .inl ⟨_, h2, h3⟩⟩
    | tag h1 h2 h3 h4 => exact ⟨h1, .inr ⟨h2, _, h3, h4⟩⟩
    | zeros h => exact absurd ⟨⟨_, by rw [h, List.append_assoc]⟩, _, h.symm⟩ hplain
  simp only [Op.run, perform_result, receive, not_disabled hA, Bool.false_eq_true, if_false, hf, receiveWhole, hp]
  rfl

/-- C88: the OTRv3 data messages of the list of causes do crash the client. -/
theorem C88_data3 (E : Env) (A : Account) {h : List Ev} {s : Session} (hh : Hist E A h s) (c : Call) (payload : Bytes) (m : EncodedMessage)
    (hd : Delivers E A s payload m) (hv : m.version = .v3) (allow : AllowsV3 A) (hs : m.sender ≠ 0) (hr : m.receiver = A.tag) (ht : A.tag ≠ 0)
    (d : DataMessage) (hm : m.message = .data d) (x : Enc3) (smp : SMPContext) (hst : stateOf s m.sender = .encrypted3 x smp)
    (hf : Fatal3 E d (authenticatorData 3 m.sender m.receiver d) x) : ((Op.receive payload).run E A c s).result = .panic := by
  obtain ⟨i, s1, _, hi, hrun⟩ := process_run (c := c) hd (.inl ⟨hv, allow⟩) hs hr ht (by rw [hm]; nofun) (by rw [hm]; nofun)
  obtain ⟨x0, l, l', hfr, hl, _⟩ := (hist_alive hh m.sender).1 x smp hst
  obtain ⟨text, hp⟩ := delivers_parse hd
  have hx := (C43_receive_partial E x0 x l hfr hl d (parse_decoded hp hm) _ (c.rnd.bytes [0] 192)).mpr hf
  rw [stateOf_inst, ← hi.same.1] at hst
  simp only [Op.run, perform_result, hrun]
  have : (Instance.process E A c m ⟨i, []⟩).1 = .panic := by
    obtain ⟨v, snd, rcv, msg⟩ := m
    cases hv
    cases hm
    simp only [Instance.process, StM.bind_run, StM.gets, Instance.attempt, Instance.onState, hst, PState.handle3]
    revert hx
    cases Enc3.handle E d (authenticatorData 3 snd rcv d) (c.rnd.bytes [0] 192) x with
    | mk r y => rintro rfl; rfl
  rw [this]
  rfl

/-- The message of Alice, except that she announces 0 as her next key. -/
@[irreducible] def _root_.Otrr.Spec.ToySession.evil : Option (EncodedMessage × DataMessage × Bytes) :=
  match parse ToySession.tinyEnv (ToySession.text ToySession.a6), stateOf ToySession.b5.after 0x100 with
  | .ok (.encoded ⟨.v3, snd, rcv, .data d⟩), .encrypted3 x _ =>
    match dataSecrets ToySession.tinyEnv (x.keys.ours.keys.get d.receiverKeyid) (x.keys.theirs.keys.get d.senderKeyid) with
    | .ok sec =>
      let d := { d with dhY := 0 }
      let d := { d with authenticator := ToySession.tinyEnv.hmacSha1 (sec.receiverMac ToySession.tinyEnv) (authenticatorData 3 snd rcv d) }
      match serialize (.encoded ⟨.v3, snd, rcv, .data d⟩) with
      | .ok text => some (⟨.v3, snd, rcv, .data d⟩, d, text)
      | _ => .none
    | _ => .none
  | _, _ => .none

theorem _root_.Otrr.Spec.ToySession.evil_runs : (match ToySession.evil, stateOf ToySession.b5.after 0x100 with
    | some (m, d, text), .encrypted3 x _ => decide (matchFragment text = false ∧ parse ToySession.tinyEnv text = .ok (.encoded m) ∧ m.version = .v3 ∧
      m.sender = 0x100 ∧ m.receiver = ToySession.acB.tag ∧ m.message = .data d ∧
      (Enc3.handle ToySession.tinyEnv d (authenticatorData 3 m.sender m.receiver d) [] x).1 = .panic)
    | _, _ => false) = true := by decide +kernel

/-- Non-vacuity: Bob has an OTRv3 session with Alice, and gets a message in which Alice announces 0 as her next key. -/
example : ∃ h m d text x smp, Hist ToySession.tinyEnv ToySession.acB h ToySession.b5.after ∧
    Delivers ToySession.tinyEnv ToySession.acB ToySession.b5.after text m ∧ m.version = .v3 ∧ AllowsV3 ToySession.acB ∧ m.sender ≠ 0 ∧
    m.receiver = ToySession.acB.tag ∧ m.message = .data d ∧ stateOf ToySession.b5.after m.sender = .encrypted3 x smp ∧
    Fatal3 ToySession.tinyEnv d (authenticatorData 3 m.sender m.receiver d) x := by
  obtain ⟨h, hh⟩ := ToySession.hist_b5
  have hr := ToySession.evil_runs
  split at hr
  · rename_i m d text x smp he hs
    obtain ⟨h1, h2, h3, h4, h5, h6, h7⟩ := of_decide_eq_true hr
    obtain ⟨x0, l, l', hfr, hl, _⟩ := (hist_alive hh 0x100).1 x smp hs
    refine ⟨h, m, d, text, x, smp, hh, .inl ⟨h1, h2⟩, h3, by simp only [AllowsV3, PolicyBit, ToySession.acB]; decide, by rw [h4]; decide, h5, h6, by rw [h4, hs], ?_⟩
    exact (C43_receive_partial _ x0 x l hfr hl d (parse_decoded h2 h6) _ []).mp h7
  · cases hr

/-- C88: the OTRv4 data messages of the list of causes do crash the client (those with an authenticator of zeros: C48_crash). -/
theorem C88_data4 (E : Env) (hC : SmpCurve E.curve) (hG3 : GoodGroup E.dh3) (A : Account) {h : List Ev} {s : Session} (hh : Hist E A h s) (c : Call)
    (payload : Bytes) (m : EncodedMessage) (hd : Delivers E A s payload m) (hv : m.version = .v4) (allow : AllowsV4 A) (hs : m.sender ≠ 0)
    (hr : m.receiver = A.tag) (ht : A.tag ≠ 0) (d : DataMessage4) (hm : m.message = .data4 d)
    (hval : Valid4 E d) (hz : NonZero d.authenticator) (x : Enc4) (smp : SMP4Context) (hst : stateOf s m.sender = .encrypted4 x smp)
    (hf : Fatal4 E d (authenticatorData4 4 m.sender m.receiver d) c.now x.ratchet) : ((Op.receive payload).run E A c s).result = .panic := by
  obtain ⟨i, s1, _, hi, hrun⟩ := process_run (c := c) hd (.inr ⟨hv, allow⟩) hs hr ht (by rw [hm]; nofun) (by rw [hm]; nofun)
  simp only [Op.run, perform_result, hrun]
  obtain ⟨text, hp⟩ := delivers_parse hd
  have hon : OnCurve E.curve d.ecdh := by
    have := parse_points hC.good.field hp
    rw [hm] at this
    exact this
  have : (Instance.process E A c m ⟨i, []⟩).1 = .panic := by
    have hval := (C48_validate E d).mpr ⟨hval, hz⟩
    obtain ⟨x0, l, l', hfr, hl, _⟩ := (hist_alive hh m.sender).2 x smp hst
    have hpt := hist_pts hC.good.field hh m.sender
    rw [stateOf_inst] at hst
    have hpt := hpt.state
    rw [hst] at hpt
    have hx := decrypt4_fatal hC.good hG3 (Instance.statePts4.mp hpt).1 (life4_inv (fresh4_zero hfr).1 hl).zero hval hon hf
    rw [← hi.same.1] at hst
    obtain ⟨v, snd, rcv, msg⟩ := m
    cases hv
    cases hm
    have hx : (Enc4.handle E d (authenticatorData4 4 snd rcv d) c.now x).1 = .panic := by
      unfold Enc4.handle Enc4.onRatchet
      rw [hx]
    simp only [Instance.process, StM.bind_run, StM.gets, StM.lift, hval, Instance.attempt, Instance.onState, hst, PState.handle4]
    revert hx
    cases Enc4.handle E d (authenticatorData4 4 snd rcv d) c.now x with
    | mk r y => rintro rfl; rfl
  rw [this]
  rfl

/-- Non-vacuity: part 70000. -/
example : SomeVersion ToySession.acA ∧ matchFragment (ascii "?OTR|100|100,70000,2,a,") = true ∧
    BadFragment ToySession.tinyEnv.nd (ascii "?OTR|100|100,70000,2,a,") := by
  have hn : ToySession.tinyEnv.nd = fun _ => false := by simp only [ToySession.tinyEnv, toyEnv]
  refine ⟨.inr (by simp only [AllowsV4, PolicyBit, ToySession.acA]; decide), by decide +kernel, ?_⟩
  rw [hn]
  exact (C09_exact (nd := fun _ => false) nofun _).mp (by decide +kernel)

/-- Non-vacuity: a question about OTR. -/
example : matchFragment (ascii "What is ?OTR??") = false ∧ ¬ (OTR_ENCODED_PREFIX <+: ascii "What is ?OTR??" ∧ [0x2e] <:+ ascii "What is ?OTR??") ∧
    BadText ToySession.tinyEnv.nd (ascii "What is ?OTR??") := by
  have hn : ToySession.tinyEnv.nd = fun _ => false := by simp only [ToySession.tinyEnv, toyEnv]
  have hp : ¬ (OTR_ENCODED_PREFIX <+: ascii "What is ?OTR??" ∧ [0x2e] <:+ ascii "What is ?OTR??") := by
    rw [← List.isPrefixOf_iff_prefix, ← List.isSuffixOf_iff_suffix]; decide +kernel
  refine ⟨by decide +kernel, hp, ?_⟩
  rw [hn]
  obtain ⟨h1, ⟨m, h2, h3⟩ | ⟨h2, m, h3, h4⟩⟩ := (C10_exact { ToySession.tinyEnv with nd := fun _ => false } nofun _ hp).mp (by decide +kernel)
  · exact .query h1 h2 h3
  · exact .tag h1 h2 h3 h4

/-- Non-vacuity: a text of 1000 bytes can be sent in fragments of 100 bytes. -/
example : Sendable 100 (List.replicate 1000 0x41) := .inr ⟨by decide, by rw [List.length_replicate]; decide⟩

/-- Non-vacuity: Alice has an OTRv4 session with Bob, and gets the last message of an OTRv3 exchange from Bob. -/
example : ∃ h, (∀ n, ToySession.tinyEnv.nd n = true → n.isValidChar) ∧ SmpGroup ToySession.tinyEnv.dh ∧ SmpCurve ToySession.tinyEnv.curve ∧ GoodGroup ToySession.tinyEnv.dh3 ∧ 0x100 ≤ ToySession.acA.tag ∧
    (ToySession.callA 1000 4).identity.pub = Point.mul ToySession.tinyEnv.curve ToySession.tinyEnv.curve.G (ToySession.callA 1000 4).identity.sk ∧
    Hist ToySession.tinyEnv ToySession.acA h ToySession.f2.after ∧
    ((Op.receive (ToySession.msg ToySession.e3)).run ToySession.tinyEnv ToySession.acA (ToySession.callA 1000 4) ToySession.f2.after).result = .panic := by
  obtain ⟨h, hh⟩ := ToySession.hist_c4
  have hr := ToySession.runE
  refine ⟨_, (by simp only [ToySession.tinyEnv, toyEnv]; nofun), ?_, ?_, ?_, by simp only [ToySession.acA]; decide, by simp only [ToySession.callA, EdDSAKeyPair.generate], .step hh (by unfold ToySession.f2; rfl) (by rw [hr.2.1]; nofun), ?_⟩
  · rw [show ToySession.tinyEnv.dh = smallEnv.dh by simp only [ToySession.tinyEnv, smallEnv]]
    exact toy_smpGroup
  · rw [show ToySession.tinyEnv.curve = toyEnv.curve by simp only [ToySession.tinyEnv]]
    exact toy_smpCurve
  · rw [show ToySession.tinyEnv.dh3 = toyEnv.dh3 by simp only [ToySession.tinyEnv]]
    constructor <;> decide
  · have := hr.2.2.2.1
    unfold ToySession.f4 at this
    exact this

end Props
end Otrr
