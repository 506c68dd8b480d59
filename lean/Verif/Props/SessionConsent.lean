import Verif.Props.SessionLife
import Verif.Lemmas.SessionConsent
/-! C77: the SMP succeeds only with the consent of the user. -/

namespace Otrr.Props
open Otrr Otrr.Spec Otrr.Session

theorem _root_.Otrr.Session.Rel.engaged {s s' : Session} (h : Session.Rel (Instance.Eng False) s s') {k : UInt32}
    (he : Engaged (stateOf s' k)) : Engaged (stateOf s k) := by
  rw [stateOf_inst] at *
  exact (h.each k he).elim id False.elim

theorem same_engaged {s s' : Session} {k : UInt32} (h : Instance.SameState (s.inst k) (s'.inst k)) (he : Engaged (stateOf s' k)) :
    Engaged (stateOf s k) := by
  rw [stateOf_inst] at *
  rw [h.1] at he
  exact he

/-- What a call does to an SMP that is engaged after it. -/
theorem engaged_step {E : Env} {A : Account} {h : List Ev} {s : Session} (hh : Hist E A h s) {c : Call} {op : Op} {k : UInt32}
    (hp : (op.run E A c s).result ≠ .panic) (he : Engaged (stateOf (op.run E A c s).after k)) :
    Consents E A s k ⟨op, c, (op.run E A c s).result, (op.run E A c s).sent⟩ ∨
      Engaged (stateOf s k) ∧ (op.run E A c s).result ≠ .ok (.user (.sessionStarted k)) := by
  have hi := hist_inv hh
  by_cases h1 : ∃ p, op = .receive p
  · obtain ⟨p, rfl⟩ := h1
    have hres : ∀ um, ((Op.receive p).run E A c s).result = .ok (.user um) → (receive E A c p ⟨s, []⟩).1 = .ok um := by
      intro um hr
      rw [Op.run, perform_result] at hr
      simp only [Res.pure_def, Res.bind_eq_ok, Res.ok.injEq, Answer.user.injEq] at hr
      obtain ⟨_, hr, rfl⟩ := hr
      exact hr
    have hne : (receive E A c p ⟨s, []⟩).1 ≠ .panic := by
      intro hx
      refine hp ?_
      rw [Op.run, perform_result, hx]
      rfl
    have hafter : ((Op.receive p).run E A c s).after = (receive E A c p ⟨s, []⟩).2.st := by rw [Op.run, perform_after]
    rw [hafter] at he
    rcases asked_receive (A := A) (c := c) (w := ⟨s, []⟩) hi p with ⟨h2, h3⟩ | ⟨m, hd, hv, _, hs, h5, h6, h7⟩
    · refine .inr ⟨same_engaged (h2.each k) he, fun hr => ?_⟩
      rcases h3 _ (hres _ hr) with h | ⟨t, h⟩ | ⟨t, h⟩ | ⟨t, h⟩ <;> cases h
    · have hstart : ∀ k', (receive E A c p ⟨s, []⟩).1 = .ok (.sessionStarted k') → k' = m.sender := by
        intro k' hr
        rw [hr] at h7
        exact h7.1.trans (hi.receiver _)
      by_cases hk : k = m.sender
      · subst hk
        rw [stateOf_inst] at he
        rcases h6 hne he with ⟨h8, h9⟩ | ⟨content, tlvs, t, hdec, ht, q, a, hq, ha⟩
        · exact .inr ⟨by rw [stateOf_inst]; exact h8, fun hr => h9 _ (hres _ hr)⟩
        · exact .inl (.inr ⟨p, m, content, tlvs, t, q, a, rfl, hd, rfl, by rw [stateOf_inst]; exact hdec, ht, hq, ha⟩)
      · exact .inr ⟨same_engaged (h5 k hk) he, fun hr => hk (hstart _ (hres _ hr))⟩
  · have h1' : ∀ p, op ≠ .receive p := fun p hx => h1 ⟨p, hx⟩
    have hns : (op.run E A c s).result ≠ .ok (.user (.sessionStarted k)) := by
      intro hr
      cases op with
      | receive p => exact h1 ⟨p, rfl⟩
      | close k' =>
        rw [Op.run, perform_result] at hr
        simp only [Res.pure_def, Res.bind_eq_ok, Res.ok.injEq, Answer.user.injEq] at hr
        obtain ⟨_, hr, rfl⟩ := hr
        unfold close existing at hr
        split at hr
        · cases hr
        · exact Instance.noStart_reset _ _ hr
      | initiate v k' =>
        rw [Op.run, perform_result] at hr
        simp only [Res.pure_def, Res.bind_eq_ok, Res.ok.injEq, Answer.user.injEq] at hr
        obtain ⟨_, hr, rfl⟩ := hr
        exact Instance.noStart_initiate v _ _ hr
      | _ =>
        rw [Op.run, perform_result] at hr
        simp only [Res.pure_def, Res.bind_eq_ok, Res.ok.injEq, reduceCtorEq, and_false, exists_false] at hr
    by_cases h2 : ∃ k' a q, op = .startSmp k' a q
    · obtain ⟨k', a, q, rfl⟩ := h2
      by_cases hst : s.status k' = some .encrypted
      · obtain ⟨h3, h4⟩ := C73_start E A h s hh c k' a q hst
        by_cases hb : SmpBusy (stateOf s k')
        · rw [h3 hb] at he
          exact .inr ⟨he, hns⟩
        · rcases h4 hb with h5 | ⟨h5, _⟩
          · exact absurd h5 hp
          · by_cases hk : k' = k
            · subst hk
              exact .inl (.inl ⟨a, q, rfl, h5⟩)
            · refine .inr ⟨?_, hns⟩
              obtain ⟨i, hl, -⟩ := status_lookup hst
              have hrun := existing_run hl (Instance.startSmp E A c a q)
              rw [Op.run, perform_after, Session.startSmp, hrun] at he
              simp only [stateOf, lookup_insertKey, if_neg hk] at he ⊢
              exact he
      · rw [(C73_refused E A c s k' a q hst).1] at he
        exact .inr ⟨he, hns⟩
    · exact .inr ⟨(eng_run h1' fun k a q hx => h2 ⟨k, a, q, hx⟩).engaged he, hns⟩

/-- An SMP that is engaged was consented to in this session. -/
theorem engaged_consent {E : Env} {A : Account} {h : List Ev} {s : Session} (hh : Hist E A h s) {k : UInt32} (he : Engaged (stateOf s k)) :
    ∃ h1 s1 e h2, h = h1 ++ e :: h2 ∧ Hist E A h1 s1 ∧ Consents E A s1 k e ∧ SameSession k h2 := by
  induction hh with
  | new =>
    have : stateOf .new k = .plaintext := by
      simp only [stateOf, Session.new, lookup]
      split
      · rename_i i hi
        split at hi
        · cases hi; rfl
        · cases hi
      · rfl
    rw [this] at he
    exact he.elim
  | @step h s op c e hh heq hp ih =>
    subst heq
    rcases engaged_step hh hp he with hc | ⟨he', hn⟩
    · exact ⟨h, s, _, [], rfl, hh, hc, nofun⟩
    · obtain ⟨h1, s1, e, h2, rfl, h3, h4, h5⟩ := ih he'
      refine ⟨h1, s1, e, h2 ++ [⟨op, c, (op.run E A c s).result, (op.run E A c s).sent⟩], by simp, h3, h4, fun x hx => ?_⟩
      rcases List.mem_append.mp hx with hx | hx
      · exact h5 x hx
      · rw [List.mem_singleton.mp hx]
        exact hn

/-- The message behind a reported success. -/
theorem success_message {E : Env} {A : Account} {h : List Ev} {s : Session} (hh : Hist E A h s) (ht : A.tag ≠ 0) {c : Call} {payload : Bytes}
    {k : UInt32} (hr : ((Op.receive payload).run E A c s).result = .ok (.user (.smpSucceeded k))) :
    ∃ m content tlvs t s1 s2 reply, Delivers E A s payload m ∧ m.sender = k ∧ m.receiver = A.tag ∧
      DecryptsTo E c m (stateOf s k) (.confidential content tlvs) s1 ∧ t ∈ tlvs ∧ SmpAnswers E c s1 t reply s2 ∧
      smpStatusOf s2 = some .completed := by
  have hi := hist_inv hh
  have hr' := hr
  rw [Op.run, perform_result] at hr'
  simp only [Res.pure_def, Res.bind_eq_ok, Res.ok.injEq, Answer.user.injEq] at hr'
  obtain ⟨um, hr', rfl⟩ := hr'
  rcases told_receive (A := A) (c := c) (w := ⟨s, []⟩) hi payload with ⟨_, h2⟩ | ⟨m, hd, hver, hal, hs, _, h6⟩
  · rcases h2 _ hr' with h | ⟨t, h⟩ | ⟨t, h⟩ | ⟨t, h⟩ <;> cases h
  · rw [hr'] at h6
    obtain ⟨h7, content, tlvs, hdec, hany, _⟩ := h6
    rw [hi.receiver] at h7
    subst h7
    have hrc := hdec.addressed hver
    have hv : m.version = .v3 ∧ AllowsV3 A ∨ m.version = .v4 ∧ AllowsV4 A := by
      rcases hdec with ⟨_, _, _, _, _, _, hv, _⟩ | ⟨_, _, _, _, _, _, hv, _⟩ <;> rw [hv] at hal ⊢
      · exact .inl ⟨rfl, (allowsV3_iff A).mp hal⟩
      · exact .inr ⟨rfl, (allowsV4_iff A).mp hal⟩
    have h3 := (allowed_iff hv).2.2
    rw [← stateOf_inst] at hdec
    obtain ⟨s1, hto⟩ := hdec.to
    obtain ⟨t, htm, hsm⟩ := List.any_eq_true.mp hany
    rw [isSmpTlv_iff h3] at hsm
    obtain ⟨pre, post, rfl⟩ := List.append_of_mem htm
    by_cases hno : ∀ u ∈ pre ++ post, ¬ SmpType m.version u
    · rcases C72_smp E A h s hh c payload m hd hv hs hrc ht content pre post t s1 hto hsm hno with h8 | ⟨s2, reply, st, um, h8, _, h9, h10, h11⟩
      · rw [hr] at h8; cases h8
      · rw [hr] at h11
        cases h11
        cases h10
        exact ⟨m, content, _, t, s1, s2, reply, hd, rfl, hrc, hto, htm, h8, h9⟩
    · exfalso
      simp only [not_forall, not_not] at hno
      obtain ⟨u, hu, husm⟩ := hno
      rcases List.mem_append.mp hu with hu | hu
      · obtain ⟨a, b, rfl⟩ := List.append_of_mem hu
        have := (C72_many E A h s hh c payload m hd hv hs hrc ht content a b post u t s1 (by simpa using hto) husm hsm).1
        rw [hr] at this; cases this
      · obtain ⟨a, b, rfl⟩ := List.append_of_mem hu
        have := (C72_many E A h s hh c payload m hd hv hs hrc ht content pre a b t u s1 (by simpa using hto) hsm husm).1
        rw [hr] at this; cases this

/-- C77: when the success of the SMP with an instance is reported, the user agreed to it in this session: since the session with this
instance began, the user started the SMP with it, or answered the question of its first message, which came in an authentic
message of that session. -/
theorem C77_consent (E : Env) (A : Account) (h : List Ev) (s : Session) (hh : Hist E A h s) (ht : A.tag ≠ 0) (c : Call) (payload : Bytes)
    (k : UInt32) (hr : ((Op.receive payload).run E A c s).result = .ok (.user (.smpSucceeded k))) :
    ∃ h1 s1 e h2, h = h1 ++ e :: h2 ∧ Hist E A h1 s1 ∧ Consents E A s1 k e ∧ SameSession k h2 := by
  refine engaged_consent hh ?_
  obtain ⟨m, content, tlvs, t, s1, s2, reply, _, _, _, hto, _, h8, h9⟩ := success_message hh ht hr
  have key : Engaged s1 := by
    rcases h8 with ⟨x, smp, smp', rfl, rfl, h8⟩ | ⟨x, smp, smp', rfl, rfl, h8⟩
    · intro hc
      have := (SMP.handle_answered (E := E) (host := c.smp) (t := t) (rnd := c.rnd.sub 1) hc).2
      rw [h8] at this
      exact this nofun (by simpa [smpStatusOf] using h9)
    · intro hc
      have := (SMP4.handle_answered (E := E) (host := c.smp) (t := t) (rnd := c.rnd.sub 1) hc).2
      rw [h8] at this
      exact this nofun (by simpa [smpStatusOf] using h9)
  rcases hto with ⟨x, smp, d, x', last, h1, _, _, _, h2⟩ | ⟨x, smp, d, x', last, h1, _, _, _, _, h2⟩
  · cases last <;> rw [h2] at key
    · rw [h1]; exact key
    · exact key.elim
  · cases last <;> rw [h2] at key
    · rw [h1]; exact key
    · exact key.elim

/-- C77: a reported success is one of the SMP of this session.  The report comes with an authentic data message of that instance for
this client; the TLV in it is the last message of an exchange of the SMP of the session, all of whose messages were checked: see
`C53_otr3` and `C53_otr4_partial`, which apply to the life of the SMP given here. -/
theorem C77_exchange (E : Env) (A : Account) (h : List Ev) (s : Session) (hh : Hist E A h s) (ht : A.tag ≠ 0) (c : Call) (payload : Bytes)
    (k : UInt32) (hr : ((Op.receive payload).run E A c s).result = .ok (.user (.smpSucceeded k))) :
    ∃ m content tlvs t reply, Delivers E A s payload m ∧ m.sender = k ∧ m.receiver = A.tag ∧
      Decrypts E c m (stateOf s k) (.confidential content tlvs) ∧ t ∈ tlvs ∧
      ((∃ x smp l smp', stateOf s k = .encrypted3 x smp ∧ SmpLife E l smp ∧ SmpLife E (l ++ [.received t reply .completed]) smp') ∨
        (∃ x smp l smp', stateOf s k = .encrypted4 x smp ∧ SmpLife4 E l smp ∧ SmpLife4 E (l ++ [.received t reply .completed]) smp')) := by
  obtain ⟨m, content, tlvs, t, s1, s2, reply, hd, hk, hrc, hto, htm, h8, h9⟩ := success_message hh ht hr
  refine ⟨m, content, tlvs, t, reply, hd, hk, hrc, hto.decrypts, htm, ?_⟩
  have hal := hist_alive hh k
  rcases hto with ⟨x, smp, d, x', last, h1, _, _, _, h2⟩ | ⟨x, smp, d, x', last, h1, _, _, _, _, h2⟩
  · cases last
    · obtain ⟨_, _, l, _, _, hl, _⟩ := hal.1 _ _ h1
      rcases h8 with ⟨y, smp1, smp', hy, rfl, h8⟩ | ⟨y, smp1, smp', hy, rfl, h8⟩
      · rw [h2] at hy
        cases hy
        have hlife := SmpLife.received hl h8
        rw [show smp'.status = .completed by simpa [smpStatusOf] using h9] at hlife
        exact .inl ⟨x, smp, l, smp', h1, hl, hlife⟩
      · rw [h2] at hy; cases hy
    · rcases h8 with ⟨y, smp1, smp', hy, rfl, h8⟩ | ⟨y, smp1, smp', hy, rfl, h8⟩ <;> rw [h2] at hy <;> cases hy
  · cases last
    · obtain ⟨_, _, l, _, _, hl, _⟩ := hal.2 _ _ h1
      rcases h8 with ⟨y, smp1, smp', hy, rfl, h8⟩ | ⟨y, smp1, smp', hy, rfl, h8⟩
      · rw [h2] at hy; cases hy
      · rw [h2] at hy
        cases hy
        have hlife := SmpLife4.received hl h8
        rw [show smp'.status = .completed by simpa [smpStatusOf] using h9] at hlife
        exact .inr ⟨x, smp, l, smp', h1, hl, hlife⟩
    · rcases h8 with ⟨y, smp1, smp', hy, rfl, h8⟩ | ⟨y, smp1, smp', hy, rfl, h8⟩ <;> rw [h2] at hy <;> cases hy

/-- Bob, who was asked, and Alice, who started the SMP, are told of the success. -/
example : ∃ h, Hist ToySession.smpEnv ToySession.acB h ToySession.g7.after ∧ ToySession.acB.tag ≠ 0 ∧
    ToySession.g9 = (Op.receive (ToySession.msg ToySession.h8)).run ToySession.smpEnv ToySession.acB (ToySession.callB 1000 1) ToySession.g7.after ∧
    ToySession.g9.result = .ok (.user (.smpSucceeded 0x100)) := by
  obtain ⟨h, hh⟩ := ToySession.hist_g7
  exact ⟨h, hh, by decide, by unfold ToySession.g9; rfl, ToySession.runSmp3.1.2.2.2.2.2.2.2.2.1⟩
example : ∃ h, Hist ToySession.smpEnv ToySession.acA h ToySession.h8.after ∧ ToySession.acA.tag ≠ 0 ∧
    ToySession.h10 = (Op.receive (ToySession.msg ToySession.g9)).run ToySession.smpEnv ToySession.acA (ToySession.callA 1000 12) ToySession.h8.after ∧
    ToySession.h10.result = .ok (.user (.smpSucceeded 0x102)) := by
  obtain ⟨h, hh⟩ := ToySession.hist_h8
  exact ⟨h, hh, by decide, by unfold ToySession.h10; rfl, ToySession.runSmp3.1.2.2.2.2.2.2.2.2.2.1⟩

end Otrr.Props
