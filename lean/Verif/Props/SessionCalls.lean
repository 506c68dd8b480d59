import Verif.Lemmas.SessionCalls
/-!
# Crashes of the calls of the user

C91.
-/

namespace Otrr
namespace Props
open Spec Session

variable {E : Env} {A : Account} {c : Call}

theorem perform_panic (f : SessM α) (g : α → Answer) (s : Session) : (perform f g s).result = .panic ↔ (f ⟨s, []⟩).1 = .panic := by
  rw [perform_result]
  cases (f ⟨s, []⟩).1 <;> simp

/-- A call on an instance that must exist. -/
theorem existing_panic {f : InstM α} {s : Session} {k : UInt32} :
    (existing k f ⟨s, []⟩).1 = .panic ↔ ∃ i, lookup s.instances k = some i ∧ (f ⟨i, []⟩).1 = .panic := by
  cases hl : lookup s.instances k with
  | none => simp [existing, hl]
  | some i => rw [existing_run hl f]; simp

/-- What is known of the instances of a session. -/
structure Known (E : Env) (s : Session) (k : UInt32) (i : Instance) : Prop where
  receiver : i.receiver = k
  state : stateOf s k = i.state
  live : Live E i.state
  tag : i.state = .plaintext ∨ ValidTag k

theorem known (hC : SmpCurve E.curve) {h : List Ev} {s : Session} (hh : Hist E A h s) {k : UInt32} {i : Instance} (hl : lookup s.instances k = some i) :
    Known E s k i := by
  have hs : stateOf s k = i.state := by rw [stateOf, hl]
  have hi : s.inst k = i := inst_of_lookup hl
  refine ⟨by rw [← (hist_inv hh).receiver k, hi], hs, ⟨fun x smp e => ?_, hi ▸ (hist_pts hC.good.field hh k).state⟩, hs ▸ hist_tag hh k⟩
  obtain ⟨x0, l, _, hf, hl, _⟩ := (hist_alive hh k).1 x smp (hs.trans e)
  exact ⟨x0, l, hf, hl⟩

theorem Known.valid {s : Session} {k : UInt32} {i : Instance} (hk : Known E s k i) (he : i.state.status = .encrypted) : ValidTag k := by
  rcases hk.tag with h | h
  · rw [h] at he; cases he
  · exact h

theorem unsent_encrypted {k : UInt32} {flags : UInt8} {plain : Bytes} {rnd : Rand} {st : PState} (h : Unsent E A c k flags plain rnd st) :
    st.status = .encrypted := by cases h <;> rfl

theorem noFarewell_encrypted {k : UInt32} {rnd : Rand} {st : PState} (h : NoFarewell E A c k rnd st) : st.status = .encrypted := by
  cases h <;> rfl

theorem lookup_of_state {s : Session} {k : UInt32} (h : stateOf s k ≠ .plaintext) : ∃ i, lookup s.instances k = some i := by
  cases hl : lookup s.instances k with
  | none => rw [stateOf, hl] at h; exact absurd rfl h
  | some i => exact ⟨i, rfl⟩

theorem ne_plaintext {st : PState} (h : st.status = .encrypted) : st ≠ .plaintext := by rintro rfl; cases h

/-! ## Ending a session -/

theorem close_iff (hC : SmpCurve E.curve) (hA : 0x100 ≤ A.tag) {h : List Ev} {s : Session} (hh : Hist E A h s) (k : UInt32) :
    ((Op.close k).run E A c s).result = .panic ↔ NoFarewell E A c k (c.rnd.sub 0) (stateOf s k) := by
  rw [Op.run, perform_panic, close, existing_panic]
  have key : ∀ i, lookup s.instances k = some i →
      ((Instance.reset E A c ⟨i, []⟩).1 = .panic ↔ NoFarewell E A c k (c.rnd.sub 0) i.state) := by
    intro i hl
    have K := known hC hh hl
    by_cases he : i.state.status = .encrypted
    · obtain ⟨hv, hc⟩ := finish_cases hC.good A c K.live he k (c.rnd.sub 0)
      simp only [Instance.reset, StM.bind_run, StM.gets, Instance.onState]
      rcases hc with ⟨hp, hn⟩ | ⟨m, text, hp, ht, hn⟩
      · refine ⟨fun _ => hn, fun _ => ?_⟩
        revert hp
        cases PState.finish E (c.rnd.sub 0) c.now i.state with
        | mk r st => rintro rfl; rfl
      · rw [hp, hn]
        have hne : i.status ≠ Instance.status { i with state := .plaintext } := by
          rw [Instance.status, he]; nofun
        simp only [if_neg hne]
        have hx := inject_iff (c := c) (rnd := c.rnd.sub 1) (i := { i with state := .plaintext }) (sent := []) hA hv (K.valid he) ht K.receiver
        rw [← hx, ← K.receiver]
        simp only [StM.bind_run]
        cases Instance.inject A c (c.rnd.sub 1) i.state.version i.receiver m ⟨{ i with state := .plaintext }, []⟩ with
        | mk r w => cases r <;> simp [StM.pure_run]
    · refine ⟨fun hp => ?_, fun hn => absurd (noFarewell_encrypted hn) he⟩
      exfalso
      cases hs : i.state with
      | plaintext =>
        simp only [Instance.reset, StM.bind_run, StM.gets, Instance.onState, Instance.status, hs, PState.finish, PState.status, if_true, StM.lift] at hp
        cases hp
      | finished =>
        simp only [Instance.reset, StM.bind_run, StM.gets, Instance.onState, Instance.status, hs, PState.finish, PState.status] at hp
        rw [if_neg nofun] at hp
        cases hp
      | encrypted3 _ _ => rw [hs] at he; exact he rfl
      | encrypted4 _ _ => rw [hs] at he; exact he rfl
  constructor
  · rintro ⟨i, hl, hp⟩
    rw [(known hC hh hl).state]
    exact (key i hl).mp hp
  · intro hn
    obtain ⟨i, hl⟩ := lookup_of_state (ne_plaintext (noFarewell_encrypted hn))
    rw [(known hC hh hl).state] at hn
    exact ⟨i, hl, (key i hl).mpr hn⟩

/-! ## Sending -/

theorem query_safe (A : Account) (w : World Session) : (query A w).1 ≠ .panic := by
  unfold query
  split
  · nofun
  · rename_i hv
    obtain ⟨t, ht⟩ : ∃ t, serialize (.query (filterVersions A.policy SUPPORTED_VERSIONS)) = .ok t :=
      ⟨_, if_pos ⟨hv, filterVersions_legal A.policy _⟩⟩
    simp only [StM.bind_run, StM.lift, ht]
    nofun

theorem send_iff (hC : SmpCurve E.curve) (hA : 0x100 ≤ A.tag) {h : List Ev} {s : Session} (hh : Hist E A h s) (k : UInt32) (content : Bytes) :
    ((Op.send k content).run E A c s).result = .panic ↔ SomeVersion A ∧ Unsent E A c k 0 (noNul content) (c.rnd.sub 0) (stateOf s k) := by
  rw [Op.run, perform_panic]
  have hq := query_safe A
  by_cases hd : disabled A = true
  · simp only [Session.send, hd, if_true]
    exact ⟨nofun, fun h => absurd h.1 ((disabled_iff A).mp hd)⟩
  have hsv : SomeVersion A := Classical.byContradiction fun h => hd ((disabled_iff A).mpr h)
  simp only [Session.send, if_neg hd, hsv, true_and, StM.bind_run, StM.gets, Session.status]
  cases hl : lookup s.instances k with
  | none =>
    refine ⟨nofun, fun h => ?_⟩
    obtain ⟨i, hi⟩ := lookup_of_state (ne_plaintext (unsent_encrypted h))
    rw [hl] at hi
    cases hi
  | some i =>
    have K := known hC hh hl
    simp only [Option.map_some]
    by_cases hreq : A.policy.has REQUIRE_ENCRYPTION = true ∧ i.status = .plaintext
    · rw [if_pos hreq]
      constructor
      · intro hp
        exfalso
        revert hp
        simp only [StM.bind_run]
        have := hq ⟨s, []⟩
        revert this
        cases query A ⟨s, []⟩ with
        | mk r w => cases r <;> simp [StM.lift]
      · intro h
        have := unsent_encrypted h
        rw [K.state] at this
        rw [Instance.status, this] at hreq
        cases hreq.2
    · rw [if_neg hreq, K.state]
      have e1 : (sendOn E A c k content ⟨s, []⟩).1 = .panic ↔ (Instance.send E A c s.tagged content ⟨i, []⟩).1 = .panic := by
        simp only [sendOn, StM.bind_run, StM.gets, existing_run hl]
        cases Instance.send E A c s.tagged content ⟨i, []⟩ with
        | mk r w => cases r <;> simp [StM.modify]
      rw [e1]
      simp only [Instance.send, StM.bind_run, Instance.onState, dropByValue_noNul]
      by_cases he : i.state.status = .encrypted
      · obtain ⟨hv, hcs⟩ := prepare_cases hC.good A c K.live he k 0 (noNul content) (c.rnd.sub 0)
        rcases hcs with ⟨hp, hu⟩ | ⟨m, st', text, hp, hv', hm, ht, hu⟩
        · refine ⟨fun _ => hu, fun _ => ?_⟩
          revert hp
          cases PState.prepare E 0 (noNul content) (c.rnd.sub 0) c.now i.state with
          | mk r st => rintro rfl; rfl
        · rw [hp, hu, ← payloads_iff (rnd := c.rnd.sub 1) hA hv (K.valid he) ht]
          cases m with
          | unencoded b => exact absurd rfl (hm b)
          | _ =>
            simp only [StM.bind_run, StM.gets, StM.lift, hv', K.receiver, ht]
            cases Instance.payloads A c i.state.version k (c.rnd.sub 1) text <;> simp
      · refine ⟨fun hp => ?_, fun hu => absurd (unsent_encrypted hu) he⟩
        exfalso
        cases hs : i.state with
        | plaintext =>
          simp only [hs, PState.prepare, StM.bind_run, StM.gets, StM.lift, Instance.status, PState.status, Res.assert] at hp
          have : ((Status.plaintext == Status.plaintext) = true) := rfl
          simp only [this, if_true] at hp
          split at hp
          · rename_i hx
            obtain ⟨t, ht⟩ : ∃ t, serialize (.tagged (filterVersions A.policy SUPPORTED_VERSIONS) (noNul content)) = .ok t :=
              ⟨_, if_pos ⟨hx.2.2, filterVersions_legal A.policy _⟩⟩
            simp only [StM.bind_run, ht] at hp
            cases hp
          · simp only [StM.bind_run, serialize] at hp
            cases hp
        | finished => rw [hs] at hp; cases hp
        | encrypted3 _ _ => rw [hs] at he; exact he rfl
        | encrypted4 _ _ => rw [hs] at he; exact he rfl

/-! ## The SMP -/

theorem start4_cases (hC : SmpCurve E.curve) {secret question : Bytes} {rnd : Rand} {smp : SMP4Context} (hb : smp.status ≠ .inProgress) :
    ((SMP4.random E rnd 0 % E.curve.q = 0 ∨ SMP4.random E rnd 1 % E.curve.q = 0) ∧ (SMP4.start E secret question rnd smp).1 = .panic) ∨
    (¬ (SMP4.random E rnd 0 % E.curve.q = 0 ∨ SMP4.random E rnd 1 % E.curve.q = 0) ∧
      ∃ t smp', SMP4.start E secret question rnd smp = (.ok t, smp')) := by
  have bad : ∀ {n}, n % E.curve.q = 0 → SMP4.expect (Point.verify E.curve (Point.mul E.curve E.curve.G n)) = .panic := by
    intro n hn
    have := (SMP4.mul_eq_identity hC (SMP4.goodKey_G hC) n).mpr hn
    rw [this]
    rfl
  have noerr : ∀ {P e}, SMP4.expect (Point.verify E.curve P) ≠ .err e := by
    intro P e
    unfold SMP4.expect
    cases Point.verify E.curve P <;> nofun
  by_cases h0 : SMP4.random E rnd 0 % E.curve.q = 0
  · left
    refine ⟨.inl h0, ?_⟩
    simp only [SMP4.start, if_neg hb, bad h0]
    rfl
  · by_cases h1 : SMP4.random E rnd 1 % E.curve.q = 0
    · left
      refine ⟨.inr h1, ?_⟩
      simp only [SMP4.start, if_neg hb, bad h1]
      have := @noerr (Point.mul E.curve E.curve.G (SMP4.random E rnd 0))
      revert this
      cases SMP4.expect (Point.verify E.curve (Point.mul E.curve E.curve.G (SMP4.random E rnd 0))) with
      | ok u => intro _; rfl
      | err e => intro h; exact absurd rfl h
      | panic => intro _; rfl
    · exact .inr ⟨by simp [h0, h1], _, _, SMP4.start_of hC hb h0 h1⟩

/-- The part of a call on an instance that starts or aborts the SMP. -/
theorem smp_after (hC : SmpCurve E.curve) (hA : 0x100 ≤ A.tag) {s : Session} {k : UInt32} {i : Instance} (K : Known E s k i) {st : PState}
    (he : i.state.status = .encrypted) (hst : st.status = .encrypted) (hL : Live E st) (t : TLV) :
    (Instance.sendTlv E A c (c.rnd.sub 1) i.receiver t ⟨{ i with state := st }, []⟩).1 = .panic ↔
      65535 < t.value.length ∨ Unsent E A c k 1 (onlyTlv t) ((c.rnd.sub 1).sub 0) st := by
  have hr := K.receiver
  subst hr
  exact sendTlv_iff (i := { i with state := st }) hC.good hA (K.valid he) rfl hL hst (c.rnd.sub 1) t

theorem Live.smp3 {x : Enc3} {smp smp' : SMPContext} (h : Live E (.encrypted3 x smp)) : Live E (.encrypted3 x smp') :=
  ⟨fun y m e => (by cases e; exact h.life x smp rfl), fun _ _ e => (nomatch e)⟩

theorem Live.smp4 {x : Enc4} {smp smp' : SMP4Context} (h : Live E (.encrypted4 x smp)) : Live E (.encrypted4 x smp') :=
  ⟨fun _ _ e => (nomatch e), fun y m e => by cases e; exact h.pts x smp rfl⟩

theorem startSmp_iff (hC : SmpCurve E.curve) (hA : 0x100 ≤ A.tag) {h : List Ev} {s : Session} (hh : Hist E A h s) (k : UInt32)
    (secret question : Bytes) : ((Op.startSmp k secret question).run E A c s).result = .panic ↔ CallCrash E A c s (.startSmp k secret question) := by
  rw [Op.run, perform_panic, startSmp, existing_panic]
  have key : ∀ i, lookup s.instances k = some i →
      ((Instance.startSmp E A c secret question ⟨i, []⟩).1 = .panic ↔ CallCrash E A c s (.startSmp k secret question)) := by
    intro i hl
    have K := known hC hh hl
    cases hs : i.state with
    | plaintext =>
      constructor
      · intro hp
        simp only [Instance.startSmp, StM.bind_run, StM.gets, hs, PState.version, StM.lift] at hp
        cases hp
      · intro hx
        cases hx with
        | smpKey h1 => rw [K.state, hs] at h1; cases h1
        | smpDraw h1 => rw [K.state, hs] at h1; cases h1
        | startSmp h1 => rw [K.state, hs] at h1; rcases h1 with ⟨_, _, _, h1, _⟩ | ⟨_, _, _, h1, _⟩ <;> cases h1
    | finished =>
      constructor
      · intro hp
        simp only [Instance.startSmp, StM.bind_run, StM.gets, hs, PState.version, StM.lift] at hp
        cases hp
      · intro hx
        cases hx with
        | smpKey h1 => rw [K.state, hs] at h1; cases h1
        | smpDraw h1 => rw [K.state, hs] at h1; cases h1
        | startSmp h1 => rw [K.state, hs] at h1; rcases h1 with ⟨_, _, _, h1, _⟩ | ⟨_, _, _, h1, _⟩ <;> cases h1
    | encrypted3 x smp =>
      have he : i.state.status = .encrypted := by rw [hs]; rfl
      have hL := K.live
      rw [hs] at hL
      have hrun : ∀ r smp', SMP.start E c.smp secret question (c.rnd.sub 0) smp = (r, smp') →
          Instance.startSmp E A c secret question ⟨i, []⟩ = match r with
          | .ok t => Instance.sendTlv E A c (c.rnd.sub 1) i.receiver t ⟨{ i with state := .encrypted3 x smp' }, []⟩
          | .err e => (.err e, ⟨{ i with state := .encrypted3 x smp' }, []⟩)
          | .panic => (.panic, ⟨{ i with state := .encrypted3 x smp' }, []⟩) := by
        intro r smp' hr
        simp only [Instance.startSmp, StM.bind_run, StM.gets, hs, PState.version, Instance.onState, PState.onSmp, hr]
        cases r <;> rfl
      have hst : stateOf s k = .encrypted3 x smp := K.state.trans hs
      by_cases hb : smp.state = .expect1
      · have hnb : ¬ SmpBusy (stateOf s k) := by rw [hst]; exact fun h => h hb
        cases hkey : c.keypair with
        | none =>
          refine ⟨fun _ => .smpKey hst hnb hkey, fun _ => ?_⟩
          have : SMP.start E c.smp secret question (c.rnd.sub 0) smp = (.panic, { smp with status := .inProgress }) := by
            simp only [SMP.start, hb, Call.smp, hkey, Option.map_none]
          rw [hrun _ _ this]
        | some kp =>
          obtain ⟨t, smp', hr⟩ : ∃ t smp', SMP.start E c.smp secret question (c.rnd.sub 0) smp = (.ok t, smp') := by
            simp only [SMP.start, hb, Call.smp, hkey, Option.map_some]
            exact ⟨_, _, rfl⟩
          have hx := smp_after (c := c) hC hA K (st := .encrypted3 x smp') he rfl hL.smp3 t
          rw [hrun _ _ hr]
          simp only
          rw [hx]
          have hs' : SmpStarts E c secret question (stateOf s k) t (.encrypted3 x smp') := .inl ⟨x, smp, smp', hst, rfl, hr⟩
          refine ⟨fun h => .startSmp hs' h, fun h => ?_⟩
          cases h with
          | smpKey h1 h2 h3 => rw [hkey] at h3; cases h3
          | smpDraw h1 => rw [hst] at h1; cases h1
          | startSmp h1 h2 =>
            rcases h1 with ⟨y, m, m', e1, e2, e3⟩ | ⟨y, m, m', e1, _⟩
            · rw [hst] at e1; cases e1
              rw [hr] at e3; cases e3
              rw [e2] at h2
              exact h2
            · rw [hst] at e1; cases e1
      · have hr : SMP.start E c.smp secret question (c.rnd.sub 0) smp = (.err .smpInProgress, smp) := by
          unfold SMP.start
          split
          · rename_i h; exact absurd h hb
          · rfl
        refine ⟨fun h => (by rw [hrun _ _ hr] at h; exact (nomatch h)), fun h => ?_⟩
        exfalso
        cases h with
        | smpKey h1 h2 => rw [hst] at h2; exact h2 hb
        | smpDraw h1 => rw [hst] at h1; cases h1
        | startSmp h1 h2 =>
          rcases h1 with ⟨y, m, m', e1, e2, e3⟩ | ⟨y, m, m', e1, _⟩
          · rw [hst] at e1; cases e1
            rw [hr] at e3; cases e3
          · rw [hst] at e1; cases e1
    | encrypted4 x smp =>
      have he : i.state.status = .encrypted := by rw [hs]; rfl
      have hL := K.live
      rw [hs] at hL
      have hrun : ∀ r smp', SMP4.start E secret question (c.rnd.sub 0) smp = (r, smp') →
          Instance.startSmp E A c secret question ⟨i, []⟩ = match r with
          | .ok t => Instance.sendTlv E A c (c.rnd.sub 1) i.receiver t ⟨{ i with state := .encrypted4 x smp' }, []⟩
          | .err e => (.err e, ⟨{ i with state := .encrypted4 x smp' }, []⟩)
          | .panic => (.panic, ⟨{ i with state := .encrypted4 x smp' }, []⟩) := by
        intro r smp' hr
        simp only [Instance.startSmp, StM.bind_run, StM.gets, hs, PState.version, Instance.onState, PState.onSmp4, hr]
        cases r <;> rfl
      have hst : stateOf s k = .encrypted4 x smp := K.state.trans hs
      by_cases hb : smp.status = .inProgress
      · have hr : SMP4.start E secret question (c.rnd.sub 0) smp = (.err .smpInProgress, smp) := if_pos hb
        refine ⟨fun h => (by rw [hrun _ _ hr] at h; exact (nomatch h)), fun h => ?_⟩
        exfalso
        cases h with
        | smpKey h1 h2 => rw [hst] at h1; cases h1
        | smpDraw h1 h2 => rw [hst] at h2; exact h2 hb
        | startSmp h1 h2 =>
          rcases h1 with ⟨y, m, m', e1, _⟩ | ⟨y, m, m', e1, e2, e3⟩
          · rw [hst] at e1; cases e1
          · rw [hst] at e1; cases e1
            rw [hr] at e3; cases e3
      · have hnb : ¬ SmpBusy (stateOf s k) := by rw [hst]; exact hb
        rcases start4_cases (E := E) (secret := secret) (question := question) (rnd := c.rnd.sub 0) hC hb with ⟨hz, hp⟩ | ⟨hz, t, smp', hr⟩
        · refine ⟨fun _ => .smpDraw hst hnb hz, fun _ => ?_⟩
          rw [hrun _ _ (Prod.ext hp rfl)]
        · have hx := smp_after (c := c) hC hA K (st := .encrypted4 x smp') he rfl hL.smp4 t
          rw [hrun _ _ hr]
          simp only
          rw [hx]
          have hs' : SmpStarts E c secret question (stateOf s k) t (.encrypted4 x smp') := .inr ⟨x, smp, smp', hst, rfl, hr⟩
          refine ⟨fun h => .startSmp hs' h, fun h => ?_⟩
          cases h with
          | smpKey h1 => rw [hst] at h1; cases h1
          | smpDraw h1 h2 h3 => exact absurd h3 hz
          | startSmp h1 h2 =>
            rcases h1 with ⟨y, m, m', e1, _⟩ | ⟨y, m, m', e1, e2, e3⟩
            · rw [hst] at e1; cases e1
            · rw [hst] at e1; cases e1
              rw [hr] at e3; cases e3
              rw [e2] at h2
              exact h2
  constructor
  · rintro ⟨i, hl, hp⟩
    exact (key i hl).mp hp
  · intro hx
    have hne : stateOf s k ≠ .plaintext := by
      cases hx with
      | smpKey h1 => rw [h1]; nofun
      | smpDraw h1 => rw [h1]; nofun
      | startSmp h1 => rcases h1 with ⟨_, _, _, h1, _⟩ | ⟨_, _, _, h1, _⟩ <;> (rw [h1]; nofun)
    obtain ⟨i, hl⟩ := lookup_of_state hne
    exact ⟨i, hl, (key i hl).mpr hx⟩

theorem abortSmp_iff (hC : SmpCurve E.curve) (hA : 0x100 ≤ A.tag) {h : List Ev} {s : Session} (hh : Hist E A h s) (k : UInt32) :
    ((Op.abortSmp k).run E A c s).result = .panic ↔
      ∃ st, SmpAborts (stateOf s k) st ∧ Unsent E A c k 1 [0, 0, 6, 0, 0] ((c.rnd.sub 1).sub 0) st := by
  rw [Op.run, perform_panic, abortSmp, existing_panic]
  have key : ∀ i, lookup s.instances k = some i → ((Instance.abortSmp E A c ⟨i, []⟩).1 = .panic ↔
      ∃ st, SmpAborts (stateOf s k) st ∧ Unsent E A c k 1 [0, 0, 6, 0, 0] ((c.rnd.sub 1).sub 0) st) := by
    intro i hl
    have K := known hC hh hl
    cases hs : i.state with
    | plaintext =>
      constructor
      · intro hp
        simp only [Instance.abortSmp, StM.bind_run, StM.gets, hs, PState.version, StM.lift] at hp
        cases hp
      · rintro ⟨st, h1, _⟩
        rw [K.state, hs] at h1
        rcases h1 with ⟨_, _, h1, _⟩ | ⟨_, _, h1, _⟩ <;> cases h1
    | finished =>
      constructor
      · intro hp
        simp only [Instance.abortSmp, StM.bind_run, StM.gets, hs, PState.version, StM.lift] at hp
        cases hp
      · rintro ⟨st, h1, _⟩
        rw [K.state, hs] at h1
        rcases h1 with ⟨_, _, h1, _⟩ | ⟨_, _, h1, _⟩ <;> cases h1
    | encrypted3 x smp =>
      have he : i.state.status = .encrypted := by rw [hs]; rfl
      have hL := K.live
      rw [hs] at hL
      have hst : stateOf s k = .encrypted3 x smp := K.state.trans hs
      have hrun : Instance.abortSmp E A c ⟨i, []⟩ = Instance.sendTlv E A c (c.rnd.sub 1) i.receiver ⟨6, []⟩
          ⟨{ i with state := .encrypted3 x { smp with status := .aborted, state := .expect1 } }, []⟩ := by
        simp only [Instance.abortSmp, StM.bind_run, StM.gets, hs, PState.version, Instance.onState, PState.onSmp]
        rfl
      rw [hrun, smp_after hC hA K he rfl hL.smp3]
      constructor
      · rintro (h1 | h1)
        · exact absurd h1 (by decide)
        · exact ⟨_, .inl ⟨x, smp, hst, rfl⟩, h1⟩
      · rintro ⟨st, ⟨y, m, e1, e2⟩ | ⟨y, m, e1, _⟩, h2⟩
        · rw [hst] at e1; cases e1
          rw [e2] at h2
          exact .inr h2
        · rw [hst] at e1; cases e1
    | encrypted4 x smp =>
      have he : i.state.status = .encrypted := by rw [hs]; rfl
      have hL := K.live
      rw [hs] at hL
      have hst : stateOf s k = .encrypted4 x smp := K.state.trans hs
      have hrun : Instance.abortSmp E A c ⟨i, []⟩ = Instance.sendTlv E A c (c.rnd.sub 1) i.receiver ⟨6, []⟩
          ⟨{ i with state := .encrypted4 x { smp with status := .aborted, state := .expect1 } }, []⟩ := by
        simp only [Instance.abortSmp, StM.bind_run, StM.gets, hs, PState.version, Instance.onState, PState.onSmp4]
        rfl
      rw [hrun, smp_after hC hA K he rfl hL.smp4]
      constructor
      · rintro (h1 | h1)
        · exact absurd h1 (by decide)
        · exact ⟨_, .inr ⟨x, smp, hst, rfl⟩, h1⟩
      · rintro ⟨st, ⟨y, m, e1, _⟩ | ⟨y, m, e1, e2⟩, h2⟩
        · rw [hst] at e1; cases e1
        · rw [hst] at e1; cases e1
          rw [e2] at h2
          exact .inr h2
  constructor
  · rintro ⟨i, hl, hp⟩
    exact (key i hl).mp hp
  · rintro ⟨st, h1, h2⟩
    have hne : stateOf s k ≠ .plaintext := by
      rcases h1 with ⟨_, _, h1, _⟩ | ⟨_, _, h1, _⟩ <;> (rw [h1]; nofun)
    obtain ⟨i, hl⟩ := lookup_of_state hne
    exact ⟨i, hl, (key i hl).mpr ⟨st, h1, h2⟩⟩

/-! ## Old sessions -/

theorem expire_one (hC : SmpCurve E.curve) (hA : 0x100 ≤ A.tag) {k : UInt32} {i : Instance} (hr : i.receiver = k) (hL : Live E i.state)
    (hk : i.state = .plaintext ∨ ValidTag k) (rnd : Rand) (t : Nat) (sent : List Bytes) :
    (Instance.expire E A c rnd t ⟨i, sent⟩).1 = .panic ↔ Old t c.now i ∧ NoFarewell E A c k (rnd.sub 0) i.state := by
  rcases expire_step (E := E) (A := A) (c := c) (rnd := rnd) (t := t) (sent := sent) hr with ⟨ho, hx⟩ | ⟨ho, _⟩
  · rw [hx]
    exact ⟨nofun, fun h => absurd h.1 ho⟩
  · simp only [ho, true_and]
    obtain ⟨x, smp, hs, hold⟩ := ho
    have he : i.state.status = .encrypted := by rw [hs]; rfl
    have hk : ValidTag k := by
      rcases hk with h | h
      · rw [hs] at h; cases h
      · exact h
    obtain ⟨hv, hc⟩ := finish_cases hC.good A c hL he k (rnd.sub 0)
    rw [hs] at hc hv ⊢
    simp only [PState.finish] at hc
    simp only [Instance.expire, StM.bind_run, StM.gets, Instance.onState, hs, PState.expire, old_iff.mpr hold, if_true]
    cases hd : Enc4.disconnect E (rnd.sub 0) c.now x with
    | mk r x' =>
      rw [hd] at hc
      rcases hc with ⟨hp, hn⟩ | ⟨m, text, hp, ht, hn⟩
      · refine ⟨fun _ => hn, fun _ => ?_⟩
        cases r with
        | panic => rfl
        | ok d => cases hp
        | err e => cases hp
      · cases r with
        | panic => cases hp
        | err e => cases hp
        | ok d =>
          simp only [Prod.mk.injEq, Res.ok.injEq, Option.some.injEq, and_true] at hp
          subst hp
          simp only
          subst hr
          exact (inject_iff (i := { i with state := .finished }) (rnd := rnd.sub 1) (sent := sent) hA hv hk ht rfl).trans hn.symm

theorem expireAll_iff (hC : SmpCurve E.curve) (hA : 0x100 ≤ A.tag) {t : Nat} (l : List (UInt32 × Instance)) :
    ∀ (n : Nat) (s : Session) (sent : List Bytes), (l.map Prod.fst).Nodup →
      (∀ k i, (k, i) ∈ l → lookup s.instances k = some i ∧ i.receiver = k ∧ Live E i.state ∧ (i.state = .plaintext ∨ ValidTag k)) →
      ((expireAll E A c t n (l.map Prod.fst) ⟨s, sent⟩).1 = .panic ↔
        ∃ m k i, l[m]? = some (k, i) ∧ Old t c.now i ∧ NoFarewell E A c k ((c.rnd.sub (n + m)).sub 0) i.state) := by
  induction l with
  | nil =>
    intro n s sent _ _
    exact ⟨nofun, fun ⟨m, k, i, h, _⟩ => by cases h⟩
  | cons e l ih =>
    obtain ⟨k, i⟩ := e
    intro n s sent hn hl
    rw [List.map_cons, List.nodup_cons] at hn
    obtain ⟨hk, hr, hL, hv⟩ := hl k i List.mem_cons_self
    have hrest : ∀ j : Instance, ∀ k' i', (k', i') ∈ l →
        lookup (insertKey s.instances k j) k' = some i' ∧ i'.receiver = k' ∧ Live E i'.state ∧ (i'.state = .plaintext ∨ ValidTag k') := by
      intro j k' i' hm
      have hne : k' ≠ k := by
        rintro rfl
        exact hn.1 (List.mem_map.mpr ⟨_, hm, rfl⟩)
      obtain ⟨h1, h2⟩ := hl k' i' (List.mem_cons_of_mem _ hm)
      exact ⟨by simp [hne.symm, h1], h2⟩
    simp only [List.map_cons, expireAll, StM.bind_run, existing, hk, entry, Option.getD_some]
    have one := expire_one (c := c) hC hA hr hL hv (c.rnd.sub n) t sent
    have noerr : ∀ e, (Instance.expire E A c (c.rnd.sub n) t ⟨i, sent⟩).1 ≠ .err e := by
      intro e he
      rcases expire_step (E := E) (A := A) (c := c) (rnd := c.rnd.sub n) (t := t) (sent := sent) hr with ⟨_, hx⟩ | ⟨_, hx | ⟨_, _, _, _, hx⟩⟩
      · rw [hx] at he; cases he
      · rw [hx] at he; cases he
      · rw [hx] at he; cases he
    revert one noerr
    cases Instance.expire E A c (c.rnd.sub n) t ⟨i, sent⟩ with
    | mk r w =>
      intro one noerr
      cases r with
      | err e => exact absurd rfl (noerr e)
      | panic => exact ⟨fun _ => ⟨0, k, i, rfl, one.mp rfl⟩, fun _ => rfl⟩
      | ok u =>
        have hno : ¬ (Old t c.now i ∧ NoFarewell E A c k ((c.rnd.sub n).sub 0) i.state) := fun h => by cases one.mpr h
        simp only
        rw [ih (n + 1) _ w.sent hn.2 (hrest w.st)]
        constructor
        · rintro ⟨m, k', i', h1, h2, h3⟩
          exact ⟨m + 1, k', i', h1, h2, by rw [show n + (m + 1) = n + 1 + m by omega]; exact h3⟩
        · rintro ⟨m, k', i', h1, h2, h3⟩
          cases m with
          | zero => cases h1; exact absurd ⟨h2, h3⟩ hno
          | succ m => exact ⟨m, k', i', h1, h2, by rw [show n + 1 + m = n + (m + 1) by omega]; exact h3⟩

theorem expire_iff (hC : SmpCurve E.curve) (hA : 0x100 ≤ A.tag) {h : List Ev} {s : Session} (hh : Hist E A h s) (t : Nat) :
    ((Op.expire t).run E A c s).result = .panic ↔
      ∃ n k i, s.instances[n]? = some (k, i) ∧ Old t c.now i ∧ NoFarewell E A c k ((c.rnd.sub n).sub 0) i.state := by
  have hi := hist_inv hh
  have hl : ∀ k i, (k, i) ∈ s.instances →
      lookup s.instances k = some i ∧ i.receiver = k ∧ Live E i.state ∧ (i.state = .plaintext ∨ ValidTag k) := by
    intro k i hm
    have hl := lookup_of_mem hi.nodup hm
    have K := known hC hh hl
    exact ⟨hl, K.receiver, K.live, K.tag⟩
  rw [Op.run, perform_panic]
  simp only [Session.expire, StM.bind_run, StM.gets]
  rw [expireAll_iff hC hA s.instances 0 s [] hi.nodup hl]
  simp only [Nat.zero_add]

/-! ## Starting a key exchange -/

theorem encodeFragment_bad {f : Fragment} (h : ¬ ValidTag f.receiver) : encodeFragment f = .panic := by
  have hv : (verifyTag f.receiver).isOk = false := by
    cases hx : verifyTag f.receiver with
    | ok u => exact absurd (verifyTag_ok hx).2 h
    | err e => rfl
    | panic => rfl
  unfold encodeFragment
  rw [hv]
  generalize (decide (f.version = .v3) || decide (f.version = .v4)) = a
  generalize (verifyTag f.sender).isOk = b
  generalize (f.sender != 0) = d
  cases a <;> cases b <;> cases d <;> rfl

/-- Sending a text to an instance whose tag is not a permitted one crashes exactly if it has to be fragmented. -/
theorem payloads_bad {rnd : Rand} {v : Version} {k : UInt32} {text : Bytes} (hv : v = .v3 ∨ v = .v4)
    (hk : ¬ ValidTag k) (hl : c.messageSize < text.length) : Instance.payloads A c v k rnd text = .panic := by
  unfold Instance.payloads
  rw [if_neg (by omega)]
  by_cases hf : overhead v < c.messageSize ∧ text.length ≤ 65535 * (c.messageSize - overhead v)
  · rw [← overhead_eq hv] at hf
    rw [(fragmentContent_eq (rnd := rnd.bytes [] 4) (sender := A.tag) (receiver := k) hv hf.1 hl hf.2).1]
    simp only [Res.bind_ok]
    cases text with
    | nil => simp at hl
    | cons b text =>
      simp only [List.length_cons, slices, reduceCtorEq, if_false, numberFragments, List.mapM_cons]
      rw [encodeFragment_bad (by exact hk)]
      rfl
  · rw [fragmentContent_panic hv hl hf]
    rfl

theorem payloads_kex {rnd : Rand} {v : Version} {k : UInt32} {m : EncodedMessageType} {text : Bytes} (hA : 0x100 ≤ A.tag) (hv : v = .v3 ∨ v = .v4)
    (ht : encodeMessage v A.tag k m = .ok text) :
    Instance.payloads A c v k rnd text = .panic ↔ ¬ Fits v c.messageSize text ∨ c.messageSize < text.length ∧ ¬ ValidTag k := by
  by_cases hk : ValidTag k
  · rw [payloads_iff hA hv hk ht]
    simp [hk]
  · simp only [hk, not_false_eq_true, and_true]
    by_cases hl : c.messageSize < text.length
    · simp only [hl, or_true, iff_true]
      exact payloads_bad hv hk hl
    · have : text.length ≤ c.messageSize := by omega
      simp only [hl, or_false, Fits, this, true_or, not_true_eq_false, iff_false]
      rw [Instance.payloads, if_pos this]
      nofun

/-- The first message of a key exchange: none, or the same whatever the size of messages is. -/
theorem initiate_cases (E : Env) (A : Account) (c : Call) {v : Version} (hv : v = .v3 ∨ v = .v4) (i : Instance) :
    (∃ e j, ∀ n, Instance.initiate E A (c.sized n) v ⟨i, []⟩ = (.err e, ⟨j, []⟩)) ∨
    ∃ m text j, encodeMessage v A.tag i.receiver m = .ok text ∧ ∀ n, Instance.initiate E A (c.sized n) v ⟨i, []⟩ =
      match Instance.payloads A (c.sized n) v i.receiver (c.rnd.sub 1) text with
      | .ok out => (.ok .none, ⟨j, out⟩)
      | .err e => (.err e, ⟨j, []⟩)
      | .panic => (.panic, ⟨j, []⟩) := by
  have hin : ∀ (m : EncodedMessageType) (text : Bytes) (j : Instance) (n : Nat), j.receiver = i.receiver →
      encodeMessage v A.tag i.receiver m = .ok text →
      (do Instance.inject A (c.sized n) (c.rnd.sub 1) v (← StM.gets fun w => w.st.receiver) m; return UserMessage.none : InstM UserMessage) ⟨j, []⟩ =
        match Instance.payloads A (c.sized n) v i.receiver (c.rnd.sub 1) text with
        | .ok out => (.ok .none, ⟨j, out⟩)
        | .err e => (.err e, ⟨j, []⟩)
        | .panic => (.panic, ⟨j, []⟩) := by
    intro m text j n hj ht
    have ha : (i.receiver != 0 && i.receiver == 0 || i.receiver == i.receiver) = true := by simp
    simp only [Instance.inject, StM.bind_run, StM.gets, StM.lift, hj, ha, Res.assert, if_true, ht]
    cases Instance.payloads A (c.sized n) v i.receiver (c.rnd.sub 1) text <;> rfl
  rcases hv with rfl | rfl
  · right
    obtain ⟨text, ht⟩ := encodeMessage_ok (.inl rfl) (m := .dhCommit (AKE.dhCommitOf E (DH.Keypair.generate E.dh ((c.rnd.sub 0).bytes [0] 192)) ((c.rnd.sub 0).bytes [1] 16)))
      nofun nofun A.tag i.receiver
    refine ⟨_, text, { i with ake := (AKE.initiate E (c.rnd.sub 0) i.ake).2 }, ht, fun n => ?_⟩
    exact hin _ text { i with ake := (AKE.initiate E (c.rnd.sub 0) i.ake).2 } n rfl ht
  · have hne : (DAKE.initiate E (c.dake A) (c.rnd.sub 0) i.dake).1 ≠ .panic := by
      intro h
      have := (transact_panic (s' := (DAKE.initiate E (c.dake A) (c.rnd.sub 0) i.dake).2)).mp (Prod.ext h rfl)
      have this := this.1
      split at this
      · simp only [Res.bind_eq_panic, Res.pure_def, reduceCtorEq, and_false, exists_false, or_false] at this
        unfold DAKE.ownPayload runDec at this
        revert this
        cases hx : (do let p ← readPayload E; decDone; pure p : Dec ClientProfilePayload) (c.dake A).profile with
        | panic =>
          rw [Dec.bind_eq_panic] at hx
          rcases hx with hx | ⟨p, s1, _, hx⟩
          · exact absurd hx (readPayload_safe E _).1
          · rw [Dec.bind_eq_panic] at hx
            rcases hx with hx | ⟨_, _, _, hx⟩
            · unfold decDone at hx; split at hx <;> cases hx
            · cases hx
        | _ => nofun
      · cases this
    have hrun : ∀ n r d, DAKE.initiate E (c.dake A) (c.rnd.sub 0) i.dake = (r, d) → Instance.initiate E A (c.sized n) .v4 ⟨i, []⟩ =
        match r with
        | .ok m => (do Instance.inject A (c.sized n) (c.rnd.sub 1) .v4 (← StM.gets fun w => w.st.receiver) m; return UserMessage.none : InstM UserMessage) ⟨{ i with dake := d }, []⟩
        | .err e => (.err e, ⟨{ i with dake := d }, []⟩)
        | .panic => (.panic, ⟨{ i with dake := d }, []⟩) := by
      intro n r d hr
      have hr : DAKE.initiate E ((c.sized n).dake A) ((c.sized n).rnd.sub 0) i.dake = (r, d) := hr
      simp only [Instance.initiate, StM.bind_run, Instance.onDake, hr]
      cases r <;> rfl
    cases hd : DAKE.initiate E (c.dake A) (c.rnd.sub 0) i.dake with
    | mk r d =>
      rw [hd] at hne
      cases r with
      | panic => exact absurd rfl hne
      | err e => exact .inl ⟨e, { i with dake := d }, fun n => hrun n _ _ hd⟩
      | ok m =>
        have hm : IsKeyExchange m := by
          have h := hd
          rw [DAKE.initiate, transact_ok] at h
          split at h
          · simp only [Res.bind_eq_ok, Res.pure_def, Res.ok.injEq, Prod.mk.injEq] at h
            obtain ⟨_, _, rfl, _⟩ := h
            trivial
          · cases h
        obtain ⟨text, ht⟩ := encodeMessage_ok (.inr rfl) (kind_unencoded hm).1 (kind_unencoded hm).2 A.tag i.receiver
        refine .inr ⟨m, text, { i with dake := d }, ht, fun n => ?_⟩
        rw [hrun n _ _ hd]
        exact hin m text { i with dake := d } n rfl ht

theorem initiate_iff (hA : 0x100 ≤ A.tag) {h : List Ev} {s : Session} (hh : Hist E A h s) (v : Version) (k : UInt32) :
    ((Op.initiate v k).run E A c s).result = .panic ↔ CallCrash E A c s (.initiate v k) := by
  rw [Op.run, perform_panic, Session.initiate, entry_fst]
  by_cases hv : v = .v3 ∨ v = .v4
  · have hr : (s.inst k).receiver = k := (hist_inv hh).receiver k
    have hsent : ∀ n, ((Op.initiate v k).run E A (c.sized n) s).sent = (Instance.initiate E A (c.sized n) v ⟨s.inst k, []⟩).2.sent := fun n => by
      rw [Op.run, perform_sent]; rfl
    have hc : c.sized c.messageSize = c := rfl
    rcases initiate_cases E A c hv (s.inst k) with ⟨e, j, he⟩ | ⟨m, text, j, ht, he⟩
    · have h0 := he c.messageSize
      rw [hc] at h0
      refine ⟨fun hp => (by rw [h0] at hp; exact (nomatch hp)), fun hx => ?_⟩
      exfalso
      cases hx with
      | version h3 h4 => rcases hv with rfl | rfl <;> contradiction
      | offer _ h1 _ =>
        have := h1 _ (Nat.le_refl _)
        rw [hsent, he] at this
        cases this
    · have h0 := he c.messageSize
      rw [hc] at h0
      rw [hr] at ht h0 he
      have hp : (Instance.initiate E A c v ⟨s.inst k, []⟩).1 = .panic ↔ Instance.payloads A c v k (c.rnd.sub 1) text = .panic := by
        rw [h0]
        cases Instance.payloads A c v k (c.rnd.sub 1) text <;> simp
      have hall : ∀ n, text.length ≤ n → ((Op.initiate v k).run E A (c.sized n) s).sent = [text] := by
        intro n hn
        have : Instance.payloads A (c.sized n) v k (c.rnd.sub 1) text = .ok [text] := if_pos hn
        rw [hsent, he, this]
      rw [show (Instance.initiate E A c v ⟨s.inst k, []⟩).1 = .panic ↔ _ from hp, payloads_kex hA hv ht]
      refine ⟨fun h => .offer hv hall h, fun hx => ?_⟩
      cases hx with
      | version h3 h4 => rcases hv with rfl | rfl <;> contradiction
      | @offer _ _ t _ h1 h2 =>
        have e1 := h1 (max t.length text.length) (Nat.le_max_left _ _)
        rw [hall _ (Nat.le_max_right _ _)] at e1
        cases e1
        exact h2
  · have h3 : v ≠ .v3 := fun h => hv (.inl h)
    have h4 : v ≠ .v4 := fun h => hv (.inr h)
    refine ⟨fun _ => .version h3 h4, fun _ => ?_⟩
    cases v with
    | v3 => exact absurd rfl h3
    | v4 => exact absurd rfl h4
    | _ => rfl

/-! ## The property -/

/-- Which calls of the user crash, in every state that calls can lead to.  The full property, that none does, is false of the code. -/
theorem C91_partial (hC : SmpCurve E.curve) (hA : 0x100 ≤ A.tag) {h : List Ev} {s : Session} (hh : Hist E A h s) {op : Op}
    (hop : ∀ p, op ≠ .receive p) : (op.run E A c s).result = .panic ↔ CallCrash E A c s op := by
  cases op with
  | receive p => exact absurd rfl (hop p)
  | initiate v k => exact initiate_iff hA hh v k
  | startSmp k secret question => exact startSmp_iff hC hA hh k secret question
  | query =>
    refine ⟨fun hp => ?_, fun hx => by cases hx⟩
    rw [Op.run, perform_panic] at hp
    exact absurd hp (query_safe A _)
  | send k content =>
    rw [send_iff hC hA hh]
    exact ⟨fun hx => .send hx.1 hx.2, fun hx => by cases hx with | send h1 h2 => exact ⟨h1, h2⟩⟩
  | close k =>
    rw [close_iff hC hA hh]
    exact ⟨.close, fun hx => by cases hx with | close h1 => exact h1⟩
  | abortSmp k =>
    rw [abortSmp_iff hC hA hh]
    exact ⟨fun ⟨_, h1, h2⟩ => .abortSmp h1 h2, fun hx => by cases hx with | abortSmp h1 h2 => exact ⟨_, h1, h2⟩⟩
  | expire t =>
    rw [expire_iff hC hA hh]
    exact ⟨fun ⟨_, _, _, h1, h2, h3⟩ => .expire h1 h2 h3, fun hx => by cases hx with | expire h1 h2 h3 => exact ⟨_, _, _, h1, h2, h3⟩⟩

/-- The assertion made when an OTRv4 session is dropped, src/crypto.rs 677, holds for every session that calls can lead to: the MAC keys
that are still to be revealed are whole keys. -/
theorem C91_drop (hC : SmpCurve E.curve) {h : List Ev} {s : Session} (hh : Hist E A h s) {k : UInt32} {x : Enc4} {smp : SMP4Context}
    (hs : stateOf s k = .encrypted4 x smp) : x.ratchet.reveals.length % 64 = 0 := by
  have := (hist_pts hC.good.field hh k).state
  rw [← stateOf_inst, hs] at this
  exact (this x smp rfl).1.rev

/-- The calls of `C91_violated`. -/
theorem toy_calls :
    ((Op.close 0x102).run ToySession.tinyEnv ToySession.acA (ToySession.callA 36 8) ToySession.a4.after).result = .panic ∧
    ((Op.close 0x102).run ToySession.tinyEnv ToySession.acA (ToySession.callA 37 8) ToySession.a4.after).result = .ok (.user (.reset 0x102)) ∧
    ((Op.initiate .v3 5).run ToySession.tinyEnv ToySession.acA (ToySession.callA 81 8) ToySession.a4.after).result = .panic ∧
    ((Op.startSmp 0x102 [1] []).run ToySession.tinyEnv ToySession.acA { ToySession.callA 1000 8 with keypair := .none } ToySession.a4.after).result = .panic := by
  decide +kernel

/-- Calls of the user that crash.  Alice has an OTRv3 session with Bob.  Ending it crashes if messages have at most 36 bytes, and not if they
have at most 37; opening a conversation with the instance 5 crashes if messages have at most 81 bytes; starting the SMP without a DSA key
crashes. -/
theorem C91_violated : ∃ h, SmpCurve ToySession.tinyEnv.curve ∧ 0x100 ≤ ToySession.acA.tag ∧ Hist ToySession.tinyEnv ToySession.acA h ToySession.a4.after ∧
    CallCrash ToySession.tinyEnv ToySession.acA (ToySession.callA 36 8) ToySession.a4.after (.close 0x102) ∧
    ¬ CallCrash ToySession.tinyEnv ToySession.acA (ToySession.callA 37 8) ToySession.a4.after (.close 0x102) ∧
    CallCrash ToySession.tinyEnv ToySession.acA (ToySession.callA 81 8) ToySession.a4.after (.initiate .v3 5) ∧
    CallCrash ToySession.tinyEnv ToySession.acA { ToySession.callA 1000 8 with keypair := .none } ToySession.a4.after (.startSmp 0x102 [1] []) := by
  obtain ⟨h, hh⟩ := ToySession.hist_a4
  have hC : SmpCurve ToySession.tinyEnv.curve := by
    rw [show ToySession.tinyEnv.curve = toyEnv.curve by simp only [ToySession.tinyEnv]]
    exact toy_smpCurve
  have hA : 0x100 ≤ ToySession.acA.tag := by simp only [ToySession.acA]; decide
  obtain ⟨h1, h2, h3, h4⟩ := toy_calls
  refine ⟨h, hC, hA, hh, (C91_partial hC hA hh (by nofun)).mp h1, fun hx => ?_, (C91_partial hC hA hh (by nofun)).mp h3, (C91_partial hC hA hh (by nofun)).mp h4⟩
  rw [(C91_partial hC hA hh (by nofun)).mpr hx] at h2
  cases h2

end Props
end Otrr
