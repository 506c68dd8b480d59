import Verif.Spec.Order
import Verif.Props.SessionIsolation
import Verif.Props.SessionUse
import Verif.Props.SessionList
/-! C116: nothing depends on the order of the instances. -/

namespace Otrr.Session
open Otrr Otrr.Spec Otrr.Instance
variable {E : Env} {A : Account} {c : Call}

/-- Every tag. -/
abbrev Every : UInt32 → Prop := fun _ => True

theorem perm_of_lookup {m m' : List (UInt32 × Instance)} (h : (m.map Prod.fst).Nodup) (h' : (m'.map Prod.fst).Nodup)
    (hl : ∀ k, lookup m' k = lookup m k) : m.Perm m' := by
  refine (List.perm_ext_iff_of_nodup (List.Nodup.of_map _ h) (List.Nodup.of_map _ h')).mpr ?_
  rintro ⟨k, i⟩
  constructor
  · intro hm
    exact lookup_mem ((hl k).trans (lookup_of_mem h hm))
  · intro hm
    exact lookup_mem ((hl k).symm.trans (lookup_of_mem h' hm))

theorem lookup_of_perm {m m' : List (UInt32 × Instance)} (h : (m.map Prod.fst).Nodup) (hp : m.Perm m') (k : UInt32) : lookup m' k = lookup m k := by
  have h' : (m'.map Prod.fst).Nodup := (hp.map _).nodup_iff.mp h
  cases hl : lookup m k with
  | some i => exact lookup_of_mem h' (hp.mem_iff.mp (lookup_mem hl))
  | none =>
    cases hl' : lookup m' k with
    | none => rfl
    | some i => rw [lookup_of_mem h (hp.mem_iff.mpr (lookup_mem hl'))] at hl; cases hl

theorem Inv.reordered {s s' : Session} (hi : Inv E s) (hr : Reordered s s') : SameOn Every s s' ∧ Inv E s' := by
  have hl : ∀ k, lookup s'.instances k = lookup s.instances k := lookup_of_perm hi.nodup hr.1
  have he : ∀ k, s'.inst k = s.inst k := fun k => by simp only [inst, hl]
  refine ⟨fun k _ => hl k, ?_⟩
  exact ⟨by rw [hl]; exact hi.zero, (hr.1.map _).nodup_iff.mp hi.nodup, by rw [he]; exact hi.plain, fun k => by rw [he]; exact hi.receiver k,
    fun k => by rw [he]; exact hi.ake k, fun k => by rw [he]; exact hi.dake k⟩

theorem same_hasSessions {s s' : Session} (h : SameOn Every s s') : HasSessions s' ↔ HasSessions s := by
  simp only [HasSessions, status, h _ trivial]

theorem same_reportPlain {w w' : World Session} (hi : Inv E w.st) (hi' : Inv E w'.st) (h1 : SameOn Every w.st w'.st)
    (h2 : w'.sent = w.sent) (content : Bytes) : Twin Every (reportPlain A content w) (reportPlain A content w') := by
  obtain ⟨b, hb, hs⟩ := hasSessionsIn_ok hi
  obtain ⟨b', hb', hs'⟩ := hasSessionsIn_ok hi'
  have : b' = b := by
    rw [Bool.eq_iff_iff, hs, hs']
    exact same_hasSessions h1
  subst this
  unfold reportPlain
  rw [StM.bind_run, StM.query, hb, StM.bind_run, StM.query, hb']
  simp only
  split <;> exact ⟨rfl, h1, h2⟩

theorem same_receiveWhole {text : Bytes} {w w' : World Session} (hi : Inv E w.st) (hi' : Inv E w'.st) (h1 : SameOn Every w.st w'.st)
    (h2 : w'.sent = w.sent) : Twin Every (receiveWhole E A c text w) (receiveWhole E A c text w') := by
  have cl : ∀ {f : SessM UserMessage}, Closed Every f → Twin Every (f w) (f w') := fun h => h w w' h1 h2
  unfold receiveWhole
  rw [StM.bind_run, StM.lift, StM.bind_run, StM.lift]
  cases hp : parse E text with
  | err e => exact ⟨rfl, h1, h2⟩
  | panic => exact ⟨rfl, h1, h2⟩
  | ok t =>
    cases t with
    | error e => exact cl (.ite (.bind closed_query fun _ => .pure _) (.pure _))
    | plaintext content => exact same_reportPlain hi hi' h1 h2 content
    | tagged vs content =>
      simp only
      split
      · simp only [StM.bind_run]
        have hq := calm_answerOffer (E := E) (A := A) (c := c) vs w
        have hq' := calm_answerOffer (E := E) (A := A) (c := c) vs w'
        have ht := closed_answerOffer (E := E) (A := A) (c := c) (K := Every) trivial vs w w' h1 h2
        revert hq hq' ht
        cases answerOffer E A c vs w with
        | mk r v =>
          cases answerOffer E A c vs w' with
          | mk r' v' =>
            rintro hq hq' ⟨h3, h4, h5⟩
            cases h3
            cases r with
            | err e => exact ⟨rfl, h4, h5⟩
            | panic => exact ⟨rfl, h4, h5⟩
            | ok u => exact same_reportPlain (hi.calm hq) (hi'.calm hq') h4 h5 content
      · exact same_reportPlain hi hi' h1 h2 content
    | query vs => exact cl (.bind (closed_answerOffer trivial vs) fun _ => .pure _)
    | encoded m =>
      refine cl (.ite (.pure _) (.bind (.lift _) fun _ => .ite (.pure _) (.bind (closed_handOver trivial m) fun h => ?_)))
      exact closed_entry trivial _

theorem same_receive {s s' : Session} (hi : Inv E s) (hi' : Inv E s') (hs : SameOn Every s s') (payload : Bytes) :
    Twin Every (Session.receive E A c payload ⟨s, []⟩) (Session.receive E A c payload ⟨s', []⟩) := by
  unfold Session.receive
  cases hd : disabled A with
  | true => exact ⟨rfl, hs, rfl⟩
  | false =>
    simp only [Bool.false_eq_true, if_false]
    cases hf : matchFragment payload with
    | false => exact same_receiveWhole hi hi' hs rfl
    | true =>
      simp only [if_true]
      unfold receiveFragment
      simp only [StM.bind_run, StM.lift]
      cases hp : parseFragment E.nd payload with
      | err e => exact ⟨rfl, hs, rfl⟩
      | panic => exact ⟨rfl, hs, rfl⟩
      | ok o =>
        cases o with
        | none => exact ⟨rfl, hs, rfl⟩
        | some f =>
          simp only [StM.bind_run, StM.lift]
          cases hg1 : verifyFragment f with
          | false => exact ⟨rfl, hs, rfl⟩
          | true =>
            cases hg2 : (f.receiver == INSTANCE_ZERO || f.receiver == A.tag) with
            | false => exact ⟨rfl, hs, rfl⟩
            | true =>
              simp only [Res.guard, if_true]
              have ht := closed_entry (K := Every) (k := f.sender) trivial (assemble f) ⟨s, []⟩ ⟨s', []⟩ hs rfl
              have hq := calm_assemble (E := E) f f.sender ⟨s, []⟩
              have hq' := calm_assemble (E := E) f f.sender ⟨s', []⟩
              revert ht hq hq'
              cases entry f.sender (assemble f) ⟨s, []⟩ with
              | mk r v =>
                cases entry f.sender (assemble f) ⟨s', []⟩ with
                | mk r' v' =>
                  rintro ⟨h3, h4, h5⟩ hq hq'
                  cases h3
                  cases r with
                  | err e => exact ⟨rfl, h4, h5⟩
                  | panic => exact ⟨rfl, h4, h5⟩
                  | ok ar =>
                    cases ar with
                    | ok content =>
                      simp only
                      cases hnf : matchFragment content with
                      | true => exact ⟨rfl, h4, h5⟩
                      | false => exact same_receiveWhole (hi.calm hq) (hi'.calm hq') h4 h5
                    | err e => cases e <;> exact ⟨rfl, h4, h5⟩
                    | panic => exact ⟨rfl, h4, h5⟩

theorem same_sendOn {s s' : Session} (h : SameOn Every s s') (ht : s'.tagged = s.tagged) (k : UInt32) (content : Bytes) :
    Twin Every (sendOn E A c k content ⟨s, []⟩) (sendOn E A c k content ⟨s', []⟩) ∧
      (sendOn E A c k content ⟨s', []⟩).2.st.tagged = (sendOn E A c k content ⟨s, []⟩).2.st.tagged := by
  simp only [sendOn, StM.bind_run, StM.gets, ht]
  have hc := closed_existing (K := Every) (k := k) trivial (Instance.send E A c s.tagged content) ⟨s, []⟩ ⟨s', []⟩ h rfl
  have h1 := tag_existing k (Instance.send E A c s.tagged content) ⟨s, []⟩
  have h2 := tag_existing k (Instance.send E A c s.tagged content) ⟨s', []⟩
  revert hc h1 h2
  cases existing k (Instance.send E A c s.tagged content) ⟨s, []⟩ with
  | mk r v =>
    cases existing k (Instance.send E A c s.tagged content) ⟨s', []⟩ with
    | mk r' v' =>
      rintro ⟨h3, h4, h5⟩ h1 h2
      cases h3
      have : v'.st.tagged = v.st.tagged := by
        simp only [SameTag] at h1 h2
        rw [h1, h2, ht]
      cases r with
      | err e => exact ⟨⟨rfl, h4, h5⟩, this⟩
      | panic => exact ⟨⟨rfl, h4, h5⟩, this⟩
      | ok x => exact ⟨⟨rfl, h4, h5⟩, rfl⟩

/-- A call other than `expire`. -/
theorem same_run {s s' : Session} (hi : Inv E s) (hr : Reordered s s') {op : Op} (ho : ∀ t, op ≠ .expire t) :
    (op.run E A c s').result = (op.run E A c s).result ∧ (op.run E A c s').sent = (op.run E A c s).sent ∧
      Reordered (op.run E A c s).after (op.run E A c s').after := by
  obtain ⟨hs, hi'⟩ := hi.reordered hr
  have fin : SameOn Every (op.run E A c s).after (op.run E A c s').after → (op.run E A c s').after.tagged = (op.run E A c s).after.tagged →
      Reordered (op.run E A c s).after (op.run E A c s').after :=
    fun h ht => ⟨perm_of_lookup (hi.run op).nodup (hi'.run op).nodup fun k => h k trivial, ht.symm⟩
  have tag : (∀ k t, op ≠ .send k t) → (op.run E A c s').after.tagged = (op.run E A c s).after.tagged := by
    intro h
    rw [tag_run h, tag_run h, hr.2]
  have cl : ∀ {α : Type} {f : SessM α} {g : α → Answer}, Twin Every (f ⟨s, []⟩) (f ⟨s', []⟩) →
      (perform f g s').result = (perform f g s).result ∧ (perform f g s').sent = (perform f g s).sent ∧
        SameOn Every (perform f g s).after (perform f g s').after := by
    intro α f g this
    rw [perform_result, perform_result, perform_after, perform_after, perform_sent, perform_sent, this.result]
    exact ⟨rfl, this.sent, this.same⟩
  cases op with
  | expire t => exact absurd rfl (ho t)
  | receive payload =>
    obtain ⟨h1, h2, h3⟩ := cl (g := Answer.user) (same_receive (A := A) (c := c) hi hi' hs payload)
    exact ⟨h1, h2, fin h3 (tag nofun)⟩
  | initiate v k =>
    obtain ⟨h1, h2, h3⟩ := cl (g := Answer.user) (closed_entry (K := Every) (k := k) trivial (Instance.initiate E A c v) ⟨s, []⟩ ⟨s', []⟩ hs rfl)
    exact ⟨h1, h2, fin h3 (tag nofun)⟩
  | close k =>
    obtain ⟨h1, h2, h3⟩ := cl (g := Answer.user) (closed_existing (K := Every) (k := k) trivial (Instance.reset E A c) ⟨s, []⟩ ⟨s', []⟩ hs rfl)
    exact ⟨h1, h2, fin h3 (tag nofun)⟩
  | query =>
    obtain ⟨h1, h2, h3⟩ := cl (g := fun _ => Answer.done) (closed_query (A := A) (K := Every) ⟨s, []⟩ ⟨s', []⟩ hs rfl)
    exact ⟨h1, h2, fin h3 (tag nofun)⟩
  | startSmp k a b =>
    obtain ⟨h1, h2, h3⟩ := cl (g := fun _ => Answer.done)
      (closed_existing (K := Every) (k := k) trivial (Instance.startSmp E A c a b) ⟨s, []⟩ ⟨s', []⟩ hs rfl)
    exact ⟨h1, h2, fin h3 (tag nofun)⟩
  | abortSmp k =>
    obtain ⟨h1, h2, h3⟩ := cl (g := fun _ => Answer.done)
      (closed_existing (K := Every) (k := k) trivial (Instance.abortSmp E A c) ⟨s, []⟩ ⟨s', []⟩ hs rfl)
    exact ⟨h1, h2, fin h3 (tag nofun)⟩
  | send k content =>
    have tw : Twin Every (Session.send E A c k content ⟨s, []⟩) (Session.send E A c k content ⟨s', []⟩) ∧
        (Session.send E A c k content ⟨s', []⟩).2.st.tagged = (Session.send E A c k content ⟨s, []⟩).2.st.tagged := by
      unfold Session.send
      split
      · exact ⟨⟨rfl, hs, rfl⟩, hr.2.symm⟩
      · have hst : s'.status k = s.status k := by simp only [status, hs k trivial]
        simp only [StM.bind_run, StM.gets, hst]
        cases h : s.status k with
        | none => exact ⟨⟨rfl, hs, rfl⟩, hr.2.symm⟩
        | some st =>
          simp only
          split
          · have hc : Closed Every (do query A; StM.lift (.err .policyRestriction) : SessM (List Bytes)) := .bind closed_query fun _ => .lift _
            refine ⟨hc ⟨s, []⟩ ⟨s', []⟩ hs rfl, ?_⟩
            have hk : Keeps SameTag (do query A; StM.lift (.err .policyRestriction) : SessM (List Bytes)) :=
              .bind tag_pre tag_query fun _ => .lift tag_pre _
            exact (hk ⟨s', []⟩).trans (hr.2.symm.trans (hk ⟨s, []⟩).symm)
          · exact same_sendOn hs hr.2.symm k content
    obtain ⟨h1, h2, h3⟩ := cl (g := Answer.texts) tw.1
    refine ⟨h1, h2, fin h3 ?_⟩
    simp only [Op.run]
    rw [perform_after, perform_after]
    exact tw.2

/-- What was sent before does not matter. -/
theorem expire_prefix (r : Rand) (t : Nat) (i : Instance) (sent : List Bytes) :
    Instance.expire E A c r t ⟨i, sent⟩ = ((Instance.expire E A c r t ⟨i, []⟩).1,
      ⟨(Instance.expire E A c r t ⟨i, []⟩).2.st, sent ++ (Instance.expire E A c r t ⟨i, []⟩).2.sent⟩) := by
  simp only [Instance.expire, StM.bind_run, StM.gets, onState]
  cases PState.expire E t (r.sub 0) c.now i.state with
  | mk x st =>
    cases x with
    | err e => simp
    | panic => simp
    | ok o =>
      cases o with
      | none => simp [StM.pure_run]
      | some m =>
        simp only [StM.bind_run, inject, StM.gets, StM.lift]
        cases Res.assert (i.receiver != 0 && i.receiver == 0 || i.receiver == i.receiver) with
        | err e => simp
        | panic => simp
        | ok u =>
          simp only
          cases encodeMessage i.state.version A.tag i.receiver m with
          | err e => simp
          | panic => simp
          | ok content =>
            simp only
            cases payloads A c i.state.version i.receiver (r.sub 1) content with
            | err e => simp
            | panic => simp
            | ok o => simp [emit]

/-- The instances that expire, each with random numbers of its own. -/
theorem expireAll_exact {t : Nat} (ρ : UInt32 → Rand) (l : List (UInt32 × Instance)) :
    ∀ (n : Nat) (s : Session) (sent : List Bytes), (l.map Prod.fst).Nodup →
      (∀ k i, (k, i) ∈ l → lookup s.instances k = some i) →
      (∀ p (hp : p < l.length), c.rnd.sub (n + p) = ρ l[p].1) →
      (∀ k i, (k, i) ∈ l → (Instance.expire E A c (ρ k) t ⟨i, []⟩).1 = .ok ()) →
      ∃ s', expireAll E A c t n (l.map Prod.fst) ⟨s, sent⟩ =
          (.ok (), ⟨s', sent ++ (l.map fun e => (Instance.expire E A c (ρ e.1) t ⟨e.2, []⟩).2.sent).flatten⟩) ∧
        (∀ k i, (k, i) ∈ l → lookup s'.instances k = some (Instance.expire E A c (ρ k) t ⟨i, []⟩).2.st) ∧
        ∀ k, k ∉ l.map Prod.fst → lookup s'.instances k = lookup s.instances k := by
  induction l with
  | nil => intro n s sent _ _ _ _; exact ⟨s, by simp [expireAll, StM.pure_run], nofun, fun _ _ => rfl⟩
  | cons e l ih =>
    obtain ⟨k, i⟩ := e
    intro n s sent hn hl hr ho
    rw [List.map_cons, List.nodup_cons] at hn
    have hk := hl k i List.mem_cons_self
    have h0 : c.rnd.sub n = ρ k := hr 0 (by simp)
    have hx : Instance.expire E A c (c.rnd.sub n) t ⟨i, sent⟩ = (.ok (), ⟨(Instance.expire E A c (ρ k) t ⟨i, []⟩).2.st,
        sent ++ (Instance.expire E A c (ρ k) t ⟨i, []⟩).2.sent⟩) := by
      rw [expire_prefix, h0, ho k i List.mem_cons_self]
    obtain ⟨s', h1, h2, h3⟩ := ih (n + 1) { s with instances := insertKey s.instances k (Instance.expire E A c (ρ k) t ⟨i, []⟩).2.st }
      (sent ++ (Instance.expire E A c (ρ k) t ⟨i, []⟩).2.sent) hn.2
      (by
        intro k' i' hm
        have hne : k ≠ k' := by
          rintro rfl
          exact hn.1 (List.mem_map.mpr ⟨_, hm, rfl⟩)
        simp [hne, hl k' i' (List.mem_cons_of_mem _ hm)])
      (by
        intro p hp
        have := hr (p + 1) (by simpa using hp)
        rw [show n + 1 + p = n + (p + 1) by omega]
        simpa using this)
      (fun k' i' hm => ho k' i' (List.mem_cons_of_mem _ hm))
    refine ⟨s', ?_, ?_, ?_⟩
    · simp only [List.map_cons, expireAll, StM.bind_run, existing, hk, entry, Option.getD_some, hx]
      rw [h1]
      simp
    · intro k' i' hm
      rcases List.mem_cons.mp hm with hm | hm
      · cases hm
        rw [h3 k hn.1]
        simp
      · exact h2 k' i' hm
    · intro k' hm
      rw [List.map_cons, List.mem_cons, not_or] at hm
      rw [h3 k' hm.2]
      simp [Ne.symm hm.1]

theorem expireAll_each {t : Nat} (ρ : UInt32 → Rand) (l : List (UInt32 × Instance)) :
    ∀ (n : Nat) (s : Session) (sent : List Bytes), (l.map Prod.fst).Nodup →
      (∀ k i, (k, i) ∈ l → lookup s.instances k = some i ∧ i.receiver = k) →
      (∀ p (hp : p < l.length), c.rnd.sub (n + p) = ρ l[p].1) →
      (expireAll E A c t n (l.map Prod.fst) ⟨s, sent⟩).1 ≠ .panic →
      ∀ k i, (k, i) ∈ l → (Instance.expire E A c (ρ k) t ⟨i, []⟩).1 = .ok () := by
  induction l with
  | nil => intro n s sent _ _ _ _ k i h; cases h
  | cons e l ih =>
    obtain ⟨k, i⟩ := e
    intro n s sent hn hl hr hp
    rw [List.map_cons, List.nodup_cons] at hn
    obtain ⟨hk, hrec⟩ := hl k i List.mem_cons_self
    have h0 : c.rnd.sub n = ρ k := hr 0 (by simp)
    simp only [List.map_cons, expireAll, StM.bind_run, existing, hk, entry, Option.getD_some] at hp
    have ok : (Instance.expire E A c (ρ k) t ⟨i, []⟩).1 = .ok () := by
      rw [expire_prefix, h0] at hp
      rcases Props.expire_step (E := E) (A := A) (c := c) (rnd := ρ k) (t := t) (sent := []) hrec with ⟨_, hx⟩ | ⟨_, hx | ⟨_, _, _, _, hx⟩⟩
      · rw [hx]
      · rw [hx] at hp
        exact absurd rfl hp
      · rw [hx]
    rw [expire_prefix, h0, ok] at hp
    intro k' i' hm
    rcases List.mem_cons.mp hm with hm | hm
    · cases hm
      exact ok
    · refine ih (n + 1) _ _ hn.2 ?_ ?_ hp k' i' hm
      · intro k' i' hm
        have hne : k ≠ k' := by
          rintro rfl
          exact hn.1 (List.mem_map.mpr ⟨_, hm, rfl⟩)
        have := hl k' i' (List.mem_cons_of_mem _ hm)
        simp [hne, this]
      · intro p hp
        have := hr (p + 1) (by simpa using hp)
        rw [show n + 1 + p = n + (p + 1) by omega]
        simpa using this

/-- The random numbers dealt out in the order of the other list. -/
def redeal (r : Rand) (ks ks' : List UInt32) : Rand where
  bytes site n := match site with
    | [] => r.bytes [] n
    | p :: site => r.bytes (ks.idxOf (ks'[p]?.getD 0) :: site) n
  length_bytes site n := by
    cases site <;> exact r.length_bytes _ _

theorem same_expire {s s' : Session} (hi : Inv E s) (hr : Reordered s s') {t : Nat} (ho : ((Op.expire t).run E A c s).result ≠ .panic) :
    ∃ rnd, let c' := { c with rnd := rnd }
      ((Op.expire t).run E A c' s').result = ((Op.expire t).run E A c s).result ∧
      ((Op.expire t).run E A c s).sent.Perm ((Op.expire t).run E A c' s').sent ∧
      Reordered ((Op.expire t).run E A c s).after ((Op.expire t).run E A c' s').after := by
  obtain ⟨hs, hi'⟩ := hi.reordered hr
  let ks := s.instances.map Prod.fst
  let ks' := s'.instances.map Prod.fst
  let ρ : UInt32 → Rand := fun k => c.rnd.sub (ks.idxOf k)
  let c' : Call := { c with rnd := redeal c.rnd ks ks' }
  refine ⟨redeal c.rnd ks ks', ?_⟩
  have hl : ∀ k i, (k, i) ∈ s.instances → lookup s.instances k = some i ∧ i.receiver = k := by
    intro k i hm
    have := lookup_of_mem hi.nodup hm
    exact ⟨this, by rw [← inst_of_lookup this]; exact hi.receiver k⟩
  have hl' : ∀ k i, (k, i) ∈ s'.instances → lookup s'.instances k = some i := fun k i hm => lookup_of_mem hi'.nodup hm
  have r1 : ∀ p (hp : p < s.instances.length), c.rnd.sub (0 + p) = ρ s.instances[p].1 := by
    intro p hp
    have : ks.idxOf s.instances[p].1 = p := by
      have := List.Nodup.idxOf_getElem hi.nodup p (by simpa using hp)
      simpa [ks] using this
    simp only [ρ, this, Nat.zero_add]
  have r2 : ∀ p (hp : p < s'.instances.length), c'.rnd.sub (0 + p) = ρ s'.instances[p].1 := by
    intro p hp
    have : ks'[p]?.getD 0 = s'.instances[p].1 := by simp [ks', hp]
    rw [Nat.zero_add]
    simp only [ρ, ← this]
    rfl
  have e1 : ∀ (c : Call) (s : Session), expire E A c t ⟨s, []⟩ = expireAll E A c t 0 (s.instances.map Prod.fst) ⟨s, []⟩ := fun _ _ => rfl
  have ok : ∀ k i, (k, i) ∈ s.instances → (Instance.expire E A c (ρ k) t ⟨i, []⟩).1 = .ok () := by
    refine expireAll_each ρ s.instances 0 s [] hi.nodup hl r1 ?_
    intro h
    rw [Op.run, perform_result, e1, h] at ho
    exact ho rfl
  obtain ⟨s₁, h1, h2, h3⟩ := expireAll_exact ρ s.instances 0 s [] hi.nodup (fun k i h => (hl k i h).1) r1 ok
  obtain ⟨s₁', h1', h2', h3'⟩ := expireAll_exact (c := c') ρ s'.instances 0 s' [] hi'.nodup hl' r2
    (fun k i h => ok k i (hr.1.mem_iff.mpr h))
  have a1 : (Op.expire t).run E A c s = ⟨.ok .done, s₁, (s.instances.map fun e => (Instance.expire E A c (ρ e.1) t ⟨e.2, []⟩).2.sent).flatten⟩ := by
    simp only [Op.run, perform, e1, h1, List.nil_append]
  have a2 : (Op.expire t).run E A c' s' = ⟨.ok .done, s₁', (s'.instances.map fun e => (Instance.expire E A c' (ρ e.1) t ⟨e.2, []⟩).2.sent).flatten⟩ := by
    simp only [Op.run, perform, e1, h1', List.nil_append]
  have i1 := hi.run (A := A) (c := c) (.expire t)
  have i2 := hi'.run (A := A) (c := c') (.expire t)
  have t1 := tag_run (E := E) (A := A) (c := c) (s := s) (op := .expire t) nofun
  have t2 := tag_run (E := E) (A := A) (c := c') (s := s') (op := .expire t) nofun
  show ((Op.expire t).run E A c' s').result = _ ∧ List.Perm _ ((Op.expire t).run E A c' s').sent ∧ Reordered _ ((Op.expire t).run E A c' s').after
  rw [a2] at i2 t2 ⊢
  rw [a1] at i1 t1 ⊢
  refine ⟨rfl, ?_, ?_, ?_⟩
  · exact (hr.1.map _).flatten
  · refine perm_of_lookup i1.nodup i2.nodup fun k => ?_
    cases hk : lookup s.instances k with
    | some i =>
      have hm := lookup_mem hk
      rw [h2 k i hm, h2' k i (hr.1.mem_iff.mp hm)]
      rfl
    | none =>
      have nk : ∀ {m : List (UInt32 × Instance)}, (m.map Prod.fst).Nodup → lookup m k = .none → k ∉ m.map Prod.fst := by
        intro m hn hl hm
        obtain ⟨⟨k', i⟩, hm', rfl⟩ := List.mem_map.mp hm
        rw [lookup_of_mem hn hm'] at hl
        cases hl
      have hk' : lookup s'.instances k = .none := (hs k trivial).trans hk
      rw [h3 k (nk hi.nodup hk), h3' k (nk hi'.nodup hk'), hk, hk']
  · simp only at t1 t2
    rw [t1, t2, hr.2]

end Otrr.Session

namespace Otrr.Props
open Otrr Otrr.Spec Otrr.Session
variable {E : Env} {A : Account} {c : Call}

theorem _root_.Otrr.Spec.Reordered.symm {s s' : Session} (h : Reordered s s') : Reordered s' s := ⟨h.1.symm, h.2.symm⟩
theorem _root_.Otrr.Spec.Reordered.trans {s s' s'' : Session} (h : Reordered s s') (h' : Reordered s' s'') : Reordered s s'' := ⟨h.1.trans h'.1, h.2.trans h'.2⟩

/-- C116: in whatever order the instances are kept, a call other than `expire` returns the same, sends the same messages in the same order, and leaves
the same instances. -/
theorem C116_call {h : List Ev} {s s' : Session} (hh : Hist E A h s) (hr : Reordered s s') {op : Op} (ho : ∀ t, op ≠ .expire t) :
    (op.run E A c s').result = (op.run E A c s).result ∧ (op.run E A c s').sent = (op.run E A c s).sent ∧
      Reordered (op.run E A c s).after (op.run E A c s').after := same_run (hist_inv hh) hr ho

/-- C116: the same for `expire`, except that the order decides in which order the messages are sent, and which instance gets which random numbers. -/
theorem C116_expire {h : List Ev} {s s' : Session} (hh : Hist E A h s) (hr : Reordered s s') {t : Nat}
    (ho : ((Op.expire t).run E A c s).result ≠ .panic) :
    ∃ rnd, let c' := { c with rnd := rnd }
      ((Op.expire t).run E A c' s').result = ((Op.expire t).run E A c s).result ∧
      ((Op.expire t).run E A c s).sent.Perm ((Op.expire t).run E A c' s').sent ∧
      Reordered ((Op.expire t).run E A c s).after ((Op.expire t).run E A c' s').after := same_expire (hist_inv hh) hr ho

/-- C116: what a session tells about its instances does not depend on their order; only the order of the list of instances does. -/
theorem C116_answers {h : List Ev} {s s' : Session} (hh : Hist E A h s) (hr : Reordered s s') :
    s.tags.Perm s'.tags ∧ ∀ k, s'.status k = s.status k ∧ s'.ssid k = s.ssid k := by
  obtain ⟨hs, _⟩ := (hist_inv hh).reordered hr
  refine ⟨(hr.1.map _).filter _, fun k => ?_⟩
  simp only [Session.status, Session.ssid, hs k trivial, and_self]

/-- C116, for histories: whatever orders the instances are put in during a history, there is a history of the model, with its own order, that consists of
the same calls with the same results and messages, and ends with the same instances. -/
theorem C116_history {h : List Ev} {s : Session} (hh : AnyOrder E A h s) :
    ∃ h' s', Hist E A h' s' ∧ Reordered s s' ∧ List.Forall₂ SameEv h h' := by
  induction hh with
  | new => exact ⟨[], _, .new, ⟨.refl _, rfl⟩, .nil⟩
  | reorder _ hr ih =>
    obtain ⟨h', s', h1, h2, h3⟩ := ih
    exact ⟨h', s', h1, hr.symm.trans h2, h3⟩
  | @step h s op c e _ he hp ih =>
    obtain ⟨h', s', h1, h2, h3⟩ := ih
    subst he
    have hi := ((hist_inv h1).reordered h2.symm).2
    by_cases ho : ∀ t, op ≠ .expire t
    · obtain ⟨r1, r2, r3⟩ := same_run (A := A) (c := c) hi h2 ho
      have := Hist.step h1 (op := op) (c := c) rfl (by rw [r1]; exact hp)
      refine ⟨_, _, this, r3, List.rel_append h3 ?_⟩
      rw [r1, r2]
      exact .cons (.same _) .nil
    · cases op with
      | expire t =>
        obtain ⟨rnd, r1, r2, r3⟩ := same_expire (A := A) (c := c) hi h2 hp
        have := Hist.step h1 (op := .expire t) (c := { c with rnd := rnd }) rfl (by rw [r1]; exact hp)
        refine ⟨_, _, this, r3, List.rel_append h3 ?_⟩
        rw [r1]
        exact .cons (.expire t c rnd _ r2) .nil
      | _ => exact absurd nofun ho

/-- Two instances in either order. -/
example : ∃ h s', Hist ToySession.tinyEnv ToySession.acA h ToySession.i3.after ∧ Reordered ToySession.i3.after s' ∧ s' ≠ ToySession.i3.after ∧
    s'.tags = [0x103, 0x102] := by
  obtain ⟨h, hh⟩ := hist_i3
  have ht := tags_run.2
  refine ⟨h, { ToySession.i3.after with instances := ToySession.i3.after.instances.reverse }, hh, ⟨(List.reverse_perm _).symm, rfl⟩, ?_, ?_⟩
  · intro he
    have := congrArg Session.tags he
    simp only [Session.tags, List.map_reverse, List.filter_reverse] at this
    simp only [Session.tags] at ht
    rw [ht] at this
    revert this
    decide
  · simp only [Session.tags] at ht
    simp only [Session.tags, List.map_reverse, List.filter_reverse, ht]
    rfl

end Otrr.Props
