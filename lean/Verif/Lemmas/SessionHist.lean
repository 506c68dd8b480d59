import Verif.Lemmas.SessionStep
/-!
Calls of the API of a session, and histories.
-/

namespace Otrr
open Spec

theorem guard_true {b : Bool} {e : OTRError} {u : Unit} (h : Res.guard b e = .ok u) : b = true := by
  unfold Res.guard at h
  split at h
  · assumption
  · cases h

theorem lookup_of_mem {κ α : Type} [DecidableEq κ] {m : List (κ × α)} {k : κ} {a : α}
    (hn : (m.map Prod.fst).Nodup) (h : (k, a) ∈ m) : lookup m k = some a := by
  induction m with
  | nil => simp at h
  | cons e m ih =>
    obtain ⟨k0, a0⟩ := e
    rw [List.map_cons, List.nodup_cons] at hn
    rcases List.mem_cons.mp h with e | h
    · cases e; simp [lookup]
    · have : k0 ≠ k := by
        intro e
        subst e
        exact hn.1 (List.mem_map.mpr ⟨_, h, rfl⟩)
      simp only [lookup, if_neg this]
      exact ih hn.2 h

namespace Session
variable {E : Env} {A : Account} {c : Call}

/-- The instance filed under a tag, or the one that would be made. -/
def inst (s : Session) (k : UInt32) : Instance := (lookup s.instances k).getD (.new k)

theorem status_inst {s : Session} {k : UInt32} {st : Status} (h : s.status k = some st) : (s.inst k).status = st := by
  unfold status at h
  unfold inst
  cases hl : lookup s.instances k with
  | none => simp [hl] at h
  | some i => simpa [hl] using h

theorem inst_of_lookup {s : Session} {k : UInt32} {i : Instance} (h : lookup s.instances k = some i) : s.inst k = i := by
  simp [inst, h]

/-- What holds between the sessions before and after a call. -/
structure Rel (R : Instance → Instance → Prop) (s s' : Session) : Prop where
  keys : ∀ k, (lookup s.instances k).isSome → (lookup s'.instances k).isSome
  nodup : (s.instances.map Prod.fst).Nodup → (s'.instances.map Prod.fst).Nodup
  each : ∀ k, R (s.inst k) (s'.inst k)

theorem rel_pre {R : Instance → Instance → Prop} (hR : Pre R) : Pre (Rel R) :=
  ⟨fun _ => ⟨fun _ h => h, id, fun _ => hR.refl _⟩,
    fun h h' => ⟨fun k hk => h'.keys k (h.keys k hk), h'.nodup ∘ h.nodup, fun k => hR.trans (h.each k) (h'.each k)⟩⟩

theorem inst_entry (k j : UInt32) (f : InstM α) (w : World Session) :
    (entry k f w).2.st.inst j = if k = j then (f ⟨w.st.inst k, w.sent⟩).2.st else w.st.inst j := by
  simp only [entry, inst, lookup_insertKey]
  split
  · rename_i h; subst h; rfl
  · rfl

theorem entry_fst (k : UInt32) (f : InstM α) (w : World Session) :
    (entry k f w).1 = (f ⟨w.st.inst k, w.sent⟩).1 := rfl

theorem entry_keys (k : UInt32) (f : InstM α) (w : World Session) (j : UInt32)
    (h : (lookup w.st.instances j).isSome) : (lookup (entry k f w).2.st.instances j).isSome := by
  simp only [entry, lookup_insertKey]
  split
  · rfl
  · exact h

theorem entry_nodup (k : UInt32) (f : InstM α) (w : World Session)
    (h : (w.st.instances.map Prod.fst).Nodup) : ((entry k f w).2.st.instances.map Prod.fst).Nodup :=
  insertKey_nodup h _ _

theorem keeps_entry {R : Instance → Instance → Prop} (hR : Pre R) {f : InstM α} (hf : Keeps R f) (k : UInt32) :
    Keeps (Rel R) (entry k f) := by
  intro w
  refine ⟨entry_keys k f w, entry_nodup k f w, fun j => ?_⟩
  rw [inst_entry]
  split
  · rename_i h; subst h; exact hf ⟨w.st.inst k, w.sent⟩
  · exact hR.refl _

theorem keeps_existing {R : Instance → Instance → Prop} (hR : Pre R) {f : InstM α} (hf : Keeps R f) (k : UInt32) :
    Keeps (Rel R) (existing k f) := by
  intro w
  unfold existing
  split
  · exact (rel_pre hR).refl _
  · exact keeps_entry hR hf k w

/-- Calls without the end of a key exchange. -/
abbrev Calm (E : Env) : Session → Session → Prop := Rel (Quiet E)

theorem calm_pre (E : Env) : Pre (Calm E) := rel_pre (quiet_pre E)

theorem calm_query : Keeps (Calm E) (query A) := by
  have hR := calm_pre E
  unfold query
  exact .ite (.lift hR _) (.bind hR (.lift hR _) fun _ => .emit hR _)

theorem calm_initiate (v : Version) (k : UInt32) : Keeps (Calm E) (initiate E A c v k) :=
  keeps_entry (quiet_pre E) (Instance.quiet_initiate A c v) k

theorem calm_sendOn (k : UInt32) (content : Bytes) : Keeps (Calm E) (sendOn E A c k content) := by
  have hR := calm_pre E
  refine .bind hR (.gets hR _) fun t => .bind hR (keeps_existing (quiet_pre E) (Instance.quiet_send A c t content) k) fun x => ?_
  refine .bind hR (fun w => ?_) fun _ => .pure hR _
  exact ⟨fun _ h => h, id, fun _ => (quiet_pre E).refl _⟩

theorem calm_send (k : UInt32) (content : Bytes) : Keeps (Calm E) (send E A c k content) := by
  have hR := calm_pre E
  refine .ite (.pure hR _) (.bind hR (.gets hR _) fun st => ?_)
  cases st with
  | none => exact .lift hR _
  | some st => exact .ite (.bind hR calm_query fun _ => .lift hR _) (calm_sendOn k content)

theorem calm_close (k : UInt32) : Keeps (Calm E) (close E A c k) :=
  keeps_existing (quiet_pre E) (Instance.quiet_reset A c) k

theorem calm_startSmp (k : UInt32) (secret q : Bytes) : Keeps (Calm E) (startSmp E A c k secret q) :=
  keeps_existing (quiet_pre E) (Instance.quiet_startSmp A c secret q) k

theorem calm_abortSmp (k : UInt32) : Keeps (Calm E) (abortSmp E A c k) :=
  keeps_existing (quiet_pre E) (Instance.quiet_abortSmp A c) k

theorem calm_expireAll (t n : Nat) (ks : List UInt32) : Keeps (Calm E) (expireAll E A c t n ks) := by
  induction ks generalizing n with
  | nil => exact .pure (calm_pre E) _
  | cons k ks ih =>
    exact .bind (calm_pre E) (keeps_existing (quiet_pre E) (Instance.quiet_expire A c _ t) k) fun _ => ih _

theorem calm_expire (t : Nat) : Keeps (Calm E) (expire E A c t) :=
  .bind (calm_pre E) (.gets (calm_pre E) _) fun _ => calm_expireAll _ _ _

theorem calm_reportPlain (content : Bytes) : Keeps (Calm E) (reportPlain A content) := by
  have hR := calm_pre E
  exact .bind hR (.query hR _) fun _ => .ite (.pure hR _) (.pure hR _)

theorem calm_answerOffer (vs : List Version) : Keeps (Calm E) (answerOffer E A c vs) := by
  have hR := calm_pre E
  unfold answerOffer
  split
  · exact .bind hR (calm_initiate _ _) fun _ => .pure hR _
  · exact .pure hR _

theorem calm_assemble (f : Fragment) (k : UInt32) : Keeps (Calm E) (entry k (assemble f)) :=
  keeps_entry (quiet_pre E) (fun _ => ⟨⟨rfl, id, id⟩, .refl _⟩) k

/-- The invariant of sessions. -/
structure Inv (E : Env) (s : Session) : Prop where
  zero : (lookup s.instances INSTANCE_ZERO).isSome
  nodup : (s.instances.map Prod.fst).Nodup
  plain : (s.inst INSTANCE_ZERO).state = .plaintext
  receiver : ∀ k, (s.inst k).receiver = k
  ake : ∀ k, AkeOk E (s.inst k).ake
  dake : ∀ k, DakeOk E (s.inst k).dake

theorem Inv.calm {s s' : Session} (h : Inv E s) (hr : Calm E s s') : Inv E s' where
  zero := hr.keys _ h.zero
  nodup := hr.nodup h.nodup
  plain := by
    have := (hr.each INSTANCE_ZERO).calm
    rw [h.plain] at this
    exact this.plaintext
  receiver k := (hr.each k).receiver.trans (h.receiver k)
  ake k := (hr.each k).ake (h.ake k)
  dake k := (hr.each k).dake (h.dake k)

theorem inv_new (E : Env) : Inv E .new where
  zero := rfl
  nodup := by simp [new]
  plain := rfl
  receiver k := by
    simp only [new, inst, lookup]
    split
    · rename_i h; subst h; rfl
    · rfl
  ake k := by
    refine ⟨[], ?_⟩
    simp only [new, inst, lookup]
    split <;> exact .start
  dake k := by
    refine ⟨[], ?_⟩
    simp only [new, inst, lookup]
    split <;> exact .start

/-- The assertions of `has_sessions` hold. -/
theorem hasSessionsIn_ok {s : Session} (h : Inv E s) :
    ∃ b, hasSessionsIn s.instances = .ok b ∧ (b = true ↔ HasSessions s) := by
  have key : ∀ l : List (UInt32 × Instance), (∀ k i, (k, i) ∈ l → lookup s.instances k = some i) →
      ∃ b, hasSessionsIn l = .ok b ∧ (b = true ↔ ∃ k i, (k, i) ∈ l ∧ (i.status = .encrypted ∨ i.status = .finished)) := by
    intro l
    induction l with
    | nil => intro _; exact ⟨false, rfl, by simp⟩
    | cons x l ih =>
      obtain ⟨k, i⟩ := x
      intro hl
      obtain ⟨b, hb, hiff⟩ := ih fun k i hm => hl k i (List.mem_cons_of_mem _ hm)
      have hk := inst_of_lookup (hl k i (List.mem_cons_self ..))
      have h1 := h.receiver k
      rw [hk] at h1
      have h2 : (k != INSTANCE_ZERO || i.status == .plaintext) = true := by
        by_cases h0 : k = INSTANCE_ZERO
        · have := h.plain
          rw [← h0, hk] at this
          simp [Instance.status, this, PState.status]
        · simp [h0]
      rw [hasSessionsIn]
      simp only [h1, beq_self_eq_true, h2]
      by_cases hs : i.status = .encrypted ∨ i.status = .finished
      · refine ⟨true, ?_, ?_⟩
        · exact if_pos hs
        · simp only [true_iff]
          exact ⟨k, i, List.mem_cons_self .., hs⟩
      · refine ⟨b, (if_neg hs).trans hb, hiff.trans ⟨?_, ?_⟩⟩
        · rintro ⟨k', i', hm, h'⟩
          exact ⟨k', i', List.mem_cons_of_mem _ hm, h'⟩
        · rintro ⟨k', i', hm, h'⟩
          rcases List.mem_cons.mp hm with e | hm
          · cases e; exact absurd h' hs
          · exact ⟨k', i', hm, h'⟩
  obtain ⟨b, hb, hiff⟩ := key s.instances fun k i hm => lookup_of_mem h.nodup hm
  refine ⟨b, hb, hiff.trans ⟨?_, ?_⟩⟩
  · rintro ⟨k, i, hm, hs⟩
    refine ⟨k, ?_⟩
    simp only [status, lookup_of_mem h.nodup hm, Option.map_some, Option.some.injEq]
    exact hs
  · rintro ⟨k, hs⟩
    simp only [status, Option.map_eq_some_iff] at hs
    rcases hs with ⟨i, h1, h2⟩ | ⟨i, h1, h2⟩
    · exact ⟨k, i, lookup_mem h1, .inl h2⟩
    · exact ⟨k, i, lookup_mem h1, .inr h2⟩

/-- What an encoded message does that ends a key exchange. -/
structure Ends (E : Env) (A : Account) (s : Session) (m : EncodedMessage) (r : Res UserMessage) (s' : Session)
    (ssid : Bytes) : Prop where
  header : verifyHeader A m = .ok ()
  allowed : allowed A m.version = true
  sender : m.sender ≠ 0
  has : (s'.inst m.sender).state.ssid? = some ssid
  result : r = .ok (.sessionStarted m.sender) ∨ r = .panic
  version : (s'.inst m.sender).state.version = m.version
  completes : Completes E A m ssid

/-- Changes to sessions by a call. -/
def Changes (E : Env) (A : Account) (s : Session) (P : EncodedMessage → Prop) (r : Res UserMessage) (s' : Session) : Prop :=
  Calm E s s' ∨ ∃ m ssid, P m ∧ Rel (Evolves E) s s' ∧
    (∀ k, k ≠ m.sender → NoKex (s.inst k).state (s'.inst k).state) ∧ Ends E A s m r s' ssid

theorem handOver_ok {s : Session} {sent : List Bytes} (hi : Inv E s) (m : EncodedMessage) :
    ∃ h, handOver m ⟨s, sent⟩ = (.ok h, ⟨s, sent⟩) ∧ (∀ a, h.1 = some a → AkeOk E a) ∧ (∀ d, h.2 = some d → DakeOk E d) := by
  obtain ⟨z, hz⟩ := Option.isSome_iff_exists.mp hi.zero
  have hr := hi.receiver INSTANCE_ZERO
  have ha := hi.ake INSTANCE_ZERO
  have hd := hi.dake INSTANCE_ZERO
  rw [inst_of_lookup hz] at hr ha hd
  simp only [handOver, StM.query, hz, hr, if_true]
  obtain ⟨v, snd, rcv, msg⟩ := m
  have other : ∃ h : Option AKEState × Option DAKEState,
      ((Res.ok (none, none) : Res (Option AKEState × Option DAKEState)), (⟨s, sent⟩ : World Session)) = (.ok h, ⟨s, sent⟩) ∧
      (∀ a, h.1 = some a → AkeOk E a) ∧ (∀ d, h.2 = some d → DakeOk E d) :=
    ⟨(.none, .none), rfl, nofun, nofun⟩
  cases v with
  | v3 =>
    cases msg with
    | dhKey msg =>
      simp only [Res.bind_ok]
      cases hs : z.ake with
      | awaitingDHKey kp r =>
        refine ⟨(some (.awaitingDHKey kp r), .none), rfl, ?_, nofun⟩
        rintro a h
        cases h
        rw [← hs]; exact ha
      | _ => exact other
    | _ => exact other
  | v4 =>
    cases msg with
    | authR msg =>
      simp only [Res.bind_ok]
      cases hs : z.dake with
      | awaitingAuthR st =>
        refine ⟨(.none, some (.awaitingAuthR st)), rfl, nofun, ?_⟩
        rintro a h
        cases h
        rw [← hs]; exact hd
      | _ => exact other
    | _ => exact other
  | none => exact other
  | unsupported v => exact other

theorem quiet_adopt {h : Option AKEState × Option DAKEState} (ha : ∀ a, h.1 = some a → AkeOk E a)
    (hd : ∀ d, h.2 = some d → DakeOk E d) : Keeps (Quiet E) (adopt h) := by
  have hR := quiet_pre E
  unfold adopt
  split
  · exact .pure hR _
  · rename_i a d _
    refine .bind hR (.gets hR _) fun _ => .bind hR (.lift hR _) fun _ w => ⟨⟨rfl, ?_, ?_⟩, .refl _⟩
    · intro h0
      cases a with
      | none => exact h0
      | some a => exact ha a rfl
    · intro h0
      cases d with
      | none => exact h0
      | some d => exact hd d rfl

theorem secured_adopt {f : InstM Unit} (hf : Keeps (Quiet E) f) (m : EncodedMessage) (w : World Instance) :
    let x := (do f; Instance.handle E A c m : InstM UserMessage) w
    Evolves E w.st x.2.st ∧ (NoKex w.st.state x.2.st.state ∨ Instance.Secured E A m w.st x.1 x.2.st) := by
  have hq := hf w
  intro x
  have hev : Evolves E w.st x.2.st :=
    Keeps.bind (evolves_pre E) hf.evolves (fun _ => Instance.evolves_handle m) w
  refine ⟨hev, ?_⟩
  have hx : x = (do f; Instance.handle E A c m : InstM UserMessage) w := rfl
  rw [StM.bind_run] at hx
  cases hr : f w with
  | mk r w1 =>
    rw [hr] at hx hq
    cases r with
    | err e => rw [hx]; exact .inl hq.calm
    | panic => rw [hx]; exact .inl hq.calm
    | ok u =>
      simp only [Instance.handle, StM.bind_run] at hx
      have hq2 := Instance.quiet_clearAssembler (E := E) m.version w1
      cases hr2 : Instance.clearAssembler m.version w1 with
      | mk r2 w2 =>
        rw [hr2] at hx hq2
        have hq := (quiet_pre E).trans hq hq2
        cases r2 with
        | err e => rw [hx]; exact .inl hq.calm
        | panic => rw [hx]; exact .inl hq.calm
        | ok u2 =>
          simp only at hx
          rcases Instance.state_process (E := E) (A := A) (c := c) m w2 with h | ⟨ssid, h1, h2, h3, h4⟩
          · rw [hx]; exact .inl (hq.calm.trans h)
          · rw [hx]
            refine .inr ⟨ssid, h1, ?_, h3, fun ha hd => h4 (hq.ake ha) (hq.dake hd)⟩
            rw [hq.receiver] at h2
            exact h2

theorem changes_receiveEncoded {w : World Session} (hi : Inv E w.st) {m : EncodedMessage} (hm : m.sender ≠ 0) :
    Changes E A w.st (· = m) (receiveEncoded E A c m w).1 (receiveEncoded E A c m w).2.st := by
  have hR := calm_pre E
  unfold receiveEncoded
  simp only [StM.bind_run, StM.lift]
  cases hv : verifyHeader A m with
  | err e => exact .inl (hR.refl _)
  | panic => exact .inl (hR.refl _)
  | ok u =>
    simp only
    cases hal : allowed A m.version with
    | false => exact .inl (hR.refl _)
    | true =>
      simp only [Bool.not_true, Bool.false_eq_true, if_false]
      obtain ⟨h, hh, ha, hd⟩ := handOver_ok (sent := w.sent) hi m
      rw [StM.bind_run, hh]
      simp only
      have hq := quiet_adopt ha hd
      have hsec := secured_adopt (A := A) (c := c) hq m ⟨w.st.inst m.sender, w.sent⟩
      simp only at hsec
      generalize hf : (do adopt h; Instance.handle E A c m : InstM UserMessage) = f at hsec ⊢
      obtain ⟨hev, hsec⟩ := hsec
      rcases hsec with hn | ⟨ssid, h1, h2, h3, h4⟩
      · left
        refine ⟨entry_keys _ _ _, entry_nodup _ _ _, fun j => ?_⟩
        rw [inst_entry]
        split
        · rename_i e; subst e; exact ⟨hev, hn⟩
        · exact (quiet_pre E).refl _
      · right
        refine ⟨m, ssid, rfl, ⟨entry_keys _ _ _, entry_nodup _ _ _, fun j => ?_⟩, fun j hj => ?_, hv, hal, hm, ?_, ?_, ?_, ?_⟩
        · rw [inst_entry]
          split
          · rename_i e; subst e; exact hev
          · exact (evolves_pre E).refl _
        · rw [inst_entry, if_neg (Ne.symm hj)]
          exact .refl _
        · rw [inst_entry, if_pos rfl]; exact h1
        · rw [entry_fst]
          rw [hi.receiver] at h2
          exact h2
        · rw [inst_entry, if_pos rfl]; exact h3
        · exact h4 (hi.ake _) (hi.dake _)

theorem changes_receiveWhole {w : World Session} (hi : Inv E w.st) (payload : Bytes) :
    Changes E A w.st (fun m => parse E payload = .ok (.encoded m)) (receiveWhole E A c payload w).1
      (receiveWhole E A c payload w).2.st := by
  have hR := calm_pre E
  have hc : ∀ {f : SessM UserMessage}, Keeps (Calm E) f → ∀ P, Changes E A w.st P (f w).1 (f w).2.st :=
    fun h P => .inl (h w)
  unfold receiveWhole
  rw [StM.bind_run, StM.lift]
  cases hp : parse E payload with
  | err e => exact .inl (hR.refl _)
  | panic => exact .inl (hR.refl _)
  | ok t =>
    cases t with
    | error e => exact hc (.ite (.bind hR calm_query fun _ => .pure hR _) (.pure hR _)) _
    | plaintext content => exact hc (calm_reportPlain _) _
    | tagged vs content =>
      exact hc (.ite (.bind hR (calm_answerOffer vs) fun _ => calm_reportPlain _) (calm_reportPlain _)) _
    | query vs => exact hc (.bind hR (calm_answerOffer vs) fun _ => .pure hR _) _
    | encoded m =>
      simp only
      split
      · exact hc (.pure hR _) _
      · rename_i h0
        rcases changes_receiveEncoded (A := A) (c := c) hi h0 with h | ⟨m', ssid, rfl, h⟩
        · exact .inl h
        · exact .inr ⟨_, ssid, rfl, h⟩

theorem Changes.after {s s1 s' : Session} {P Q : EncodedMessage → Prop} {r : Res UserMessage} (h : Calm E s s1)
    (hPQ : ∀ m, P m → Q m) (h' : Changes E A s1 P r s') : Changes E A s Q r s' := by
  rcases h' with h' | ⟨m, ssid, hp, hr, ho, he⟩
  · exact .inl ((calm_pre E).trans h h')
  · refine .inr ⟨m, ssid, hPQ m hp, (rel_pre (evolves_pre E)).trans ⟨h.keys, h.nodup, fun k => (h.each k).1⟩ hr,
      fun k hk => (h.each k).calm.trans (ho k hk), ⟨he.1, he.2, he.3, he.4, he.5, he.6, he.7⟩⟩

theorem changes_receive {w : World Session} (hi : Inv E w.st) (payload : Bytes) :
    Changes E A w.st (Delivers E A w.st payload) (receive E A c payload w).1 (receive E A c payload w).2.st := by
  have hR := calm_pre E
  have hc : ∀ {f : SessM UserMessage}, Keeps (Calm E) f → ∀ P, Changes E A w.st P (f w).1 (f w).2.st :=
    fun h P => .inl (h w)
  unfold receive
  split
  · exact hc (.pure hR _) _
  · split
    · rename_i hf
      unfold receiveFragment
      rw [StM.bind_run, StM.lift]
      cases hp : parseFragment E.nd payload with
      | err e => exact .inl (hR.refl _)
      | panic => exact .inl (hR.refl _)
      | ok o =>
        cases o with
        | none => exact .inl (hR.refl _)
        | some f =>
          simp only [StM.bind_run, StM.lift]
          cases hg1 : Res.guard (verifyFragment f) .protocolViolation with
          | err e => exact .inl (hR.refl _)
          | panic => exact .inl (hR.refl _)
          | ok u =>
            simp only
            cases hg2 : Res.guard (f.receiver == INSTANCE_ZERO || f.receiver == A.tag) .messageForOtherInstance with
            | err e => exact .inl (hR.refl _)
            | panic => exact .inl (hR.refl _)
            | ok u =>
              simp only
              have hcalm := calm_assemble (E := E) f f.sender w
              have hres : (entry f.sender (assemble f) w).1 = .ok ((w.st.inst f.sender).assembler.assemble f).1 := rfl
              cases he : entry f.sender (assemble f) w with
              | mk r w1 =>
                rw [he] at hcalm hres
                simp only at hres
                subst hres
                simp only
                cases ha : (w.st.inst f.sender).assembler.assemble f with
                | mk ar a =>
                  cases ar with
                  | ok content =>
                    simp only
                    split
                    · exact .inl hcalm
                    · rename_i hnf
                      refine .after hcalm (fun m hm => ?_) (changes_receiveWhole (hi.calm hcalm) content)
                      refine .inr ⟨hf, f, w.st.inst f.sender, content, a, hp, guard_true hg1, by simpa [INSTANCE_ZERO] using guard_true hg2, ?_, ha, by simpa using hnf, hm⟩
                      unfold inst
                      cases hl : lookup w.st.instances f.sender with
                      | none => exact .inr ⟨rfl, rfl⟩
                      | some i => exact .inl rfl
                  | err e => cases e <;> exact .inl hcalm
                  | panic => exact .inl hcalm
    · rename_i hnf
      exact .after (hR.refl _) (fun m hm => .inl ⟨by simpa using hnf, hm⟩) (changes_receiveWhole hi payload)

theorem Inv.changes {s s' : Session} {P : EncodedMessage → Prop} {r : Res UserMessage} (h : Inv E s)
    (hc : Changes E A s P r s') : Inv E s' := by
  rcases hc with hc | ⟨m, ssid, _, hr, ho, he⟩
  · exact h.calm hc
  · exact {
      zero := hr.keys _ h.zero
      nodup := hr.nodup h.nodup
      plain := by
        have := ho INSTANCE_ZERO (Ne.symm he.sender)
        rw [h.plain] at this
        exact this.plaintext
      receiver := fun k => (hr.each k).receiver.trans (h.receiver k)
      ake := fun k => (hr.each k).ake (h.ake k)
      dake := fun k => (hr.each k).dake (h.dake k) }

theorem perform_after (f : SessM α) (g : α → Answer) (s : Session) : (perform f g s).after = (f ⟨s, []⟩).2.st := by
  unfold perform
  split <;> (rename_i h; rw [h])

theorem perform_sent (f : SessM α) (g : α → Answer) (s : Session) : (perform f g s).sent = (f ⟨s, []⟩).2.sent := by
  unfold perform
  split <;> (rename_i h; rw [h])

theorem perform_result (f : SessM α) (g : α → Answer) (s : Session) : (perform f g s).result = (do return g (← (f ⟨s, []⟩).1)) := by
  unfold perform
  split <;> (rename_i h; rw [h]; rfl)

/-- Every call but `receive` is calm. -/
theorem calm_run {s : Session} {op : Op} (h : ∀ p, op ≠ .receive p) : Calm E s (op.run E A c s).after := by
  cases op with
  | receive p => exact absurd rfl (h p)
  | send k content => rw [Op.run, perform_after]; exact calm_send k content ⟨s, []⟩
  | initiate v k => rw [Op.run, perform_after]; exact calm_initiate v k ⟨s, []⟩
  | close k => rw [Op.run, perform_after]; exact calm_close k ⟨s, []⟩
  | query => rw [Op.run, perform_after]; exact calm_query ⟨s, []⟩
  | startSmp k secret q => rw [Op.run, perform_after]; exact calm_startSmp k secret q ⟨s, []⟩
  | abortSmp k => rw [Op.run, perform_after]; exact calm_abortSmp k ⟨s, []⟩
  | expire t => rw [Op.run, perform_after]; exact calm_expire t ⟨s, []⟩

theorem Inv.run {s : Session} (h : Inv E s) (op : Op) : Inv E (op.run E A c s).after := by
  by_cases ho : ∀ p, op ≠ .receive p
  · exact h.calm (calm_run ho)
  · cases op with
    | receive p =>
      rw [Op.run, perform_after]
      exact h.changes (changes_receive (A := A) (c := c) (w := ⟨s, []⟩) h p)
    | _ => exact absurd (by intro p h; cases h) ho

theorem hist_inv {h : List Ev} {s : Session} (hh : Hist E A h s) : Inv E s := by
  induction hh with
  | new => exact inv_new E
  | step _ he _ ih => rw [← he]; exact ih.run _

end Session

end Otrr
