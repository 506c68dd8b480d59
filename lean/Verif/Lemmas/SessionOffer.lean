import Verif.Props.Session
/-! The OTRv4 key exchange of instance 0 is as in a new session until this client opens an exchange with nobody. -/

namespace Otrr
open Otrr.Spec
variable {E : Env} {A : Account} {c : Call}

namespace Instance

/-- The context of the OTRv4 key exchange is the same. -/
def SameDake (i i' : Instance) : Prop := i'.dake = i.dake

theorem dake_pre : Pre SameDake := ⟨fun _ => rfl, fun h h' => h'.trans h⟩

theorem dake_onState (f : StM PState α) : Keeps SameDake (onState f) := fun _ => rfl

theorem dake_expire (rnd : Rand) (t : Nat) : Keeps SameDake (expire E A c rnd t) := by
  have hR := dake_pre
  refine .bind hR (.gets hR _) fun v => .bind hR (dake_onState _) fun m => ?_
  cases m with
  | some m => exact .bind hR (.gets hR _) fun _ => keeps_inject hR
  | none => exact .pure hR _

theorem dake_sendTlv {rnd : Rand} {k : UInt32} {t : TLV} : Keeps SameDake (sendTlv E A c rnd k t) := by
  have hR := dake_pre
  exact .bind hR (.lift hR _) fun _ => .bind hR (dake_onState _) fun _ => .bind hR (.gets hR _) fun _ => keeps_inject hR

theorem dake_send (t : Bool) (content : Bytes) : Keeps SameDake (send E A c t content) := by
  have hR := dake_pre
  refine .bind hR (dake_onState _) fun m => ?_
  split
  · refine .bind hR (.gets hR _) fun _ => .bind hR (.lift hR _) fun _ => .ite ?_ ?_
    · exact .bind hR (.lift hR _) fun _ => .pure hR _
    · exact .bind hR (.lift hR _) fun _ => .pure hR _
  · exact .bind hR (.gets hR _) fun _ => .bind hR (.gets hR _) fun _ => .bind hR (.lift hR _) fun _ =>
      .bind hR (.lift hR _) fun _ => .pure hR _

theorem dake_reset : Keeps SameDake (reset E A c) := by
  have hR := dake_pre
  refine .bind hR (.gets hR _) fun _ => .bind hR (.gets hR _) fun _ => .bind hR (.gets hR _) fun _ =>
    .bind hR (dake_onState _) fun m => .bind hR (.gets hR _) fun _ => .ite ?_ ?_
  · exact .bind hR (.lift hR _) fun _ => .pure hR _
  · cases m with
    | some m => exact .bind hR (keeps_inject hR) fun _ => .pure hR _
    | none => exact .pure hR _

theorem dake_startSmp (secret q : Bytes) : Keeps SameDake (startSmp E A c secret q) := by
  have hR := dake_pre
  have k : ∀ t : TLV, Keeps SameDake (do sendTlv E A c (c.rnd.sub 1) (← StM.gets fun w => w.st.receiver) t) := fun t =>
    .bind hR (.gets hR _) fun _ => dake_sendTlv
  refine .bind hR (.gets hR _) fun v => ?_
  cases v with
  | v3 => exact .bind hR (dake_onState _) k
  | v4 => exact .bind hR (dake_onState _) k
  | none => exact .bind hR (.lift hR _) k
  | unsupported v => exact .bind hR (.lift hR _) k

theorem dake_abortSmp : Keeps SameDake (abortSmp E A c) := by
  have hR := dake_pre
  have k : ∀ t : TLV, Keeps SameDake (do sendTlv E A c (c.rnd.sub 1) (← StM.gets fun w => w.st.receiver) t) := fun t =>
    .bind hR (.gets hR _) fun _ => dake_sendTlv
  refine .bind hR (.gets hR _) fun v => ?_
  cases v with
  | v3 => exact .bind hR (dake_onState _) k
  | v4 => exact .bind hR (dake_onState _) k
  | none => exact .bind hR (.lift hR _) k
  | unsupported v => exact .bind hR (.lift hR _) k

/-- The end of `initiate`. -/
theorem open_run {rnd : Rand} {v : Version} {m : EncodedMessageType} {i : Instance} {sent : List Bytes} :
    ((do inject A c rnd v (← StM.gets fun w => w.st.receiver) m; return UserMessage.none : InstM UserMessage) ⟨i, sent⟩).1 = .panic ∨
      ∃ out, (do inject A c rnd v (← StM.gets fun w => w.st.receiver) m; return UserMessage.none : InstM UserMessage) ⟨i, sent⟩ =
        (.ok .none, ⟨i, sent ++ out⟩) ∧ InTransit A c ⟨v, A.tag, i.receiver, m⟩ out := by
  simp only [StM.bind_run, StM.gets]
  rcases Props.inject_run (A := A) (c := c) (rnd := rnd) (v := v) (m := m) (sent := sent) (rfl : i.receiver = i.receiver) with h | ⟨out, h, ht⟩
  · left
    generalize inject A c rnd v i.receiver m ⟨i, sent⟩ = z at h
    obtain ⟨z1, z2⟩ := z
    simp only at h
    subst h
    rfl
  · right
    rw [h]
    exact ⟨out, rfl, ht⟩

theorem initiate3_run {i : Instance} {sent : List Bytes} :
    (initiate E A c .v3 ⟨i, sent⟩).1 = .panic ∨
      ∃ d i' out, initiate E A c .v3 ⟨i, sent⟩ = (.ok .none, ⟨i', sent ++ out⟩) ∧
        InTransit A c ⟨.v3, A.tag, i.receiver, .dhCommit d⟩ out := by
  have h : ∃ d i', i'.receiver = i.receiver ∧ onAke (AKE.initiate E (c.rnd.sub 0)) ⟨i, sent⟩ = (.ok (.dhCommit d), ⟨i', sent⟩) :=
    ⟨AKE.dhCommitOf E (DH.Keypair.generate E.dh ((c.rnd.sub 0).bytes [0] 192)) ((c.rnd.sub 0).bytes [1] 16),
      { i with ake := .awaitingDHKey (DH.Keypair.generate E.dh ((c.rnd.sub 0).bytes [0] 192)) ((c.rnd.sub 0).bytes [1] 16) }, rfl, rfl⟩
  obtain ⟨d, i', hr, h⟩ := h
  unfold initiate
  simp only
  rw [StM.bind_run, h]
  simp only
  rcases open_run (A := A) (c := c) (rnd := c.rnd.sub 1) (v := .v3) (m := .dhCommit d) (i := i') (sent := sent) with h | ⟨out, h, ht⟩
  · exact .inl h
  · exact .inr ⟨d, i', out, h, hr ▸ ht⟩

theorem initiate4_run {i : Instance} {sent : List Bytes} (hi : i.dake = .initial) :
    (initiate E A c .v4 ⟨i, sent⟩).1 = .panic ∨
      (∃ e, DAKE.ownPayload E (c.dake A) = .err e ∧ initiate E A c .v4 ⟨i, sent⟩ = (.err e, ⟨i, sent⟩)) ∨
      ∃ d i' out, initiate E A c .v4 ⟨i, sent⟩ = (.ok .none, ⟨i', sent ++ out⟩) ∧
        InTransit A c ⟨.v4, A.tag, i.receiver, .identity d⟩ out := by
  have h : onDake (DAKE.initiate E (c.dake A) (c.rnd.sub 0)) ⟨i, sent⟩ = (.panic, ⟨i, sent⟩) ∨
      (∃ e, DAKE.ownPayload E (c.dake A) = .err e ∧ onDake (DAKE.initiate E (c.dake A) (c.rnd.sub 0)) ⟨i, sent⟩ = (.err e, ⟨i, sent⟩)) ∨
      ∃ d i', i'.receiver = i.receiver ∧ onDake (DAKE.initiate E (c.dake A) (c.rnd.sub 0)) ⟨i, sent⟩ = (.ok (.identity d), ⟨i', sent⟩) := by
    obtain ⟨r, a, st, ake, dk⟩ := i
    simp only at hi
    subst hi
    simp only [onDake, DAKE.initiate, StM.transact]
    cases DAKE.ownPayload E (c.dake A) with
    | ok p => exact .inr (.inr ⟨_, _, rfl, rfl⟩)
    | err e => exact .inr (.inl ⟨e, rfl, rfl⟩)
    | panic => exact .inl rfl
  unfold initiate
  simp only
  rw [StM.bind_run]
  rcases h with h | ⟨e, he, h⟩ | ⟨d, i', hr, h⟩ <;> rw [h] <;> simp only
  · exact .inl trivial
  · exact .inr (.inl ⟨e, he, rfl⟩)
  rcases open_run (A := A) (c := c) (rnd := c.rnd.sub 1) (v := .v4) (m := .identity d) (i := i') (sent := sent) with h | ⟨out, h, ht⟩
  · exact .inl h
  · exact .inr (.inr ⟨d, i', out, h, hr ▸ ht⟩)

end Instance

namespace Session
open Instance

/-- The context of the OTRv4 key exchange of instance 0 is the same. -/
def SameZero (s s' : Session) : Prop := (s'.inst 0).dake = (s.inst 0).dake

theorem zero_pre : Pre SameZero := ⟨fun _ => rfl, fun h h' => h'.trans h⟩

theorem Keeps.zero {f : SessM α} (h : Keeps (Rel SameDake) f) : Keeps SameZero f := fun w => (h w).each 0

theorem zero_entry {k : UInt32} (hk : k ≠ 0) (f : InstM α) : Keeps SameZero (entry k f) := by
  intro w
  unfold SameZero
  rw [inst_entry, if_neg hk]

/-- The messages with which this client opens a key exchange with nobody in particular. -/
def OpenedTo (A : Account) (c : Call) (out : List Bytes) : Prop := ∃ d, InTransit A c ⟨.v4, A.tag, 0, .identity d⟩ out

/-- If the context of instance 0 changes, an exchange was opened. -/
def Opening (A : Account) (c : Call) (f : SessM α) : Prop := ∀ w, (w.st.inst 0).receiver = 0 → (f w).1 ≠ .panic →
  (w.st.inst 0).dake = .initial → ((f w).2.st.inst 0).dake = .initial ∨ ∃ out, (f w).2.sent = w.sent ++ out ∧ OpenedTo A c out

theorem Keeps.opening {f : SessM α} (h : Keeps SameZero f) : Opening A c f := fun w _ _ hw => .inl ((h w).trans hw)

/-- Nothing is sent. -/
def Mute (f : SessM α) : Prop := ∀ w, (f w).2.sent = w.sent

theorem Opening.bind {x : SessM α} {f : α → SessM β} (hx : Opening A c x) (hz : ∀ a, Keeps SameZero (f a)) (hm : ∀ a, Mute (f a)) :
    Opening A c (x >>= f) := by
  intro w hr hp hw
  simp only [StM.bind_run] at hp ⊢
  have h := hx w hr
  generalize x w = y at h hp
  obtain ⟨r, w1⟩ := y
  cases r with
  | ok a =>
    simp only at hp ⊢
    rcases h nofun hw with h | ⟨out, h1, h2⟩
    · exact .inl ((hz a w1).trans h)
    · exact .inr ⟨out, (hm a w1).trans h1, h2⟩
  | err e => exact h nofun hw
  | panic => exact absurd rfl hp

theorem Opening.after {x : SessM α} {f : α → SessM β} (hx : Keeps (Rel SameKex) x) (hm : Mute x) (hf : ∀ a, Opening A c (f a)) :
    Opening A c (x >>= f) := by
  intro w hr hp hw
  simp only [StM.bind_run] at hp ⊢
  have h := hx w
  have h' := hm w
  generalize x w = y at h h' hp
  obtain ⟨r, w1⟩ := y
  obtain ⟨a0, h⟩ := h.each 0
  have hd : (w1.st.inst 0).dake = (w.st.inst 0).dake := by rw [h]
  have hr' : (w1.st.inst 0).receiver = (w.st.inst 0).receiver := by rw [h]
  cases r with
  | ok a =>
    simp only at hp h' ⊢
    have := hf a w1 (hr'.trans hr) hp (hd.trans hw)
    rw [h'] at this
    exact this
  | err e => exact .inl (hd.trans hw)
  | panic => exact absurd rfl hp

theorem Opening.ite {p : Prop} [Decidable p] {x y : SessM α} (hx : Opening A c x) (hy : Opening A c y) : Opening A c (if p then x else y) := by
  split
  · exact hx
  · exact hy

theorem opening_initiate (v : Version) (k : UInt32) : Opening A c (initiate E A c v k) := by
  intro w hr hp hw
  by_cases hk : k = 0
  · subst hk
    have h1 := inst_entry 0 0 (Instance.initiate E A c v) w
    rw [if_pos rfl] at h1
    unfold initiate
    rw [h1]
    unfold initiate at hp
    rw [entry_fst] at hp
    have hs : (entry 0 (Instance.initiate E A c v) w).2.sent = (Instance.initiate E A c v ⟨w.st.inst 0, w.sent⟩).2.sent := rfl
    rw [hs]
    generalize hi : w.st.inst 0 = i at *
    cases v with
    | none => exact absurd rfl hp
    | unsupported v => exact absurd rfl hp
    | v3 =>
      left
      have : Keeps SameDake (Instance.initiate E A c .v3) := by
        have hR := dake_pre
        exact .bind hR (fun _ => rfl) fun _ => .bind hR (.gets hR _) fun _ => .bind hR (keeps_inject hR) fun _ => .pure hR _
      exact (this ⟨i, w.sent⟩).trans hw
    | v4 =>
      rcases initiate4_run (E := E) (A := A) (c := c) (sent := w.sent) hw with h | ⟨e, _, h⟩ | ⟨d, i', out, h, ht⟩
      · exact absurd h hp
      · rw [h]; exact .inl hw
      · rw [h]; exact .inr ⟨out, rfl, d, by rw [← hr]; exact ht⟩
  · exact .inl ((zero_entry hk _ w).trans hw)

theorem opening_answerOffer (vs : List Version) : Opening A c (answerOffer E A c vs) := by
  unfold answerOffer
  split
  · exact .bind (opening_initiate _ _) (fun _ => .pure zero_pre _) fun _ _ => rfl
  · exact Keeps.opening (.pure zero_pre _)

theorem mute_query (f : World Session → Res α) : Mute (StM.query f) := fun _ => rfl

theorem zero_reportPlain (content : Bytes) : Keeps SameZero (reportPlain A content) :=
  .bind zero_pre (.query zero_pre _) fun _ => .ite (.pure zero_pre _) (.pure zero_pre _)

theorem mute_reportPlain (content : Bytes) : Mute (reportPlain A content) := by
  intro w
  simp only [reportPlain, StM.bind_run, StM.query]
  cases hasSessionsIn w.st.instances with
  | ok b => simp only; split <;> rfl
  | err e => rfl
  | panic => rfl

theorem zero_query : Keeps SameZero (query A) := by
  have hR := zero_pre
  unfold query
  exact .ite (.lift hR _) (.bind hR (.lift hR _) fun _ => .emit hR _)

theorem zero_receiveEncoded {m : EncodedMessage} (hm : m.sender ≠ 0) : Keeps SameZero (receiveEncoded E A c m) := by
  have hR := zero_pre
  exact .bind hR (.lift hR _) fun _ => .ite (.pure hR _) (.bind hR (.query hR _) fun _ => zero_entry hm _)

theorem opening_receiveWhole (payload : Bytes) : Opening A c (receiveWhole E A c payload) := by
  have hR := zero_pre
  refine .after (.lift (rel_pre kex_pre) _) (fun _ => rfl) fun x => ?_
  cases x with
  | error e => exact Keeps.opening (.ite (.bind hR zero_query fun _ => .pure hR _) (.pure hR _))
  | plaintext t => exact Keeps.opening (zero_reportPlain t)
  | tagged vs t =>
    exact .ite (.bind (opening_answerOffer vs) (fun _ => zero_reportPlain t) fun _ => mute_reportPlain t) (Keeps.opening (zero_reportPlain t))
  | query vs => exact .bind (opening_answerOffer vs) (fun _ => .pure hR _) fun _ _ => rfl
  | encoded m =>
    by_cases h : m.sender = 0
    · simp only [h, if_true]; exact Keeps.opening (.pure hR _)
    · simp only [h, if_false]; exact Keeps.opening (zero_receiveEncoded h)

theorem opening_receive (payload : Bytes) : Opening A c (receive E A c payload) := by
  have hR := zero_pre
  have hK := rel_pre kex_pre
  refine .ite (Keeps.opening (.pure hR _)) (.ite (.after (.lift hK _) (fun _ => rfl) fun o => ?_) (opening_receiveWhole payload))
  cases o with
  | none => exact Keeps.opening (.pure hR _)
  | some f =>
    refine .after (.lift hK _) (fun _ => rfl) fun _ => .after (.lift hK _) (fun _ => rfl) fun _ =>
      .after (keeps_entry (α := AsmRes) kex_pre (fun w => ⟨(w.st.assembler.assemble f).2, rfl⟩) f.sender) (fun _ => rfl) fun r => ?_
    cases r with
    | ok t => exact .ite (Keeps.opening (.lift hR _)) (opening_receiveWhole t)
    | err e => cases e <;> exact Keeps.opening (.lift hR _)
    | panic => exact Keeps.opening (.lift hR _)

theorem zero_existing {f : InstM α} (hf : Keeps SameDake f) (k : UInt32) : Keeps SameZero (existing k f) :=
  Keeps.zero (keeps_existing dake_pre hf k)

theorem zero_expireAll (t n : Nat) (ks : List UInt32) : Keeps SameZero (expireAll E A c t n ks) := by
  induction ks generalizing n with
  | nil => exact .pure zero_pre _
  | cons k ks ih => exact .bind zero_pre (zero_existing (dake_expire _ _) k) fun _ => ih _

theorem zero_send (k : UInt32) (content : Bytes) : Keeps SameZero (send E A c k content) := by
  have hR := zero_pre
  refine Keeps.ite (.pure hR _) (.bind hR (.gets hR _) fun st => ?_)
  cases st with
  | none => exact .lift hR _
  | some st =>
    refine .ite (.bind hR zero_query fun _ => .lift hR _) ?_
    refine .bind hR (.gets hR _) fun t => .bind hR (zero_existing (dake_send t content) k) fun x => ?_
    exact .bind hR (fun w => rfl) fun _ => .pure hR _

/-- A call of the API changes the context of instance 0 only if it opens an exchange. -/
theorem opening_run {s : Session} (hr : (s.inst 0).receiver = 0) (op : Op) (hp : (op.run E A c s).result ≠ .panic)
    (hw : (s.inst 0).dake = .initial) :
    ((op.run E A c s).after.inst 0).dake = .initial ∨ OpenedTo A c (op.run E A c s).sent := by
  have key : ∀ {α} {f : SessM α} {g : α → Answer}, Opening A c f → (perform f g s).result ≠ .panic →
      ((perform f g s).after.inst 0).dake = .initial ∨ OpenedTo A c (perform f g s).sent := by
    intro α f g hf hp
    rw [perform_after, perform_sent]
    rcases hf ⟨s, []⟩ hr (fun h => hp (by rw [perform_result, h]; rfl)) hw with h | ⟨out, h1, h2⟩
    · exact .inl h
    · rw [List.nil_append] at h1
      rw [h1]
      exact .inr h2
  cases op with
  | receive p => exact key (opening_receive p) hp
  | send k content => exact key (Keeps.opening (zero_send k content)) hp
  | initiate v k => exact key (opening_initiate v k) hp
  | close k => exact key (Keeps.opening (zero_existing dake_reset k)) hp
  | query => exact key (Keeps.opening zero_query) hp
  | startSmp k secret q => exact key (Keeps.opening (zero_existing (dake_startSmp secret q) k)) hp
  | abortSmp k => exact key (Keeps.opening (zero_existing dake_abortSmp k)) hp
  | expire t => exact key (Keeps.opening (.bind zero_pre (.gets zero_pre _) fun ks => zero_expireAll t 0 ks)) hp

/-- Unless this client opened an OTRv4 exchange with nobody in particular, instance 0 can open one. -/
theorem hist_zero {h : List Ev} {s : Session} (hh : Hist E A h s) :
    (s.inst 0).dake = .initial ∨ ∃ ev ∈ h, OpenedTo A ev.call ev.sent := by
  induction hh with
  | new => exact .inl rfl
  | @step h s op c e hh he hp ih =>
    rcases ih with ih | ⟨ev, hm, ho⟩
    · rcases opening_run ((hist_inv hh).receiver 0) op (he ▸ hp) ih with h1 | h1
      · exact .inl (he ▸ h1)
      · exact .inr ⟨_, List.mem_append_right _ (List.mem_singleton.mpr rfl), by subst he; exact h1⟩
    · exact .inr ⟨ev, List.mem_append_left _ hm, ho⟩

end Session
end Otrr
