import Verif.Spec.SessionIsolation
import Verif.Lemmas.SessionConsent
import Verif.Lemmas.SessionIsolationToy
/-!
# Properties of the instances of a peer: C85, C86
-/

namespace Otrr
open Spec

/-! ## Calls that are not about an instance do not change it -/

namespace Session
open Instance
variable {E : Env} {A : Account} {c : Call} {k : UInt32}

/-- Instance `k` is as before. -/
def Still (k : UInt32) (s s' : Session) : Prop := lookup s'.instances k = lookup s.instances k

theorem still_pre (k : UInt32) : Pre (Still k) := ⟨fun _ => rfl, fun h h' => Eq.trans h' h⟩

theorem still_entry {j : UInt32} (h : j ≠ k) (f : InstM α) : Keeps (Still k) (entry j f) := by
  intro w
  simp only [Still, entry, lookup_insertKey]
  exact if_neg h

theorem still_existing {j : UInt32} (h : j ≠ k) (f : InstM α) : Keeps (Still k) (existing j f) := by
  intro w
  unfold existing
  split
  · exact (still_pre k).refl _
  · exact still_entry h f w

theorem still_query : Keeps (Still k) (query A) :=
  have hR := still_pre k
  Keeps.ite (.lift hR _) (.bind hR (.lift hR _) fun _ => .emit hR _)

theorem still_reportPlain (content : Bytes) : Keeps (Still k) (reportPlain A content) :=
  have hR := still_pre k
  .bind hR (.query hR _) fun _ => .ite (.pure hR _) (.pure hR _)

theorem still_answerOffer (h : 0 ≠ k) (vs : List Version) : Keeps (Still k) (answerOffer E A c vs) := by
  have hR := still_pre k
  unfold answerOffer
  split
  · exact .bind hR (still_entry h _) fun _ => .pure hR _
  · exact .pure hR _

theorem still_receiveWhole {text : Bytes} (hm : ∀ m, parse E text = .ok (.encoded m) → m.sender ≠ k)
    (hq : ∀ vs, parse E text = .ok (.query vs) → 0 ≠ k) (ht : ∀ vs t, parse E text = .ok (.tagged vs t) → 0 ≠ k) :
    Keeps (Still k) (receiveWhole E A c text) := by
  have hR := still_pre k
  unfold receiveWhole
  cases hp : parse E text with
  | err e => exact fun w => hR.refl _
  | panic => exact fun w => hR.refl _
  | ok t =>
    have hb : ∀ {f : MessageType → SessM UserMessage}, Keeps (Still k) (f t) →
        Keeps (Still k) (StM.lift (Res.ok t) >>= f) := fun h w => h w
    refine hb ?_
    cases t with
    | error e => exact .ite (.bind hR still_query fun _ => .pure hR _) (.pure hR _)
    | plaintext content => exact still_reportPlain _
    | tagged vs content =>
      exact .ite (.bind hR (still_answerOffer (ht vs content hp) vs) fun _ => still_reportPlain _) (still_reportPlain _)
    | query vs => exact .bind hR (still_answerOffer (hq vs hp) vs) fun _ => .pure hR _
    | encoded m =>
      refine .ite (.pure hR _) (.bind hR (.lift hR _) fun _ => .ite (.pure hR _) (.bind hR (.query hR _) fun h => ?_))
      exact still_entry (hm m hp) _

/-- How `receive` works, by the text that is read. -/
theorem receive_split (P : Res UserMessage × World Session → Prop) (w : World Session) (payload : Bytes)
    (off : disabled A = true → P (.ok (.plaintext payload), w))
    (whole : disabled A = false → matchFragment payload = false → P (receiveWhole E A c payload w))
    (bad : disabled A = false → matchFragment payload = true → (∀ f, parseFragment E.nd payload ≠ .ok (some f)) →
      ∀ r, (∀ um, r = .ok um → um = .none) → P (r, w))
    (wrong : ∀ f, disabled A = false → matchFragment payload = true → parseFragment E.nd payload = .ok (some f) →
      ¬ (verifyFragment f = true ∧ (f.receiver = 0 ∨ f.receiver = A.tag)) → ∀ e, P (.err e, w))
    (part : ∀ f, disabled A = false → matchFragment payload = true → parseFragment E.nd payload = .ok (some f) →
      verifyFragment f = true → f.receiver = 0 ∨ f.receiver = A.tag → (∀ text, ¬ Reads E A w.st payload text) →
      ∀ r, (∀ um, r = .ok um → um = .none) → P (r, (entry f.sender (assemble f) w).2))
    (last : ∀ f text, disabled A = false → matchFragment payload = true → parseFragment E.nd payload = .ok (some f) →
      verifyFragment f = true → f.receiver = 0 ∨ f.receiver = A.tag → Reads E A w.st payload text →
      P (receiveWhole E A c text (entry f.sender (assemble f) w).2)) :
    P (receive E A c payload w) := by
  unfold receive
  cases hd : disabled A with
  | true => exact off hd
  | false =>
    simp only [Bool.false_eq_true, if_false]
    cases hf : matchFragment payload with
    | false => exact whole hd hf
    | true =>
      simp only [if_true]
      unfold receiveFragment
      rw [StM.bind_run, StM.lift]
      cases hp : parseFragment E.nd payload with
      | err e => exact bad hd hf (fun f h => by rw [hp] at h; cases h) _ nofun
      | panic => exact bad hd hf (fun f h => by rw [hp] at h; cases h) _ nofun
      | ok o =>
        cases o with
        | none => exact bad hd hf (fun f h => by rw [hp] at h; cases h) _ (fun um h => by cases h; rfl)
        | some f =>
          simp only [StM.bind_run, StM.lift]
          cases hg1 : verifyFragment f with
          | false => exact wrong f hd hf hp (fun h => by rw [hg1] at h; exact absurd h.1 (by decide)) _
          | true =>
            cases hg2 : (f.receiver == INSTANCE_ZERO || f.receiver == A.tag) with
            | false =>
              refine wrong f hd hf hp (fun h => ?_) _
              have h2 : (f.receiver == INSTANCE_ZERO || f.receiver == A.tag) = true := by simpa [INSTANCE_ZERO] using h.2
              rw [hg2] at h2
              cases h2
            | true =>
              have hrec : f.receiver = 0 ∨ f.receiver = A.tag := by simpa [INSTANCE_ZERO] using hg2
              simp only [Res.guard, if_true]
              have hres : (entry f.sender (assemble f) w).1 = .ok ((w.st.inst f.sender).assembler.assemble f).1 := rfl
              have hnot : (∀ content, matchFragment content = false → ((w.st.inst f.sender).assembler.assemble f).1 ≠ .ok content) →
                  ∀ text, ¬ Reads E A w.st payload text := by
                rintro hn text (⟨h1, _⟩ | ⟨_, f', i, a, h1, _, _, h2, h3, h4⟩)
                · rw [hf] at h1; cases h1
                · rw [hp] at h1
                  cases h1
                  refine hn text h4 ?_
                  have : w.st.inst f.sender = i := by
                    unfold inst
                    rcases h2 with h2 | ⟨h2, rfl⟩ <;> rw [h2] <;> rfl
                  rw [this, h3]
              have hpart := part f hd hf hp hg1 hrec
              have hlast := last f
              cases he : entry f.sender (assemble f) w with
              | mk r w1 =>
                rw [he] at hres hpart hlast
                simp only at hres
                subst hres
                simp only
                cases ha : (w.st.inst f.sender).assembler.assemble f with
                | mk ar a =>
                  rw [ha] at hnot
                  cases ar with
                  | ok content =>
                    simp only
                    cases hnf : matchFragment content with
                    | true => exact hpart (hnot fun t h1 h2 => by cases h2; rw [hnf] at h1; cases h1) _ nofun
                    | false =>
                      refine hlast content hd hf hp hg1 hrec (.inr ⟨hf, f, w.st.inst f.sender, a, hp, hg1, hrec, ?_, ha, hnf⟩)
                      unfold inst
                      cases hl : lookup w.st.instances f.sender with
                      | none => exact .inr ⟨rfl, rfl⟩
                      | some i => exact .inl rfl
                  | err e => cases e <;> exact hpart (hnot fun _ _ => nofun) _ (fun um h => by cases h <;> rfl)
                  | panic => exact hpart (hnot fun _ _ => nofun) _ nofun

/-- `receive_split` without the less used facts. -/
theorem receive_cases (P : Res UserMessage × World Session → Prop) (w : World Session) (payload : Bytes)
    (off : disabled A = true → P (.ok (.plaintext payload), w))
    (whole : disabled A = false → matchFragment payload = false → P (receiveWhole E A c payload w))
    (bad : matchFragment payload = true → (∀ f, parseFragment E.nd payload ≠ .ok (some f)) → ∀ r, (∀ um, r = .ok um → um = .none) → P (r, w))
    (wrong : ∀ f, matchFragment payload = true → parseFragment E.nd payload = .ok (some f) → ∀ e, P (.err e, w))
    (part : ∀ f, matchFragment payload = true → parseFragment E.nd payload = .ok (some f) → ∀ r, (∀ um, r = .ok um → um = .none) →
      P (r, (entry f.sender (assemble f) w).2))
    (last : ∀ f text, matchFragment payload = true → parseFragment E.nd payload = .ok (some f) → Reads E A w.st payload text →
      P (receiveWhole E A c text (entry f.sender (assemble f) w).2)) :
    P (receive E A c payload w) :=
  receive_split P w payload off whole (fun _ => bad) (fun f _ h1 h2 _ => wrong f h1 h2)
    (fun f _ h1 h2 _ _ _ => part f h1 h2) (fun f text _ h1 h2 _ _ => last f text h1 h2)

end Session

namespace Props
open Session

variable {E : Env} {A : Account} {c : Call}

/-- C85: a call that is not about an instance of the peer leaves it as it is: everything about it, that is its
conversation with all keys, the key exchanges that are under way, and the fragments in store; and if there is no such
instance, there is none after the call. -/
theorem C85_isolation {s : Session} {op : Op} {k : UInt32} (h : ¬ Touches E A s k op) :
    lookup (op.run E A c s).after.instances k = lookup s.instances k := by
  have hR := still_pre k
  have key : ∀ {α : Type} {f : SessM α} {g : α → Answer}, Keeps (Still k) f →
      lookup (perform f g s).after.instances k = lookup s.instances k := by
    intro α f g h
    rw [perform_after]
    exact h ⟨s, []⟩
  have ne : ∀ {j : UInt32} {op' : Op}, op = op' → (j = k → Touches E A s k op') → j ≠ k := by
    rintro j _ rfl h1 h2
    exact h (h1 h2)
  cases op with
  | receive payload =>
    have sender : ∀ f, matchFragment payload = true → parseFragment E.nd payload = .ok (some f) → f.sender ≠ k :=
      fun f h1 h2 => ne rfl (.fragment h1 h2)
    have whole : ∀ text, Reads E A s payload text → Keeps (Still k) (receiveWhole E A c text) := fun text hr =>
      still_receiveWhole (fun m h1 => ne rfl (.message hr h1)) (fun vs h1 => ne rfl fun h => .query hr h1 h.symm)
        (fun vs t h1 => ne rfl fun h => .tagged hr h1 h.symm)
    simp only [Op.run]
    rw [perform_after]
    refine receive_cases (fun x => Still k s x.2.st) ⟨s, []⟩ payload ?_ ?_ ?_ ?_ ?_ ?_
    · exact fun _ => rfl
    · exact fun _ hf => whole payload (.inl ⟨hf, rfl⟩) ⟨s, []⟩
    · exact fun _ _ _ _ => rfl
    · exact fun _ _ _ _ => rfl
    · exact fun f h1 h2 _ _ => still_entry (sender f h1 h2) (assemble f) ⟨s, []⟩
    · exact fun f text h1 h2 hr => hR.trans (still_entry (sender f h1 h2) (assemble f) ⟨s, []⟩) (whole text hr _)
  | send j content =>
    have hj : j ≠ k := ne rfl fun e => e ▸ .send content
    refine key ?_
    unfold Session.send
    refine .ite (.pure hR _) (.bind hR (.gets hR _) fun o => ?_)
    cases o with
    | none => exact .lift hR _
    | some st =>
      refine .ite (.bind hR still_query fun _ => .lift hR _) ?_
      refine .bind hR (.gets hR _) fun t => .bind hR (still_existing hj _) fun x => ?_
      exact .bind hR (fun w => rfl) fun _ => .pure hR _
  | initiate v j => exact key (still_entry (ne rfl fun e => e ▸ .initiate v) _)
  | close j => exact key (still_existing (ne rfl fun e => e ▸ .close) _)
  | query => exact key still_query
  | startSmp j a b => exact key (still_existing (ne rfl fun e => e ▸ .startSmp a b) _)
  | abortSmp j => exact key (still_existing (ne rfl fun e => e ▸ .abortSmp) _)
  | expire t => exact absurd (.expire t) h

/-- Non-vacuity: Alice has an instance 0x103, and the last message of the key exchange with 0x102 is not about it. -/
example : ¬ Touches ToySession.tinyEnv ToySession.acA ToySession.i3.after 0x103 (.receive (ToySession.msg ToySession.b3)) := by
  obtain ⟨_, _, _, _, _, f3, s3⟩ := ToySession.isolation_run
  intro h
  exact absurd (ToySession.touches_sender f3 s3 h) (by decide)

theorem reads_of_delivers {s : Session} {payload : Bytes} {m : EncodedMessage} (h : Delivers E A s payload m) :
    ∃ text, Reads E A s payload text ∧ parse E text = .ok (.encoded m) := by
  rcases h with ⟨h1, h2⟩ | ⟨h1, f, i, content, a, h2, h3, h4, h5, h6, h7, h8⟩
  · exact ⟨payload, .inl ⟨h1, rfl⟩, h2⟩
  · exact ⟨content, .inr ⟨h1, f, i, a, h2, h3, h4, h5, h6, h7⟩, h8⟩

/-- C85: a report that names an instance of the peer is only made by a call that is about this instance: in particular,
a text is only reported as confidential from an instance if the message received has this sender. -/
theorem C85_report {h : List Ev} {s : Session} {op : Op} {um : UserMessage} {k : UInt32} (hh : Hist E A h s)
    (hr : (op.run E A c s).result = .ok (.user um)) (hn : Names um k) : Touches E A s k op := by
  have hi := hist_inv hh
  have inv : ∀ {α : Type} {f : SessM α} {g : α → Answer}, (perform f g s).result = .ok (.user um) →
      ∃ a, (f ⟨s, []⟩).1 = .ok a ∧ g a = .user um := by
    intro α f g h
    rw [perform_result] at h
    obtain ⟨a, h1, h2⟩ := Res.bind_eq_ok.mp h
    exact ⟨a, h1, Res.ok.inj h2⟩
  cases op with
  | receive payload =>
    obtain ⟨a, h1, h2⟩ := inv hr
    cases h2
    rcases told_receive (A := A) (c := c) (w := ⟨s, []⟩) hi payload with ⟨_, h2⟩ | ⟨m, hd, _, _, _, _, h6⟩
    · rcases h2 um h1 with rfl | ⟨t, rfl⟩ | ⟨t, rfl⟩ | ⟨t, rfl⟩ <;> exact hn.elim
    · obtain ⟨text, h7, h8⟩ := reads_of_delivers hd
      refine .message h7 h8 ?_
      rw [h1] at h6
      have hrec := hi.receiver m.sender
      cases um <;> first | exact hn.elim | exact h6.elim | exact (hrec.symm.trans h6.1.symm).trans hn
  | send j content =>
    obtain ⟨a, _, h2⟩ := inv hr
    cases h2
  | initiate v j =>
    obtain ⟨a, h1, h2⟩ := inv hr
    cases h2
    rw [Session.initiate, entry_fst] at h1
    unfold Instance.initiate at h1
    have key : ∀ {x : InstM EncodedMessageType} {w : World Instance}, (((do
        let m ← x
        Instance.inject A c (c.rnd.sub 1) v (← StM.gets fun w => w.st.receiver) m
        return UserMessage.none) : InstM UserMessage) w).1 = .ok um → um = .none := by
      intro x w h
      simp only [StM.bind_run] at h
      revert h
      cases x w with
      | mk r w1 =>
        cases r with
        | err e => exact nofun
        | panic => exact nofun
        | ok m =>
          simp only [StM.gets]
          cases Instance.inject A c (c.rnd.sub 1) v w1.st.receiver m w1 with
          | mk r w2 =>
            cases r with
            | err e => exact nofun
            | panic => exact nofun
            | ok u => exact fun h => by cases h; rfl
    have : um = .none := by
      cases v with
      | v3 => exact key (x := Instance.onAke (AKE.initiate E (c.rnd.sub 0))) h1
      | v4 => exact key (x := Instance.onDake (DAKE.initiate E (c.dake A) (c.rnd.sub 0))) h1
      | none => cases h1
      | unsupported n => cases h1
    subst this
    exact hn.elim
  | close j =>
    obtain ⟨a, h1, h2⟩ := inv hr
    cases h2
    unfold Session.close existing at h1
    cases hl : lookup s.instances j with
    | none => rw [hl] at h1; cases h1
    | some i =>
      rw [hl] at h1
      simp only [entry_fst, inst_of_lookup hl, Instance.reset, StM.bind_run, StM.gets] at h1
      have hrec := hi.receiver j
      rw [inst_of_lookup hl] at hrec
      revert h1
      cases Instance.onState (PState.finish E (c.rnd.sub 0) c.now) ⟨i, []⟩ with
      | mk r w1 =>
        cases r with
        | err e => exact nofun
        | panic => exact nofun
        | ok o =>
          simp only
          split
          · simp only [StM.bind_run, StM.lift]
            cases Res.assert o.isNone with
            | err e => exact nofun
            | panic => exact nofun
            | ok u => exact fun h => by cases h; exact hn.elim
          · cases o with
            | none =>
              intro h
              cases h
              have hk : j = k := hrec.symm.trans hn
              exact hk ▸ .close
            | some m =>
              simp only [StM.bind_run]
              cases Instance.inject A c (c.rnd.sub 1) i.state.version i.receiver m w1 with
              | mk r w2 =>
                cases r with
                | err e => exact nofun
                | panic => exact nofun
                | ok u =>
                  intro h
                  cases h
                  have hk : j = k := hrec.symm.trans hn
                  exact hk ▸ .close
  | query => obtain ⟨a, _, h2⟩ := inv hr; cases h2
  | startSmp j x y => obtain ⟨a, _, h2⟩ := inv hr; cases h2
  | abortSmp j => obtain ⟨a, _, h2⟩ := inv hr; cases h2
  | expire t => obtain ⟨a, _, h2⟩ := inv hr; cases h2


/-- Non-vacuity: the report that the session with 0x102 started, in a session that also has an instance 0x103. -/
example : ∃ h um, Hist ToySession.tinyEnv ToySession.acA h ToySession.i3.after ∧
    ((Op.receive (ToySession.msg ToySession.b3)).run ToySession.tinyEnv ToySession.acA (ToySession.callA 1000 4) ToySession.i3.after).result =
      .ok (.user um) ∧ Names um 0x102 := by
  obtain ⟨r3, r4, _, _, _, f3, s3⟩ := ToySession.isolation_run
  have ⟨h, hh⟩ := ToySession.hist_a2
  have he : ToySession.i3 = (Op.initiate .v3 0x103).run ToySession.tinyEnv ToySession.acA (ToySession.callA 1000 9) ToySession.a2.after := by
    unfold ToySession.i3; rfl
  refine ⟨_, .sessionStarted 0x102, .step hh he.symm (by rw [r3]; nofun), ?_, rfl⟩
  rw [← r4]
  unfold ToySession.i4
  rfl

end Props

/-! ## The instances of a peer do not influence each other -/

namespace Session
open Instance
variable {E : Env} {A : Account} {c : Call} {K : UInt32 → Prop}

/-- Two computations end alike: the same result, the same messages, and the same instances in `K`. -/
structure Twin (K : UInt32 → Prop) (x x' : Res α × World Session) : Prop where
  result : x'.1 = x.1
  same : SameOn K x.2.st x'.2.st
  sent : x'.2.sent = x.2.sent

/-- A computation that depends only on the instances in `K`, as far as they are concerned. -/
def Closed (K : UInt32 → Prop) (f : SessM α) : Prop := ∀ w w', SameOn K w.st w'.st → w'.sent = w.sent → Twin K (f w) (f w')

theorem Closed.bind {x : SessM α} {f : α → SessM β} (hx : Closed K x) (hf : ∀ a, Closed K (f a)) : Closed K (x >>= f) := by
  intro w w' h1 h2
  have h := hx w w' h1 h2
  rw [StM.bind_run, StM.bind_run]
  revert h
  cases x w with
  | mk r v =>
    cases x w' with
    | mk r' v' =>
      rintro ⟨h3, h4, h5⟩
      cases h3
      cases r with
      | ok a => exact hf a v v' h4 h5
      | err e => exact ⟨rfl, h4, h5⟩
      | panic => exact ⟨rfl, h4, h5⟩

theorem Closed.pure (a : α) : Closed K (Pure.pure a : SessM α) := fun _ _ h1 h2 => ⟨rfl, h1, h2⟩
theorem Closed.lift (r : Res α) : Closed K (StM.lift r : SessM α) := fun _ _ h1 h2 => ⟨rfl, h1, h2⟩
theorem Closed.emit (ms : List Bytes) : Closed K (Instance.emit ms : SessM Unit) := fun _ _ h1 h2 =>
  ⟨rfl, h1, congrArg (· ++ ms) h2⟩

theorem Closed.ite {p : Prop} [Decidable p] {x y : SessM α} (hx : Closed K x) (hy : Closed K y) :
    Closed K (if p then x else y) := by split <;> assumption

theorem sameOn_insert {s s' : Session} (h : SameOn K s s') (k : UInt32) (i : Instance) :
    SameOn K { s with instances := insertKey s.instances k i } { s' with instances := insertKey s'.instances k i } := by
  intro j hj
  simp only [lookup_insertKey, h j hj]

theorem closed_entry {k : UInt32} (hk : K k) (f : InstM α) : Closed K (entry k f) := by
  intro w w' h1 h2
  have hl := h1 k hk
  have h3 : w'.st.inst k = w.st.inst k := by simp only [inst, hl]
  refine ⟨?_, ?_, ?_⟩
  · rw [entry_fst, entry_fst, h3, h2]
  · simp only [entry]
    rw [hl, h2]
    exact sameOn_insert h1 k _
  · simp only [entry]
    rw [hl, h2]

theorem closed_existing {k : UInt32} (hk : K k) (f : InstM α) : Closed K (existing k f) := by
  intro w w' h1 h2
  unfold existing
  rw [h1 k hk]
  split
  · exact ⟨rfl, h1, h2⟩
  · exact closed_entry hk f w w' h1 h2

theorem closed_query : Closed K (query A) := Closed.ite (.lift _) (.bind (.lift _) fun _ => .emit _)

theorem closed_answerOffer (h0 : K 0) (vs : List Version) : Closed K (answerOffer E A c vs) := by
  unfold answerOffer
  split
  · exact .bind (closed_entry h0 _) fun _ => .pure _
  · exact .pure _

theorem closed_handOver (h0 : K 0) (m : EncodedMessage) : Closed K (handOver m) := by
  intro w w' h1 h2
  refine ⟨?_, h1, h2⟩
  simp only [handOver, StM.query]
  have : lookup w'.st.instances INSTANCE_ZERO = lookup w.st.instances INSTANCE_ZERO := h1 0 h0
  rw [this]

/-- Two computations end alike, up to warnings. -/
structure TwinMsg (K : UInt32 → Prop) (x x' : Res UserMessage × World Session) : Prop where
  result : Alike (do return .user (← x.1)) (do return .user (← x'.1))
  same : SameOn K x.2.st x'.2.st
  sent : x'.2.sent = x.2.sent

theorem Twin.msg {x x' : Res UserMessage × World Session} (h : Twin K x x') : TwinMsg K x x' :=
  ⟨by rw [h.result]; exact .same _, h.same, h.sent⟩

theorem twin_reportPlain {w w' : World Session} (hi : Inv E w.st) (hi' : Inv E w'.st) (h1 : SameOn K w.st w'.st)
    (h2 : w'.sent = w.sent) (content : Bytes) : TwinMsg K (reportPlain A content w) (reportPlain A content w') := by
  have key : ∀ {w : World Session}, Inv E w.st → ∃ m, reportPlain A content w = (.ok m, w) ∧
      (m = .plaintext content ∨ m = .warningUnencrypted content) := by
    intro w hi
    obtain ⟨b, hb, _⟩ := hasSessionsIn_ok hi
    unfold reportPlain
    rw [StM.bind_run, StM.query, hb]
    simp only
    split
    · exact ⟨_, rfl, .inr rfl⟩
    · exact ⟨_, rfl, .inl rfl⟩
  obtain ⟨m, e, hm⟩ := key hi
  obtain ⟨m', e', hm'⟩ := key hi'
  rw [e, e']
  exact ⟨.text hm hm', h1, h2⟩

theorem twin_receiveWhole (h0 : K 0) {text : Bytes} (hm : ∀ m, parse E text = .ok (.encoded m) → K m.sender)
    {w w' : World Session} (hi : Inv E w.st) (hi' : Inv E w'.st) (h1 : SameOn K w.st w'.st) (h2 : w'.sent = w.sent) :
    TwinMsg K (receiveWhole E A c text w) (receiveWhole E A c text w') := by
  have cl : ∀ {f : SessM UserMessage}, Closed K f → TwinMsg K (f w) (f w') := fun h => (h w w' h1 h2).msg
  unfold receiveWhole
  rw [StM.bind_run, StM.lift, StM.bind_run, StM.lift]
  cases hp : parse E text with
  | err e => exact ⟨.same _, h1, h2⟩
  | panic => exact ⟨.same _, h1, h2⟩
  | ok t =>
    cases t with
    | error e => exact cl (.ite (.bind closed_query fun _ => .pure _) (.pure _))
    | plaintext content => exact twin_reportPlain hi hi' h1 h2 content
    | tagged vs content =>
      simp only
      split
      · simp only [StM.bind_run]
        have hq := calm_answerOffer (E := E) (A := A) (c := c) vs w
        have hq' := calm_answerOffer (E := E) (A := A) (c := c) vs w'
        have ht := closed_answerOffer (E := E) (A := A) (c := c) h0 vs w w' h1 h2
        revert hq hq' ht
        cases answerOffer E A c vs w with
        | mk r v =>
          cases answerOffer E A c vs w' with
          | mk r' v' =>
            rintro hq hq' ⟨h3, h4, h5⟩
            cases h3
            cases r with
            | err e => exact ⟨.same _, h4, h5⟩
            | panic => exact ⟨.same _, h4, h5⟩
            | ok u => exact twin_reportPlain (hi.calm hq) (hi'.calm hq') h4 h5 content
      · exact twin_reportPlain hi hi' h1 h2 content
    | query vs => exact cl (.bind (closed_answerOffer h0 vs) fun _ => .pure _)
    | encoded m =>
      refine cl (.ite (.pure _) (.bind (.lift _) fun _ => .ite (.pure _) (.bind (closed_handOver h0 m) fun h => ?_)))
      exact closed_entry (hm m hp) _

theorem tagged_ok {msg : Bytes} (h : filterVersions A.policy SUPPORTED_VERSIONS ≠ []) :
    serialize (.tagged (filterVersions A.policy SUPPORTED_VERSIONS) msg) =
      .ok (WHITESPACE_PREFIX ++ uniqueVersions versionTag (filterVersions A.policy SUPPORTED_VERSIONS) ++ msg) := by
  refine if_pos ⟨h, ?_⟩
  unfold filterVersions
  split
  · rfl
  · split <;> rfl

/-- Texts sent by an instance, depending on whether a whitespace tag was sent before. -/
theorem send_tagged (t t' : Bool) (content : Bytes) (w : World Instance) :
    (Instance.send E A c t content w).2 = (Instance.send E A c t' content w).2 ∧
    ((∃ e, (Instance.send E A c t content w).1 = .err e ∧ (Instance.send E A c t' content w).1 = .err e) ∨
      ((Instance.send E A c t content w).1 = .panic ∧ (Instance.send E A c t' content w).1 = .panic) ∨
      ∃ o b o' b', (Instance.send E A c t content w).1 = .ok (o, b) ∧ (Instance.send E A c t' content w).1 = .ok (o', b') ∧
        (o = o' ∨ ∃ vs msg tagged, serialize (.tagged vs msg) = .ok tagged ∧ (o = [msg] ∨ o = [tagged]) ∧ (o' = [msg] ∨ o' = [tagged]))) := by
  unfold Instance.send
  simp only [StM.bind_run]
  cases hx : Instance.onState (PState.prepare E 0 (dropByValue content 0) (c.rnd.sub 0) c.now) w with
  | mk r w1 =>
    cases r with
    | err e => exact ⟨rfl, .inl ⟨e, rfl, rfl⟩⟩
    | panic => exact ⟨rfl, .inr (.inl ⟨rfl, rfl⟩)⟩
    | ok m =>
      cases m with
      | unencoded msg =>
        simp only [StM.gets, StM.bind_run, StM.lift]
        cases Res.assert (w1.st.status == .plaintext) with
        | err e => exact ⟨rfl, .inl ⟨e, rfl, rfl⟩⟩
        | panic => exact ⟨rfl, .inr (.inl ⟨rfl, rfl⟩)⟩
        | ok u =>
          simp only
          have out : ∀ b : Bool, ∃ o b', (if A.policy.has SEND_WHITESPACE_TAG = true ∧ b = false ∧ filterVersions A.policy SUPPORTED_VERSIONS ≠ [] then
              (do return ([← StM.lift (serialize (.tagged (filterVersions A.policy SUPPORTED_VERSIONS) msg))], true) : InstM (List Bytes × Bool))
              else (do return ([← StM.lift (serialize (.plaintext msg))], b))) w1 = (.ok (o, b'), w1) ∧
              (o = [msg] ∨ o = [WHITESPACE_PREFIX ++ uniqueVersions versionTag (filterVersions A.policy SUPPORTED_VERSIONS) ++ msg] ∧
                filterVersions A.policy SUPPORTED_VERSIONS ≠ []) := by
            intro b
            split
            · rename_i h
              refine ⟨_, true, ?_, .inr ⟨rfl, h.2.2⟩⟩
              rw [StM.bind_run, StM.lift, tagged_ok h.2.2]
              rfl
            · exact ⟨_, _, rfl, .inl rfl⟩
          obtain ⟨o, b, h1, h2⟩ := out t
          obtain ⟨o', b', h1', h2'⟩ := out t'
          refine ⟨(congrArg Prod.snd h1).trans (congrArg Prod.snd h1').symm, .inr (.inr ⟨o, b, o', b', congrArg Prod.fst h1, congrArg Prod.fst h1', ?_⟩)⟩
          by_cases hv : filterVersions A.policy SUPPORTED_VERSIONS = []
          · rcases h2 with rfl | ⟨_, h⟩
            · rcases h2' with rfl | ⟨_, h'⟩
              · exact .inl rfl
              · exact absurd hv h'
            · exact absurd hv h
          · exact .inr ⟨_, msg, _, tagged_ok hv, h2.imp id And.left, h2'.imp id And.left⟩
      | _ =>
        simp only [StM.gets, StM.bind_run, StM.lift]
        generalize encodeMessage w1.st.state.version A.tag w1.st.receiver _ = x
        cases x with
        | err e => exact ⟨rfl, .inl ⟨e, rfl, rfl⟩⟩
        | panic => exact ⟨rfl, .inr (.inl ⟨rfl, rfl⟩)⟩
        | ok text =>
          simp only
          cases payloads A c w1.st.state.version w1.st.receiver (c.rnd.sub 1) text with
          | err e => exact ⟨rfl, .inl ⟨e, rfl, rfl⟩⟩
          | panic => exact ⟨rfl, .inr (.inl ⟨rfl, rfl⟩)⟩
          | ok o => exact ⟨rfl, .inr (.inr ⟨o, t, o, t', rfl, rfl, .inl rfl⟩)⟩

theorem twin_send {k : UInt32} (hk : K k) {s s' : Session} (h : SameOn K s s') (content : Bytes) :
    let e := (Op.send k content).run E A c s
    let e' := (Op.send k content).run E A c s'
    Alike e.result e'.result ∧ SameOn K e.after e'.after ∧ e'.sent = e.sent := by
  have cl : ∀ {f : SessM (List Bytes)}, Closed K f → Alike (perform f .texts s).result (perform f .texts s').result ∧
      SameOn K (perform f .texts s).after (perform f .texts s').after ∧ (perform f .texts s').sent = (perform f .texts s).sent := by
    intro f hf
    have := hf ⟨s, []⟩ ⟨s', []⟩ h rfl
    rw [perform_result, perform_result, perform_after, perform_after, perform_sent, perform_sent, this.result]
    exact ⟨.same _, this.same, this.sent⟩
  simp only [Op.run]
  unfold Session.send
  split
  · exact cl (.pure _)
  · have hst : s'.status k = s.status k := by simp only [status, h k hk]
    have e1 : ∀ {s₁ : Session} {f : Option Status → SessM (List Bytes)},
        perform ((StM.gets fun w => w.st.status k) >>= f) .texts s₁ = perform (f (s₁.status k)) .texts s₁ := fun {_ _} => rfl
    rw [e1, e1, hst]
    cases hs : s.status k with
    | none => exact cl (.lift _)
    | some st =>
      simp only
      split
      · exact cl (.bind closed_query fun _ => .lift _)
      · cases hl : lookup s.instances k with
        | none => simp [status, hl] at hs
        | some i =>
          have hl' : lookup s'.instances k = some i := (h k hk).trans hl
          have run : ∀ {s₁ : Session}, lookup s₁.instances k = some i →
              sendOn E A c k content ⟨s₁, []⟩ = match Instance.send E A c s₁.tagged content ⟨i, []⟩ with
                | (.ok (o, b), v) => (.ok o, ⟨⟨insertKey s₁.instances k v.st, b⟩, v.sent⟩)
                | (.err e, v) => (.err e, ⟨⟨insertKey s₁.instances k v.st, s₁.tagged⟩, v.sent⟩)
                | (.panic, v) => (.panic, ⟨⟨insertKey s₁.instances k v.st, s₁.tagged⟩, v.sent⟩) := by
            intro s₁ h₁
            simp only [sendOn, StM.bind_run, StM.gets, existing, h₁, entry, Option.getD_some]
            cases Instance.send E A c s₁.tagged content ⟨i, []⟩ with
            | mk r v =>
              cases r with
              | ok x => rfl
              | err e => rfl
              | panic => rfl
          have hst := send_tagged (E := E) (A := A) (c := c) s.tagged s'.tagged content ⟨i, []⟩
          rw [perform_result, perform_result, perform_after, perform_after, perform_sent, perform_sent, run hl, run hl']
          revert hst
          cases Instance.send E A c s.tagged content ⟨i, []⟩ with
          | mk r v =>
            cases Instance.send E A c s'.tagged content ⟨i, []⟩ with
            | mk r' v' =>
              rintro ⟨hv, hr⟩
              cases hv
              have hs := sameOn_insert h k v.st
              rcases hr with ⟨e, h1, h2⟩ | ⟨h1, h2⟩ | ⟨o, b, o', b', h1, h2, h3⟩
              · cases h1; cases h2; exact ⟨.same _, hs, rfl⟩
              · cases h1; cases h2; exact ⟨.same _, hs, rfl⟩
              · cases h1; cases h2
                refine ⟨?_, hs, rfl⟩
                rcases h3 with rfl | ⟨vs, msg, tagged, h4, h5, h6⟩
                · exact .same _
                · exact .offer h4 h5 h6

end Session

namespace Props
open Session
variable {E : Env} {A : Account} {c : Call} {K : UInt32 → Prop}

/-- C86: what a call does to some instances of the peer, what it sends and what it returns, depends only on these
instances: in two sessions that have the same instances in a set `K` that includes instance 0, a call that is about
instances in `K` only does the same.  There are two exceptions: a text received without encryption may be reported with
or without a warning, and a text sent without encryption may have a whitespace tag or not. -/
theorem C86_step {h h' : List Ev} {s s' : Session} {op : Op} (hh : Hist E A h s) (hh' : Hist E A h' s') (h0 : K 0)
    (hj : ∃ j, ¬ K j) (hs : SameOn K s s') (hw : Within E A s K op) :
    SameOn K (op.run E A c s).after (op.run E A c s').after ∧ (op.run E A c s').sent = (op.run E A c s).sent ∧
      Alike (op.run E A c s).result (op.run E A c s').result := by
  have hi := hist_inv hh
  have hi' := hist_inv hh'
  have cl : ∀ {α : Type} {f : SessM α} {g : α → Answer}, Closed K f →
      SameOn K (perform f g s).after (perform f g s').after ∧ (perform f g s').sent = (perform f g s).sent ∧
        Alike (perform f g s).result (perform f g s').result := by
    intro α f g hf
    have := hf ⟨s, []⟩ ⟨s', []⟩ hs rfl
    rw [perform_result, perform_result, perform_after, perform_after, perform_sent, perform_sent, this.result]
    exact ⟨this.same, this.sent, .same _⟩
  cases op with
  | receive payload =>
    have tw : TwinMsg K (Session.receive E A c payload ⟨s, []⟩) (Session.receive E A c payload ⟨s', []⟩) := by
      have sender : ∀ f, matchFragment payload = true → parseFragment E.nd payload = .ok (some f) → K f.sender :=
        fun f h1 h2 => hw _ (.fragment h1 h2 rfl)
      have whole : ∀ {w w' : World Session} {text}, Reads E A s payload text → Inv E w.st → Inv E w'.st →
          SameOn K w.st w'.st → w'.sent = w.sent → TwinMsg K (receiveWhole E A c text w) (receiveWhole E A c text w') :=
        fun hr hi hi' h1 h2 => twin_receiveWhole h0 (fun m h3 => hw _ (.message hr h3 rfl)) hi hi' h1 h2
      unfold Session.receive
      cases hd : disabled A with
      | true => exact ⟨.same _, hs, rfl⟩
      | false =>
        simp only [Bool.false_eq_true, if_false]
        cases hf : matchFragment payload with
        | false => exact whole (.inl ⟨hf, rfl⟩) hi hi' hs rfl
        | true =>
          simp only [if_true]
          unfold receiveFragment
          simp only [StM.bind_run, StM.lift]
          cases hp : parseFragment E.nd payload with
          | err e => exact ⟨.same _, hs, rfl⟩
          | panic => exact ⟨.same _, hs, rfl⟩
          | ok o =>
            cases o with
            | none => exact ⟨.same _, hs, rfl⟩
            | some f =>
              simp only [StM.bind_run, StM.lift]
              cases hg1 : verifyFragment f with
              | false => exact ⟨.same _, hs, rfl⟩
              | true =>
                cases hg2 : (f.receiver == INSTANCE_ZERO || f.receiver == A.tag) with
                | false => exact ⟨.same _, hs, rfl⟩
                | true =>
                  simp only [Res.guard, if_true]
                  have ht := closed_entry (sender f hf hp) (assemble f) ⟨s, []⟩ ⟨s', []⟩ hs rfl
                  have hq := calm_assemble (E := E) f f.sender ⟨s, []⟩
                  have hq' := calm_assemble (E := E) f f.sender ⟨s', []⟩
                  have hres : (entry f.sender (assemble f) ⟨s, []⟩).1 = .ok ((s.inst f.sender).assembler.assemble f).1 := rfl
                  revert ht hq hq' hres
                  cases entry f.sender (assemble f) ⟨s, []⟩ with
                  | mk r v =>
                    cases entry f.sender (assemble f) ⟨s', []⟩ with
                    | mk r' v' =>
                      rintro ⟨h3, h4, h5⟩ hq hq' hres
                      cases h3
                      cases hres
                      simp only
                      cases ha : (s.inst f.sender).assembler.assemble f with
                      | mk ar a =>
                        cases ar with
                        | ok content =>
                          simp only
                          cases hnf : matchFragment content with
                          | true => exact ⟨.same _, h4, h5⟩
                          | false =>
                            refine whole (.inr ⟨hf, f, s.inst f.sender, a, hp, hg1, by simpa [INSTANCE_ZERO] using hg2, ?_, ha, hnf⟩)
                              (hi.calm hq) (hi'.calm hq') h4 h5
                            unfold inst
                            cases hl : lookup s.instances f.sender with
                            | none => exact .inr ⟨rfl, rfl⟩
                            | some i => exact .inl rfl
                        | err e => cases e <;> exact ⟨.same _, h4, h5⟩
                        | panic => exact ⟨.same _, h4, h5⟩
    simp only [Op.run]
    rw [perform_result, perform_result, perform_after, perform_after, perform_sent, perform_sent]
    exact ⟨tw.same, tw.sent, tw.result⟩
  | send k content =>
    obtain ⟨h1, h2, h3⟩ := twin_send (E := E) (A := A) (c := c) (hw k (.send content)) hs content
    exact ⟨h2, h3, h1⟩
  | initiate v k => exact cl (closed_entry (hw k (.initiate v)) _)
  | close k => exact cl (closed_existing (hw k .close) _)
  | query => exact cl closed_query
  | startSmp k a b => exact cl (closed_existing (hw k (.startSmp a b)) _)
  | abortSmp k => exact cl (closed_existing (hw k .abortSmp) _)
  | expire t =>
    obtain ⟨j, hj⟩ := hj
    exact absurd (hw j (.expire t)) hj

theorem apart_hist {h : List Ev} {s : Session} (ha : Apart E A K h s) : Hist E A h s := by
  induction ha with
  | new => exact .new
  | step _ he hp _ ih => exact .step ih he hp

theorem reads_sameOn {s s' : Session} {payload text : Bytes} (hs : SameOn K s s')
    (hk : ∀ f, matchFragment payload = true → parseFragment E.nd payload = .ok (some f) → K f.sender)
    (h : Reads E A s' payload text) : Reads E A s payload text := by
  rcases h with h | ⟨h1, f, i, a, h2, h3, h4, h5, h6⟩
  · exact .inl h
  · refine .inr ⟨h1, f, i, a, h2, h3, h4, ?_, h6⟩
    rw [← hs _ (hk f h1 h2)]
    exact h5

/-- In a session with the same instances in `K`, a call is about the same instances. -/
theorem within_sameOn {s s' : Session} {op : Op} (hs : SameOn K s s') (hw : Within E A s K op) : Within E A s' K op := by
  intro k ht
  have hk : ∀ {payload}, op = .receive payload → ∀ f, matchFragment payload = true →
      parseFragment E.nd payload = .ok (some f) → K f.sender := by
    rintro payload rfl f h1 h2
    exact hw _ (.fragment h1 h2 rfl)
  cases ht with
  | fragment h1 h2 h3 => exact hw k (.fragment h1 h2 h3)
  | message h1 h2 h3 => exact hw k (.message (reads_sameOn hs (hk rfl) h1) h2 h3)
  | query h1 h2 h3 => exact hw k (.query (reads_sameOn hs (hk rfl) h1) h2 h3)
  | tagged h1 h2 h3 => exact hw k (.tagged (reads_sameOn hs (hk rfl) h1) h2 h3)
  | send content => exact hw k (.send content)
  | initiate v => exact hw k (.initiate v)
  | close => exact hw k .close
  | startSmp a b => exact hw k (.startSmp a b)
  | abortSmp => exact hw k .abortSmp
  | expire t => exact hw k (.expire t)

theorem alike_panic {r r' : Res Answer} (h : Alike r r') (hp : r ≠ .panic) : r' ≠ .panic := by
  cases h with
  | same => exact hp
  | text => exact nofun
  | offer => exact nofun

/-- C86: the instances of the peer do not influence each other.  Take any history of a session, whatever the network
delivers, in which each call is either about instances in `K` only (instance 0 is one of them) or about others only.
Then there is a history, made of some of the same calls that send the same messages, in which the others do not even
exist, that ends with the same instances in `K`, in the same states. -/
theorem C86_history {h : List Ev} {s : Session} (h0 : K 0) (hj : ∃ j, ¬ K j) (ha : Apart E A K h s) :
    ∃ h' s', Hist E A h' s' ∧ SameOn K s s' ∧ (∀ j, ¬ K j → lookup s'.instances j = .none) ∧
      (h'.map fun e => (e.op, e.call, e.sent)).Sublist (h.map fun e => (e.op, e.call, e.sent)) := by
  induction ha with
  | new =>
    refine ⟨[], .new, .new, fun _ _ => rfl, fun j h => ?_, .refl _⟩
    have : (0 : UInt32) ≠ j := fun e => h (e ▸ h0)
    exact if_neg this
  | @step h s op c e ha he hp hw ih =>
    obtain ⟨h', s', hh', hs, hn, hl⟩ := ih
    have hh := apart_hist ha
    subst he
    by_cases ho : Outside E A s K op
    · refine ⟨h', s', hh', fun k hk => ?_, hn, ?_⟩
      · rw [C85_isolation (fun ht => ho k ht hk)]
        exact hs k hk
      · rw [List.map_append]
        exact hl.trans (List.sublist_append_left _ _)
    · have hw : Within E A s K op := hw.resolve_right ho
      obtain ⟨h1, h2, h3⟩ := C86_step (c := c) hh hh' h0 hj hs hw
      refine ⟨_, _, .step hh' rfl (alike_panic h3 hp), h1, fun j hk => ?_, ?_⟩
      · rw [C85_isolation (fun ht => hk (within_sameOn hs hw j ht))]
        exact hn j hk
      · rw [List.map_append, List.map_append]
        refine hl.append ?_
        simp only [List.map_cons, List.map_nil, h2]
        exact .refl _

/-- Non-vacuity: Alice exchanges keys with 0x102 and, in between, begins to with 0x103; both instances are there at the
end, and the history can be had without 0x103. -/
example : ∃ h, Apart ToySession.tinyEnv ToySession.acA ToySession.Ours h ToySession.i4.after ∧ ToySession.Ours 0 ∧
    (¬ ToySession.Ours 0x103) ∧ ToySession.i4.after.status 0x103 = some .plaintext := by
  obtain ⟨h, hh⟩ := ToySession.apart_i4
  exact ⟨h, hh, .inl rfl, by unfold ToySession.Ours; decide, ToySession.isolation_run.2.2.1⟩

/-- Non-vacuity: the session with both instances, and the one that never heard of 0x103, agree on 0x102; the next message
of 0x102 is only about 0x102. -/
example : ∃ h h' s', Hist ToySession.tinyEnv ToySession.acA h ToySession.i3.after ∧ Hist ToySession.tinyEnv ToySession.acA h' s' ∧
    SameOn ToySession.Ours ToySession.i3.after s' ∧ lookup s'.instances 0x103 = .none ∧
    Within ToySession.tinyEnv ToySession.acA ToySession.i3.after ToySession.Ours (.receive (ToySession.msg ToySession.b3)) := by
  obtain ⟨h, hh⟩ := ToySession.apart_i3
  obtain ⟨_, _, _, _, _, f3, s3⟩ := ToySession.isolation_run
  have out : ¬ ToySession.Ours 0x103 := by unfold ToySession.Ours; decide
  obtain ⟨h', s', h1, h2, h3, _⟩ := C86_history (.inl rfl) ⟨0x103, out⟩ hh
  exact ⟨h, h', s', apart_hist hh, h1, h2, h3 _ out, fun k ht => .inr (ToySession.touches_sender f3 s3 ht).symm⟩

end Props
end Otrr
