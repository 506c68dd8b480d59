import Verif.Lemmas.SessionHist
/-! # What `receive` reports, and what that says about the session -/

namespace Otrr
open Spec

theorem StM.bind_eq_ok {x : StM σ α} {f : α → StM σ β} {w w' : σ} {b : β} :
    (x >>= f) w = (.ok b, w') ↔ ∃ a w1, x w = (.ok a, w1) ∧ f a w1 = (.ok b, w') := by
  rw [StM.bind_run]
  constructor
  · intro h
    split at h
    · rename_i a w1 hx; exact ⟨a, w1, hx, h⟩
    all_goals simp at h
  · rintro ⟨a, w1, h1, h2⟩
    rw [h1]; exact h2

namespace Instance
variable {E : Env} {A : Account} {c : Call}

/-- Same state of the protocol, same peer. -/
def SameState (i i' : Instance) : Prop := i'.state = i.state ∧ i'.receiver = i.receiver

theorem same_pre : Pre SameState := ⟨fun _ => ⟨rfl, rfl⟩, fun h h' => ⟨h'.1.trans h.1, h'.2.trans h.2⟩⟩

theorem same_onAke (f : StM AKEState α) : Keeps SameState (onAke f) := fun _ => ⟨rfl, rfl⟩
theorem same_onDake (f : StM DAKEState α) : Keeps SameState (onDake f) := fun _ => ⟨rfl, rfl⟩

theorem same_initiate (v : Version) : Keeps SameState (initiate E A c v) := by
  have hR := same_pre
  unfold initiate
  have k : ∀ m : EncodedMessageType, Keeps SameState (do
      inject A c (c.rnd.sub 1) v (← StM.gets fun w => w.st.receiver) m
      return UserMessage.none) := fun m =>
    .bind hR (.gets hR _) fun _ => .bind hR (keeps_inject hR) fun _ => .pure hR _
  cases v with
  | v3 => exact .bind hR (same_onAke _) k
  | v4 => exact .bind hR (same_onDake _) k
  | none => exact .bind hR (.lift hR _) k
  | unsupported v => exact .bind hR (.lift hR _) k

theorem same_clearAssembler (v : Version) : Keeps SameState (clearAssembler v) := by
  have hR := same_pre
  refine .ite (.bind hR (.query hR _) fun a => ?_) (.pure hR _)
  exact fun w => ⟨rfl, rfl⟩

/-- Same status and version, same peer. -/
def SameStatus (i i' : Instance) : Prop :=
  i'.state.status = i.state.status ∧ i'.state.version = i.state.version ∧ i'.receiver = i.receiver

theorem status_pre : Pre SameStatus :=
  ⟨fun _ => ⟨rfl, rfl, rfl⟩, fun h h' => ⟨h'.1.trans h.1, h'.2.1.trans h.2.1, h'.2.2.trans h.2.2⟩⟩

theorem status_sendTlv {rnd : Rand} {k : UInt32} {t : TLV} : Keeps SameStatus (sendTlv E A c rnd k t) := by
  have hR := status_pre
  refine .bind hR (.lift hR _) fun _ => .bind hR (fun w => ?_) fun _ => .bind hR (.gets hR _) fun _ => keeps_inject hR
  unfold onState
  obtain ⟨⟨r, a, s, ak, dk⟩, sent⟩ := w
  cases s <;> exact ⟨rfl, rfl, rfl⟩

theorem status_smpHandle (rnd : Rand) (v : Version) (t : TLV) : Keeps SameStatus (onState (smpHandle E c rnd v t)) := by
  intro w
  unfold onState smpHandle
  obtain ⟨⟨r, a, s, ak, dk⟩, sent⟩ := w
  cases v <;> cases s <;> exact ⟨rfl, rfl, rfl⟩

/-- The part of `handleSmp` after the SMP answered. -/
def smpEnd (v : Version) : InstM UserMessage := do
  let own ← StM.gets fun w => w.st.receiver
  match ← StM.query fun w => smpStatus v w.st.state with
  | .inProgress => return UserMessage.none
  | .completed => return .smpSucceeded own
  | .aborted => return .smpFailed own
  | .initial => StM.lift .panic

/-- The reports of the SMP. -/
def SmpReport (v : Version) (i : Instance) : UserMessage → Prop
  | .none => True
  | .smpSucceeded k => k = i.receiver ∧ smpStatus v i.state = .ok .completed
  | .smpFailed k => k = i.receiver ∧ smpStatus v i.state = .ok .aborted
  | _ => False

theorem smpEnd_report {v : Version} {w w' : World Instance} {um : UserMessage} (h : smpEnd v w = (.ok um, w')) :
    w' = w ∧ SmpReport v w.st um := by
  unfold smpEnd at h
  simp only [StM.bind_run, StM.gets, StM.query] at h
  cases hs : smpStatus v w.st.state with
  | err e => rw [hs] at h; simp at h
  | panic => rw [hs] at h; simp at h
  | ok st =>
    rw [hs] at h
    cases st <;> simp only [StM.pure_run, StM.lift, Prod.mk.injEq, Res.ok.injEq, reduceCtorEq, false_and] at h
    all_goals obtain ⟨rfl, rfl⟩ := h
    · exact ⟨rfl, trivial⟩
    · exact ⟨rfl, rfl, hs⟩
    · exact ⟨rfl, rfl, hs⟩

theorem status_smpEnd (v : Version) : Keeps SameStatus (smpEnd v) := by
  have hR := status_pre
  refine .bind hR (.gets hR _) fun _ => .bind hR (.query hR _) fun st => ?_
  cases st
  · exact .lift hR _
  all_goals exact .pure hR _

theorem status_handleSmp {v : Version} {k : UInt32} {ts : List TLV} : Keeps SameStatus (handleSmp E A c v k ts) := by
  have hR := status_pre
  unfold handleSmp
  refine .ite (.lift hR _) ?_
  split
  · exact .lift hR _
  · refine .bind hR (status_smpHandle _ v _) fun r => ?_
    cases r with
    | some r => exact .bind hR status_sendTlv fun _ => status_smpEnd v
    | none => exact status_smpEnd v

theorem handleSmp_report {v : Version} {k : UInt32} {ts : List TLV} {w w' : World Instance} {um : UserMessage}
    (h : handleSmp E A c v k ts w = (.ok um, w')) : SmpReport v w'.st um := by
  unfold handleSmp at h
  split at h
  · simp [StM.lift] at h
  · generalize ts.find? (isSmpTlv v) = o at h
    cases o with
    | none => simp [StM.lift] at h
    | some t =>
      simp only [StM.bind_eq_ok] at h
      obtain ⟨r, w1, h1, h2⟩ := h
      cases r with
      | some r =>
        replace h2 : (do sendTlv E A c (c.rnd.sub 2) k r; smpEnd v : InstM UserMessage) w1 = (.ok um, w') := h2
        rw [StM.bind_eq_ok] at h2
        obtain ⟨_, w2, _, h3⟩ := h2
        obtain ⟨rfl, h4⟩ := smpEnd_report h3
        exact h4
      | none =>
        obtain ⟨rfl, h4⟩ := smpEnd_report (show smpEnd v w1 = (.ok um, w') from h2)
        exact h4

/-- What the result of processing the message `m` says about the instance before and after it. -/
def Reports (E : Env) (c : Call) (m : EncodedMessage) (i : Instance) (r : Res UserMessage) (i' : Instance) : Prop :=
  match r with
  | .ok (.sessionStarted k) => k = i.receiver ∧ i'.state.status = .encrypted
  | .ok (.sessionFinished k content) => k = i.receiver ∧ Decrypts E c m i.state (.confidentialFinished content) ∧ i'.state = .finished
  | .ok (.confidential k content tlvs) => k = i.receiver ∧ Decrypts E c m i.state (.confidential content tlvs) ∧
      tlvs.any (isSmpTlv m.version) = false ∧ i'.state.status = .encrypted
  | .ok (.smpSucceeded k) => k = i.receiver ∧ ∃ content tlvs, Decrypts E c m i.state (.confidential content tlvs) ∧
      tlvs.any (isSmpTlv m.version) = true ∧ smpStatus m.version i'.state = .ok .completed
  | .ok (.smpFailed k) => k = i.receiver ∧ ∃ content tlvs, Decrypts E c m i.state (.confidential content tlvs) ∧
      tlvs.any (isSmpTlv m.version) = true ∧ smpStatus m.version i'.state = .ok .aborted
  | .ok .none => i'.state = .finished → i.state = .finished
  | .err _ => i'.state = .finished → i.state = .finished
  | .panic => i'.state = .finished → i.state = .finished
  | _ => False

/-- The state is not finished by this. -/
def NotFinished (i i' : Instance) : Prop := (i'.state = .finished → i.state = .finished) ∧ i'.receiver = i.receiver

theorem notFinished_pre : Pre NotFinished := ⟨fun _ => ⟨id, rfl⟩, fun h h' => ⟨fun x => h.1 (h'.1 x), h'.2.trans h.2⟩⟩

theorem Reports.of {m : EncodedMessage} {w : World Instance} {x : Res UserMessage × World Instance} (hk : NotFinished w.st x.2.st)
    (hs : ∀ um w', x = (.ok um, w') → um = .none ∨ um = .sessionStarted w.st.receiver ∧ w'.st.state.status = .encrypted) :
    Reports E c m w.st x.1 x.2.st := by
  obtain ⟨r, w'⟩ := x
  cases r with
  | err e => exact hk.1
  | panic => exact hk.1
  | ok um =>
    rcases hs um w' rfl with rfl | ⟨rfl, h⟩
    · exact hk.1
    · exact ⟨rfl, h⟩

theorem handleDecrypted_reports {m : EncodedMessage} {v : Version} {k : UInt32} {fl : UInt8} {r : Res PMessage} {i : Instance}
    {w : World Instance} (hv : v = m.version) (hrc : w.st.receiver = i.receiver)
    (hd : ∀ msg, r = .ok msg → Decrypts E c m i.state msg)
    (hc : ∀ content tlvs, r = .ok (.confidential content tlvs) → w.st.state.status = .encrypted)
    (hf : ∀ content, r = .ok (.confidentialFinished content) → w.st.state = .finished)
    (hn : (∀ content, r ≠ .ok (.confidentialFinished content)) → w.st.state = .finished → i.state = .finished) :
    Reports E c m i (handleDecrypted E A c v k fl r w).1 (handleDecrypted E A c v k fl r w).2.st := by
  subst hv
  unfold handleDecrypted
  rw [StM.bind_run]
  simp only [StM.gets]
  cases r with
  | panic => exact hn nofun
  | ok msg =>
    cases msg with
    | confidential content tlvs =>
      have hce := hc content tlvs rfl
      simp only
      split
      · rename_i hsmp
        have hst := status_handleSmp (E := E) (A := A) (c := c) (v := m.version) (k := k) (ts := tlvs) w
        have hnf : (handleSmp E A c m.version k tlvs w).2.st.state ≠ .finished := by
          intro h
          have := hst.1
          rw [h, hce] at this
          cases this
        cases hx : handleSmp E A c m.version k tlvs w with
        | mk r w' =>
          rw [hx] at hst hnf
          have hrc' : w'.st.receiver = i.receiver := hst.2.2.trans hrc
          cases r with
          | err e => exact fun h => absurd h hnf
          | panic => exact fun h => absurd h hnf
          | ok um =>
            have hrep := handleSmp_report hx
            cases um with
            | none => exact fun h => absurd h hnf
            | smpSucceeded k => exact ⟨hrep.1.trans hrc', content, tlvs, hd _ rfl, hsmp, hrep.2⟩
            | smpFailed k => exact ⟨hrep.1.trans hrc', content, tlvs, hd _ rfl, hsmp, hrep.2⟩
            | _ => exact absurd hrep id
      · rename_i hsmp
        exact ⟨hrc, hd _ rfl, by simpa using hsmp, hce⟩
    | confidentialFinished content => exact ⟨hrc, hd _ rfl, hf content rfl⟩
  | err e =>
    replace hn : w.st.state = .finished → i.state = .finished := hn nofun
    clear hd hc hf
    cases e with
    | unreadableMessage t =>
      simp only [StM.bind_run, StM.lift]
      cases serialize (.error UNREADABLE) with
      | err e => exact hn
      | panic => exact hn
      | ok t =>
        simp only [emit]
        split
        · exact hn
        · exact hn
    | _ => exact hn

theorem transition_cases {x : Res (PMessage × Bool) × PState} {r : Res PMessage} {s' : PState} (h : PState.transition x = (r, s')) :
    (∃ m, x.1 = .ok (m, true) ∧ r = .ok m ∧ s' = .finished) ∨ (∃ m, x.1 = .ok (m, false) ∧ r = .ok m ∧ s' = x.2) ∨
      (∃ e, x.1 = .err e ∧ r = .err e ∧ s' = x.2) ∨ x.1 = .panic ∧ r = .panic ∧ s' = x.2 := by
  unfold PState.transition at h
  split at h <;> (cases h; simp)

theorem handle3_last {m : DataMessage} {a f : Bytes} {x x' : Enc3} {msg : PMessage} {b : Bool}
    (h : Enc3.handle E m a f x = (.ok (msg, b), x')) : b = true ↔ ∃ content, msg = .confidentialFinished content := by
  unfold Enc3.handle at h
  split at h
  · split at h <;> simp only [Prod.mk.injEq, Res.ok.injEq, reduceCtorEq, false_and] at h
    · obtain ⟨⟨rfl, rfl⟩, -⟩ := h; simp
    · rename_i hn _
      obtain ⟨⟨rfl, rfl⟩, -⟩ := h
      simp only [Bool.false_eq_true, false_iff]
      rintro ⟨content, rfl⟩
      exact hn content rfl
  all_goals simp at h

theorem handle4_last {m : DataMessage4} {a : Bytes} {n : Nat} {x x' : Enc4} {msg : PMessage} {b : Bool}
    (h : Enc4.handle E m a n x = (.ok (msg, b), x')) : b = true ↔ ∃ content, msg = .confidentialFinished content := by
  unfold Enc4.handle at h
  split at h
  · split at h <;> simp only [Prod.mk.injEq, Res.ok.injEq, reduceCtorEq, false_and] at h
    · obtain ⟨⟨rfl, rfl⟩, -⟩ := h; simp
    · rename_i hn _
      obtain ⟨⟨rfl, rfl⟩, -⟩ := h
      simp only [Bool.false_eq_true, false_iff]
      rintro ⟨content, rfl⟩
      exact hn content rfl
  all_goals simp at h

theorem nf_onAke (f : StM AKEState α) : Keeps NotFinished (onAke f) := fun _ => ⟨id, rfl⟩
theorem nf_onDake (f : StM DAKEState α) : Keeps NotFinished (onDake f) := fun _ => ⟨id, rfl⟩

theorem nf_onState {f : StM PState α} (hf : ∀ s, (f s).2 = .finished → s = .finished) : Keeps NotFinished (onState f) :=
  fun w => ⟨hf w.st.state, rfl⟩

theorem nf_prepare (fl : UInt8) (content : Bytes) (rnd : Rand) (now : Nat) (s : PState)
    (h : (PState.prepare E fl content rnd now s).2 = .finished) : s = .finished := by
  cases s with
  | finished => rfl
  | plaintext => cases h
  | encrypted3 x y => cases h
  | encrypted4 x y => cases h

theorem nf_finish (rnd : Rand) (now : Nat) (s : PState)
    (h : (PState.finish E rnd now s).2 = .finished) : s = .finished := by
  cases s with
  | finished => rfl
  | plaintext => cases h
  | encrypted3 x y => rw [PState.finish] at h; split at h <;> cases h
  | encrypted4 x y => rw [PState.finish] at h; split at h <;> cases h

theorem nf_onSmp (f : StM SMPContext α) (e : OTRError) (s : PState) (h : (PState.onSmp f e s).2 = .finished) : s = .finished := by
  cases s with
  | finished => rfl
  | _ => cases h

theorem nf_onSmp4 (f : StM SMP4Context α) (e : OTRError) (s : PState) (h : (PState.onSmp4 f e s).2 = .finished) : s = .finished := by
  cases s with
  | finished => rfl
  | _ => cases h

theorem nf_sendTlv {rnd : Rand} {k : UInt32} {t : TLV} : Keeps NotFinished (sendTlv E A c rnd k t) := by
  have hR := notFinished_pre
  exact .bind hR (.lift hR _) fun _ => .bind hR (nf_onState (nf_prepare _ _ _ _)) fun _ =>
    .bind hR (.gets hR _) fun _ => keeps_inject hR

theorem nf_send (t : Bool) (content : Bytes) : Keeps NotFinished (send E A c t content) := by
  have hR := notFinished_pre
  refine .bind hR (nf_onState (nf_prepare _ _ _ _)) fun m => ?_
  split
  · refine .bind hR (.gets hR _) fun _ => .bind hR (.lift hR _) fun _ => .ite ?_ ?_
    · exact .bind hR (.lift hR _) fun _ => .pure hR _
    · exact .bind hR (.lift hR _) fun _ => .pure hR _
  · exact .bind hR (.gets hR _) fun _ => .bind hR (.gets hR _) fun _ => .bind hR (.lift hR _) fun _ =>
      .bind hR (.lift hR _) fun _ => .pure hR _

theorem nf_reset : Keeps NotFinished (reset E A c) := by
  have hR := notFinished_pre
  refine .bind hR (.gets hR _) fun _ => .bind hR (.gets hR _) fun _ => .bind hR (.gets hR _) fun _ =>
    .bind hR (nf_onState (nf_finish _ _)) fun m => .bind hR (.gets hR _) fun _ => .ite ?_ ?_
  · exact .bind hR (.lift hR _) fun _ => .pure hR _
  · cases m with
    | some m => exact .bind hR (keeps_inject hR) fun _ => .pure hR _
    | none => exact .pure hR _

theorem nf_startSmp (secret q : Bytes) : Keeps NotFinished (startSmp E A c secret q) := by
  have hR := notFinished_pre
  have k : ∀ t : TLV, Keeps NotFinished (do sendTlv E A c (c.rnd.sub 1) (← StM.gets fun w => w.st.receiver) t) := fun t =>
    .bind hR (.gets hR _) fun _ => nf_sendTlv
  refine .bind hR (.gets hR _) fun v => ?_
  cases v with
  | v3 => exact .bind hR (nf_onState (nf_onSmp _ _)) k
  | v4 => exact .bind hR (nf_onState (nf_onSmp4 _ _)) k
  | none => exact .bind hR (.lift hR _) k
  | unsupported v => exact .bind hR (.lift hR _) k

theorem nf_abortSmp : Keeps NotFinished (abortSmp E A c) := by
  have hR := notFinished_pre
  have k : ∀ t : TLV, Keeps NotFinished (do sendTlv E A c (c.rnd.sub 1) (← StM.gets fun w => w.st.receiver) t) := fun t =>
    .bind hR (.gets hR _) fun _ => nf_sendTlv
  refine .bind hR (.gets hR _) fun v => ?_
  cases v with
  | v3 => exact .bind hR (nf_onState (nf_onSmp _ _)) k
  | v4 => exact .bind hR (nf_onState (nf_onSmp4 _ _)) k
  | none => exact .bind hR (.lift hR _) k
  | unsupported v => exact .bind hR (.lift hR _) k

theorem SameState.notFinished {i i' : Instance} (h : SameState i i') : NotFinished i i' :=
  ⟨fun x => h.1.symm.trans x, h.2⟩

theorem nf_initiate (v : Version) : Keeps NotFinished (initiate E A c v) := fun w => (same_initiate v w).notFinished

theorem nf_secure (k : UInt32) (mat : AKEMaterial) : Keeps NotFinished (secure E A c k mat) := by
  intro w
  cases h : secure E A c k mat w with
  | mk r w' =>
    rcases secure_inv h with ⟨-, h1⟩ | ⟨-, s, h1⟩
    · show NotFinished w.st w'.st
      rw [h1]; exact ⟨id, rfl⟩
    · show NotFinished w.st w'.st
      rw [h1]; exact ⟨nofun, rfl⟩

theorem nf_secure4 (t o : UInt32) (mat : MixedKeyMaterial) : Keeps NotFinished (onState fun _ => (.ok (), PState.secure4 t o mat)) :=
  fun _ => ⟨nofun, rfl⟩

theorem encrypted_secure {k : UInt32} {mat : AKEMaterial} {w w' : World Instance} {u : Unit}
    (h : secure E A c k mat w = (.ok u, w')) : w'.st.state.status = .encrypted := by
  rcases secure_inv h with ⟨h1, -⟩ | ⟨-, s, h1⟩
  · cases h1
  · rw [h1]; rfl

theorem inject_st {rnd : Rand} {v : Version} {k : UInt32} {m : EncodedMessageType} {w w' : World Instance} {r : Res Unit}
    (h : inject A c rnd v k m w = (r, w')) : w'.st = w.st := by
  have := inject_spec A c rnd v k m w
  rw [h] at this
  exact this

theorem reply_reports {m : EncodedMessage} {x : InstM EncodedMessageType} (hx : Keeps NotFinished x) (v : Version) (k : UInt32)
    (w : World Instance) :
    let f : InstM UserMessage := do
      let r ← x
      inject A c (c.rnd.sub 3) v k r
      return .none
    Reports E c m w.st (f w).1 (f w).2.st := by
  have hR := notFinished_pre
  intro f
  refine .of (Keeps.bind hR hx (fun _ => .bind hR (keeps_inject hR) fun _ => .pure hR _) w) fun um w' h => ?_
  simp only [f, StM.bind_eq_ok, StM.pure_run, Prod.mk.injEq, Res.ok.injEq] at h
  obtain ⟨_, _, _, _, _, _, h, _⟩ := h
  exact .inl h.symm

theorem process_reports (m : EncodedMessage) (w : World Instance) :
    Reports E c m w.st (process E A c m w).1 (process E A c m w).2.st := by
  have hR := notFinished_pre
  unfold process
  rw [StM.bind_run]
  simp only [StM.gets]
  obtain ⟨v, snd, rcv, msg⟩ := m
  have hv : ∀ e, Reports E c ⟨v, snd, rcv, msg⟩ w.st (StM.lift (.err e : Res UserMessage) w).1 (StM.lift (.err e : Res UserMessage) w).2.st :=
    fun e => id
  have hp : Reports E c ⟨v, snd, rcv, msg⟩ w.st (StM.lift (.panic : Res UserMessage) w).1 (StM.lift (.panic : Res UserMessage) w).2.st :=
    id
  cases v with
  | v3 =>
    cases msg with
    | dhCommit msg => exact reply_reports (nf_onAke _) _ _ w
    | dhKey msg => exact reply_reports (nf_onAke _) _ _ w
    | revealSignature msg =>
      refine .of (Keeps.bind hR (nf_onAke _) (fun _ => .bind hR (nf_secure _ _) fun _ => .bind hR (keeps_inject hR) fun _ => .pure hR _) w)
        fun um w' h => ?_
      simp only [StM.bind_eq_ok, StM.pure_run, Prod.mk.injEq, Res.ok.injEq] at h
      obtain ⟨_, _, _, _, w2, h2, _, w3, h3, h4, h5⟩ := h
      refine .inr ⟨h4.symm, ?_⟩
      rw [← h5, inject_st h3]
      exact encrypted_secure h2
    | signature msg =>
      refine .of (Keeps.bind hR (nf_onAke _) (fun _ => .bind hR (nf_secure _ _) fun _ => .pure hR _) w) fun um w' h => ?_
      simp only [StM.bind_eq_ok, StM.pure_run, Prod.mk.injEq, Res.ok.injEq] at h
      obtain ⟨_, _, _, _, w2, h2, h4, h5⟩ := h
      refine .inr ⟨h4.symm, ?_⟩
      rw [← h5]
      exact encrypted_secure h2
    | data msg =>
      simp only [StM.bind_run, attempt, onState]
      cases hh : w.st.state.handle3 E msg (authenticatorData 3 snd rcv msg) (c.rnd.bytes [0] 192) with
      | mk r s' =>
        have key : (∀ m, r = .ok m → Decrypts E c ⟨.v3, snd, rcv, .data msg⟩ w.st.state m) ∧
            (∀ content tlvs, r = .ok (.confidential content tlvs) → s'.status = .encrypted) ∧
            (∀ content, r = .ok (.confidentialFinished content) → s' = .finished) ∧
            ((∀ content, r ≠ .ok (.confidentialFinished content)) → s' = .finished → w.st.state = .finished) := by
          cases hs : w.st.state with
          | encrypted3 x smp =>
            rw [hs, PState.handle3] at hh
            cases hx : Enc3.handle E msg (authenticatorData 3 snd rcv msg) (c.rnd.bytes [0] 192) x with
            | mk r1 x' =>
              rw [hx] at hh
              rcases transition_cases hh with ⟨m, h1, rfl, rfl⟩ | ⟨m, h1, rfl, rfl⟩ | ⟨e, h1, rfl, rfl⟩ | ⟨h1, rfl, rfl⟩
              · simp only [PState.with3] at h1
                subst h1
                obtain ⟨content, rfl⟩ := (handle3_last hx).mp rfl
                refine ⟨fun m h => ?_, nofun, fun _ _ => rfl, fun h => absurd rfl (h content)⟩
                cases h
                exact .inl ⟨x, smp, msg, x', true, rfl, rfl, rfl, hx⟩
              · simp only [PState.with3] at h1
                subst h1
                have hn : ∀ content, m ≠ .confidentialFinished content := fun content h => by
                  have := (handle3_last hx).mpr ⟨content, h⟩
                  cases this
                refine ⟨fun m' h => ?_, fun _ _ _ => rfl, fun content h => ?_, fun _ h => by cases h⟩
                · cases h
                  exact .inl ⟨x, smp, msg, x', false, rfl, rfl, rfl, hx⟩
                · cases h; exact absurd rfl (hn content)
              · exact ⟨nofun, nofun, nofun, fun _ h => by cases h⟩
              · exact ⟨nofun, nofun, nofun, fun _ h => by cases h⟩
          | _ =>
            rw [hs, PState.handle3] at hh
            cases hh
            exact ⟨nofun, nofun, nofun, fun _ h => h⟩
        obtain ⟨k1, k2, k3, k4⟩ := key
        cases r with
        | panic => exact k4 nofun
        | ok m =>
          exact handleDecrypted_reports (m := ⟨.v3, snd, rcv, .data msg⟩) (i := w.st) (w := { w with st := { w.st with state := s' } }) rfl rfl k1 k2 k3 k4
        | err e =>
          exact handleDecrypted_reports (m := ⟨.v3, snd, rcv, .data msg⟩) (i := w.st) (w := { w with st := { w.st with state := s' } }) rfl rfl k1 k2 k3 k4
    | unencoded _ => exact hp
    | _ => exact hv _
  | v4 =>
    cases msg with
    | identity msg => exact reply_reports (nf_onDake _) _ _ w
    | authR msg =>
      refine .of (Keeps.bind hR (nf_onDake _) (fun _ => .bind hR (keeps_inject hR) fun _ => .bind hR (nf_secure4 _ _ _) fun _ => .pure hR _) w)
        fun um w' h => ?_
      simp only [StM.bind_eq_ok, StM.pure_run, Prod.mk.injEq, Res.ok.injEq] at h
      obtain ⟨_, _, _, _, w2, h2, _, w3, h3, h4, h5⟩ := h
      refine .inr ⟨h4.symm, ?_⟩
      rw [← h5]
      simp only [onState, Prod.mk.injEq] at h3
      rw [← h3.2]; rfl
    | authI msg =>
      refine .of (Keeps.bind hR (nf_onDake _) (fun _ => .bind hR (nf_secure4 _ _ _) fun _ => .pure hR _) w) fun um w' h => ?_
      simp only [StM.bind_eq_ok, StM.pure_run, Prod.mk.injEq, Res.ok.injEq] at h
      obtain ⟨_, _, _, _, w2, h2, h4, h5⟩ := h
      refine .inr ⟨h4.symm, ?_⟩
      rw [← h5]
      simp only [onState, Prod.mk.injEq] at h2
      rw [← h2.2]; rfl
    | data4 msg =>
      simp only [StM.bind_run, StM.lift]
      cases hval : msg.validate E with
      | err e => exact id
      | panic => exact id
      | ok u =>
      simp only [attempt, onState]
      cases hh : w.st.state.handle4 E msg (authenticatorData4 4 snd rcv msg) c.now with
      | mk r s' =>
        have key : (∀ m, r = .ok m → Decrypts E c ⟨.v4, snd, rcv, .data4 msg⟩ w.st.state m) ∧
            (∀ content tlvs, r = .ok (.confidential content tlvs) → s'.status = .encrypted) ∧
            (∀ content, r = .ok (.confidentialFinished content) → s' = .finished) ∧
            ((∀ content, r ≠ .ok (.confidentialFinished content)) → s' = .finished → w.st.state = .finished) := by
          cases hs : w.st.state with
          | encrypted4 x smp =>
            rw [hs, PState.handle4] at hh
            cases hx : Enc4.handle E msg (authenticatorData4 4 snd rcv msg) c.now x with
            | mk r1 x' =>
              rw [hx] at hh
              rcases transition_cases hh with ⟨m, h1, rfl, rfl⟩ | ⟨m, h1, rfl, rfl⟩ | ⟨e, h1, rfl, rfl⟩ | ⟨h1, rfl, rfl⟩
              · simp only [PState.with4] at h1
                subst h1
                obtain ⟨content, rfl⟩ := (handle4_last hx).mp rfl
                refine ⟨fun m h => ?_, nofun, fun _ _ => rfl, fun h => absurd rfl (h content)⟩
                cases h
                exact .inr ⟨x, smp, msg, x', true, rfl, rfl, rfl, hval, hx⟩
              · simp only [PState.with4] at h1
                subst h1
                have hn : ∀ content, m ≠ .confidentialFinished content := fun content h => by
                  have := (handle4_last hx).mpr ⟨content, h⟩
                  cases this
                refine ⟨fun m' h => ?_, fun _ _ _ => rfl, fun content h => ?_, fun _ h => by cases h⟩
                · cases h
                  exact .inr ⟨x, smp, msg, x', false, rfl, rfl, rfl, hval, hx⟩
                · cases h; exact absurd rfl (hn content)
              · exact ⟨nofun, nofun, nofun, fun _ h => by cases h⟩
              · exact ⟨nofun, nofun, nofun, fun _ h => by cases h⟩
          | _ =>
            rw [hs, PState.handle4] at hh
            cases hh
            exact ⟨nofun, nofun, nofun, fun _ h => h⟩
        obtain ⟨k1, k2, k3, k4⟩ := key
        cases r with
        | panic => exact k4 nofun
        | ok m =>
          exact handleDecrypted_reports (m := ⟨.v4, snd, rcv, .data4 msg⟩) (i := w.st) (w := { w with st := { w.st with state := s' } }) rfl rfl k1 k2 k3 k4
        | err e =>
          exact handleDecrypted_reports (m := ⟨.v4, snd, rcv, .data4 msg⟩) (i := w.st) (w := { w with st := { w.st with state := s' } }) rfl rfl k1 k2 k3 k4
    | unencoded _ => exact hp
    | _ => exact hv _
  | none => cases msg <;> exact hp
  | unsupported v => cases msg <;> exact hp

end Instance

namespace Instance
variable {E : Env} {A : Account} {c : Call}

/-- The state after a data message was decrypted. -/
def Next (msg : PMessage) (s s' : PState) : Prop :=
  match msg with
  | .confidentialFinished _ => s' = .finished
  | .confidential _ _ => s'.status = .encrypted ∧ s'.version = s.version ∧ s'.ssid? = s.ssid?

theorem process_decrypts {m : EncodedMessage} {i : Instance} {msg : PMessage} (hd : Decrypts E c m i.state msg) (sent : List Bytes) :
    ∃ s' fl, Next msg i.state s' ∧ process E A c m ⟨i, sent⟩ =
      handleDecrypted E A c m.version m.sender fl (.ok msg) ⟨{ i with state := s' }, sent⟩ := by
  obtain ⟨v, snd, rcv, em⟩ := m
  rcases hd with ⟨x, smp, d, x', last, hs, hv, hm, hx⟩ | ⟨x, smp, d, x', last, hs, hv, hm, hval, hx⟩
  · simp only at hv hm
    subst hv hm
    have hl := handle3_last hx
    have hh : i.state.handle3 E d (authenticatorData 3 snd rcv d) (c.rnd.bytes [0] 192) =
        (.ok msg, if last then .finished else .encrypted3 x' smp) := by
      rw [hs, PState.handle3, hx]
      cases last <;> rfl
    refine ⟨if last then .finished else .encrypted3 x' smp, d.flags, ?_, ?_⟩
    · cases msg with
      | confidentialFinished content => rw [if_pos (hl.mpr ⟨content, rfl⟩)]; rfl
      | confidential content tlvs =>
        have : last = false := by
          cases last
          · rfl
          · obtain ⟨_, h⟩ := hl.mp rfl; cases h
        subst this
        rw [hs]
        exact ⟨rfl, rfl, rfl⟩
    · simp only [process, StM.bind_run, StM.gets, attempt, onState, hh]
  · simp only at hv hm
    subst hv hm
    have hl := handle4_last hx
    have hh : i.state.handle4 E d (authenticatorData4 4 snd rcv d) c.now =
        (.ok msg, if last then .finished else .encrypted4 x' smp) := by
      rw [hs, PState.handle4, hx]
      cases last <;> rfl
    refine ⟨if last then .finished else .encrypted4 x' smp, d.flags, ?_, ?_⟩
    · cases msg with
      | confidentialFinished content => rw [if_pos (hl.mpr ⟨content, rfl⟩)]; rfl
      | confidential content tlvs =>
        have : last = false := by
          cases last
          · rfl
          · obtain ⟨_, h⟩ := hl.mp rfl; cases h
        subst this
        rw [hs]
        exact ⟨rfl, rfl, rfl⟩
    · simp only [process, StM.bind_run, StM.gets, StM.lift, hval, attempt, onState, hh]

end Instance

namespace Session
open Instance
variable {E : Env} {A : Account} {c : Call}

/-- All instances keep their state. -/
abbrev Idle : Session → Session → Prop := Rel SameState

theorem idle_pre : Pre Idle := rel_pre same_pre

/-- A computation that keeps the states and reports only texts. -/
def Dull (f : SessM UserMessage) : Prop := Keeps Idle f ∧ ∀ w um w', f w = (.ok um, w') →
  um = .none ∨ (∃ t, um = .plaintext t) ∨ (∃ t, um = .warningUnencrypted t) ∨ ∃ t, um = .error t

theorem idle_query : Keeps Idle (query A) := by
  have hR := idle_pre
  unfold query
  exact .ite (.lift hR _) (.bind hR (.lift hR _) fun _ => .emit hR _)

theorem idle_reportPlain (content : Bytes) : Keeps Idle (reportPlain A content) := by
  have hR := idle_pre
  exact .bind hR (.query hR _) fun _ => .ite (.pure hR _) (.pure hR _)

theorem dull_reportPlain (content : Bytes) : Dull (reportPlain A content) := by
  refine ⟨idle_reportPlain content, fun w um w' h => ?_⟩
  unfold reportPlain at h
  simp only [StM.bind_eq_ok] at h
  obtain ⟨b, w1, _, h⟩ := h
  split at h <;> simp only [StM.pure_run, Prod.mk.injEq, Res.ok.injEq] at h
  · exact .inr (.inr (.inl ⟨_, h.1.symm⟩))
  · exact .inr (.inl ⟨_, h.1.symm⟩)

theorem Dull.bind {x : SessM α} {f : α → SessM UserMessage} (hx : Keeps Idle x) (hf : ∀ a, Dull (f a)) : Dull (x >>= f) := by
  refine ⟨.bind idle_pre hx fun a => (hf a).1, fun w um w' h => ?_⟩
  rw [StM.bind_eq_ok] at h
  obtain ⟨a, w1, _, h⟩ := h
  exact (hf a).2 w1 um w' h

theorem Dull.ite {p : Prop} [Decidable p] {x y : SessM UserMessage} (hx : Dull x) (hy : Dull y) : Dull (if p then x else y) := by
  split <;> assumption

theorem Dull.none : Dull (pure .none) :=
  ⟨.pure idle_pre _, fun w um w' h => by simp only [StM.pure_run, Prod.mk.injEq, Res.ok.injEq] at h; exact .inl h.1.symm⟩

theorem Dull.plaintext (t : Bytes) : Dull (pure (.plaintext t)) :=
  ⟨.pure idle_pre _, fun w um w' h => by
    simp only [StM.pure_run, Prod.mk.injEq, Res.ok.injEq] at h; exact .inr (.inl ⟨t, h.1.symm⟩)⟩

theorem Dull.error (t : Bytes) : Dull (pure (.error t)) :=
  ⟨.pure idle_pre _, fun w um w' h => by
    simp only [StM.pure_run, Prod.mk.injEq, Res.ok.injEq] at h; exact .inr (.inr (.inr ⟨t, h.1.symm⟩))⟩

theorem idle_answerOffer (vs : List Version) : Keeps Idle (answerOffer E A c vs) := by
  have hR := idle_pre
  unfold answerOffer
  split
  · exact .bind hR (keeps_entry same_pre (same_initiate _) _) fun _ => .pure hR _
  · exact .pure hR _

theorem idle_assemble (f : Fragment) (k : UInt32) : Keeps Idle (entry k (assemble f)) :=
  keeps_entry same_pre (fun _ => ⟨rfl, rfl⟩) k

theorem same_adopt (h : Option AKEState × Option DAKEState) : Keeps SameState (adopt h) := by
  have hR := same_pre
  unfold adopt
  split
  · exact .pure hR _
  · exact .bind hR (.gets hR _) fun _ => .bind hR (.lift hR _) fun _ _ => ⟨rfl, rfl⟩

/-- What the report of `receive` says about the instances before and after it: either nothing happened to
any state, or the message `m` was processed by the instance of its sender. -/
def Told (E : Env) (A : Account) (c : Call) (s : Session) (P : EncodedMessage → Prop) (r : Res UserMessage) (s' : Session) : Prop :=
  (Idle s s' ∧ ∀ um, r = .ok um →
    um = .none ∨ (∃ t, um = .plaintext t) ∨ (∃ t, um = .warningUnencrypted t) ∨ ∃ t, um = .error t) ∨
  ∃ m, P m ∧ verifyHeader A m = .ok () ∧ allowed A m.version = true ∧ m.sender ≠ 0 ∧
    (∀ k, k ≠ m.sender → SameState (s.inst k) (s'.inst k)) ∧ Reports E c m (s.inst m.sender) r (s'.inst m.sender)

theorem Dull.told {f : SessM UserMessage} (h : Dull f) (P : EncodedMessage → Prop) (w : World Session) :
    Told E A c w.st P (f w).1 (f w).2.st :=
  .inl ⟨h.1 w, fun um hr => h.2 w um (f w).2 (by rw [← hr])⟩

theorem handle_reports {f : InstM Unit} (hf : Keeps SameState f) (m : EncodedMessage) (w : World Instance) :
    let x := (do f; Instance.handle E A c m : InstM UserMessage) w
    Reports E c m w.st x.1 x.2.st := by
  intro x
  have hx : x = (do f; Instance.handle E A c m : InstM UserMessage) w := rfl
  have hs := hf w
  rw [StM.bind_run] at hx
  cases hr : f w with
  | mk r w1 =>
    rw [hr] at hx hs
    have nf : w1.st.state = .finished → w.st.state = .finished := fun h => hs.1.symm.trans h
    cases r with
    | err e => rw [hx]; exact nf
    | panic => rw [hx]; exact nf
    | ok u =>
      simp only [Instance.handle, StM.bind_run] at hx
      have hs2 := same_clearAssembler m.version w1
      cases hr2 : clearAssembler m.version w1 with
      | mk r2 w2 =>
        rw [hr2] at hx hs2
        have hq := same_pre.trans hs hs2
        have nf : w2.st.state = .finished → w.st.state = .finished := fun h => hq.1.symm.trans h
        cases r2 with
        | err e => rw [hx]; exact nf
        | panic => rw [hx]; exact nf
        | ok u2 =>
          simp only at hx
          rw [hx]
          have := process_reports (E := E) (A := A) (c := c) m w2
          unfold Reports at this ⊢
          have h1 : w2.st.state = w.st.state := hq.1
          have h2 : w2.st.receiver = w.st.receiver := hq.2
          rw [h1, h2] at this
          exact this

theorem told_receiveEncoded {w : World Session} (hi : Inv E w.st) {m : EncodedMessage} (hm : m.sender ≠ 0) :
    Told E A c w.st (· = m) (receiveEncoded E A c m w).1 (receiveEncoded E A c m w).2.st := by
  have hR := idle_pre
  unfold receiveEncoded
  simp only [StM.bind_run, StM.lift]
  cases hv : verifyHeader A m with
  | err e => exact .inl ⟨hR.refl _, nofun⟩
  | panic => exact .inl ⟨hR.refl _, nofun⟩
  | ok u =>
    simp only
    cases hal : allowed A m.version with
    | false => exact .inl ⟨hR.refl _, fun um h => .inl (by cases h; rfl)⟩
    | true =>
      simp only [Bool.not_true, Bool.false_eq_true, if_false]
      obtain ⟨h, hh, ha, hd⟩ := handOver_ok (sent := w.sent) hi m
      rw [StM.bind_run, hh]
      simp only
      have hsec := handle_reports (E := E) (A := A) (c := c) (same_adopt h) m ⟨w.st.inst m.sender, w.sent⟩
      simp only at hsec
      generalize hf : (do adopt h; Instance.handle E A c m : InstM UserMessage) = f at hsec ⊢
      refine .inr ⟨m, rfl, hv, hal, hm, fun j hj => ?_, ?_⟩
      · rw [inst_entry, if_neg (Ne.symm hj)]
        exact same_pre.refl _
      · rw [inst_entry, if_pos rfl, entry_fst]
        exact hsec

theorem told_receiveWhole {w : World Session} (hi : Inv E w.st) (payload : Bytes) :
    Told E A c w.st (fun m => parse E payload = .ok (.encoded m)) (receiveWhole E A c payload w).1
      (receiveWhole E A c payload w).2.st := by
  have hR := idle_pre
  unfold receiveWhole
  rw [StM.bind_run, StM.lift]
  cases hp : parse E payload with
  | err e => exact .inl ⟨hR.refl _, nofun⟩
  | panic => exact .inl ⟨hR.refl _, nofun⟩
  | ok t =>
    cases t with
    | error e => exact Dull.told (.ite (.bind idle_query fun _ => .error _) (.error _)) _ w
    | plaintext content => exact (dull_reportPlain _).told _ w
    | tagged vs content =>
      exact Dull.told (.ite (.bind (idle_answerOffer vs) fun _ => dull_reportPlain _) (dull_reportPlain _)) _ w
    | query vs => exact Dull.told (.bind (idle_answerOffer vs) fun _ => .none) _ w
    | encoded m =>
      simp only
      split
      · exact Dull.told .none _ w
      · rename_i h0
        rcases told_receiveEncoded (A := A) (c := c) hi h0 with h | ⟨m', rfl, h⟩
        · exact .inl h
        · exact .inr ⟨_, rfl, h⟩

theorem Told.after {s s1 s' : Session} {P Q : EncodedMessage → Prop} {r : Res UserMessage} (h : Idle s s1)
    (hpq : ∀ m, P m → Q m) (ht : Told E A c s1 P r s') : Told E A c s Q r s' := by
  rcases ht with ⟨h1, h2⟩ | ⟨m, h1, h2, h3, h4, h5, h6⟩
  · exact .inl ⟨idle_pre.trans h h1, h2⟩
  · refine .inr ⟨m, hpq m h1, h2, h3, h4, fun k hk => same_pre.trans (h.each k) (h5 k hk), ?_⟩
    have h7 := h.each m.sender
    unfold Reports at h6 ⊢
    rw [h7.1, h7.2] at h6
    exact h6

theorem told_receive {w : World Session} (hi : Inv E w.st) (payload : Bytes) :
    Told E A c w.st (Delivers E A w.st payload) (receive E A c payload w).1 (receive E A c payload w).2.st := by
  have hR := idle_pre
  unfold receive
  split
  · exact Dull.told (.plaintext _) _ w
  · split
    · rename_i hf
      unfold receiveFragment
      rw [StM.bind_run, StM.lift]
      cases hp : parseFragment E.nd payload with
      | err e => exact .inl ⟨hR.refl _, nofun⟩
      | panic => exact .inl ⟨hR.refl _, nofun⟩
      | ok o =>
        cases o with
        | none => exact .inl ⟨hR.refl _, fun um h => .inl (by cases h; rfl)⟩
        | some f =>
          simp only [StM.bind_run, StM.lift]
          cases hg1 : Res.guard (verifyFragment f) .protocolViolation with
          | err e => exact .inl ⟨hR.refl _, nofun⟩
          | panic => exact .inl ⟨hR.refl _, nofun⟩
          | ok u =>
            simp only
            cases hg2 : Res.guard (f.receiver == INSTANCE_ZERO || f.receiver == A.tag) .messageForOtherInstance with
            | err e => exact .inl ⟨hR.refl _, nofun⟩
            | panic => exact .inl ⟨hR.refl _, nofun⟩
            | ok u =>
              simp only
              have hidle := idle_assemble f f.sender w
              have hcalm := calm_assemble (E := E) f f.sender w
              have hres : (entry f.sender (assemble f) w).1 = .ok ((w.st.inst f.sender).assembler.assemble f).1 := rfl
              cases he : entry f.sender (assemble f) w with
              | mk r w1 =>
                rw [he] at hcalm hres hidle
                simp only at hres
                subst hres
                simp only
                cases ha : (w.st.inst f.sender).assembler.assemble f with
                | mk ar a =>
                  cases ar with
                  | ok content =>
                    simp only
                    split
                    · exact .inl ⟨hidle, nofun⟩
                    · rename_i hnf
                      refine .after hidle (fun m hm => ?_) (told_receiveWhole (hi.calm hcalm) content)
                      refine .inr ⟨hf, f, w.st.inst f.sender, content, a, hp, guard_true hg1, by simpa [INSTANCE_ZERO] using guard_true hg2, ?_, ha, by simpa using hnf, hm⟩
                      unfold inst
                      cases hl : lookup w.st.instances f.sender with
                      | none => exact .inr ⟨rfl, rfl⟩
                      | some i => exact .inl rfl
                  | err e =>
                    cases e
                    case invalidData => exact .inl ⟨hidle, nofun⟩
                    all_goals exact .inl ⟨hidle, fun um h => .inl (by cases h; rfl)⟩
                  | panic => exact .inl ⟨hidle, nofun⟩
    · rename_i hnf
      exact .after (hR.refl _) (fun m hm => .inl ⟨by simpa using hnf, hm⟩) (told_receiveWhole hi payload)

/-- Only `receive` and `expire` finish sessions. -/
theorem nf_run {s : Session} {op : Op} (h : ∀ p, op ≠ .receive p) (h' : ∀ t, op ≠ .expire t) :
    Rel NotFinished s (op.run E A c s).after := by
  have hR := rel_pre notFinished_pre
  cases op with
  | receive p => exact absurd rfl (h p)
  | expire t => exact absurd rfl (h' t)
  | send k content =>
    rw [Op.run, perform_after]
    refine Keeps.ite (.pure hR _) (.bind hR (.gets hR _) fun st => ?_) ⟨s, []⟩
    cases st with
    | none => exact .lift hR _
    | some st =>
      refine .ite (.bind hR ?_ fun _ => .lift hR _) ?_
      · exact .ite (.lift hR _) (.bind hR (.lift hR _) fun _ => .emit hR _)
      · refine .bind hR (.gets hR _) fun t => .bind hR (keeps_existing notFinished_pre (nf_send t content) k) fun x => ?_
        refine .bind hR (fun w => ?_) fun _ => .pure hR _
        exact ⟨fun _ h => h, id, fun _ => notFinished_pre.refl _⟩
  | initiate v k => rw [Op.run, perform_after]; exact keeps_entry notFinished_pre (nf_initiate v) k ⟨s, []⟩
  | close k => rw [Op.run, perform_after]; exact keeps_existing notFinished_pre nf_reset k ⟨s, []⟩
  | query => rw [Op.run, perform_after]; exact Keeps.ite (.lift hR _) (.bind hR (.lift hR _) fun _ => .emit hR _) ⟨s, []⟩
  | startSmp k secret q => rw [Op.run, perform_after]; exact keeps_existing notFinished_pre (nf_startSmp secret q) k ⟨s, []⟩
  | abortSmp k => rw [Op.run, perform_after]; exact keeps_existing notFinished_pre nf_abortSmp k ⟨s, []⟩

/-- Only the assembler may differ. -/
def SameKex (i i' : Instance) : Prop := ∃ a, i' = { i with assembler := a }

theorem kex_pre : Pre SameKex := ⟨fun i => ⟨i.assembler, rfl⟩, fun h h' => by
  obtain ⟨a, rfl⟩ := h
  obtain ⟨b, rfl⟩ := h'
  exact ⟨b, rfl⟩⟩

theorem SameKex.same {i i' : Instance} (h : SameKex i i') : SameState i i' := by
  obtain ⟨a, rfl⟩ := h
  exact ⟨rfl, rfl⟩

theorem receiveWhole_encoded {payload : Bytes} {m : EncodedMessage} (hp : parse E payload = .ok (.encoded m)) (hm : m.sender ≠ 0)
    (w : World Session) : receiveWhole E A c payload w = receiveEncoded E A c m w := by
  simp only [receiveWhole, StM.bind_run, StM.lift, hp, if_neg hm]

/-- A delivered message is processed, apart from the assembler, in the session as it was. -/
theorem deliver_run (hv : disabled A = false) {s : Session} {payload : Bytes} {m : EncodedMessage} (hd : Delivers E A s payload m)
    (hm : m.sender ≠ 0) :
    ∃ s1, Rel SameKex s s1 ∧ s1.tagged = s.tagged ∧ receive E A c payload ⟨s, []⟩ = receiveEncoded E A c m ⟨s1, []⟩ := by
  unfold receive
  rw [hv]
  simp only [Bool.false_eq_true, if_false]
  rcases hd with ⟨hf, hp⟩ | ⟨hf, f, i, content, a, hp, hver, hrec, hl, ha, hnf, hpc⟩
  · rw [hf]
    exact ⟨s, (rel_pre kex_pre).refl _, rfl, receiveWhole_encoded hp hm _⟩
  · rw [hf]
    have hi : i = s.inst f.sender := by
      unfold inst
      rcases hl with hl | ⟨hl, rfl⟩ <;> rw [hl]
      · rfl
      · rfl
    subst hi
    have hrec' : (f.receiver == INSTANCE_ZERO || f.receiver == A.tag) = true := by
      rcases hrec with h | h <;> simp [h, INSTANCE_ZERO]
    refine ⟨(entry f.sender (assemble f) ⟨s, []⟩).2.st,
      keeps_entry (α := AsmRes) kex_pre (fun w => ⟨(w.st.assembler.assemble f).2, rfl⟩) f.sender ⟨s, []⟩, rfl, ?_⟩
    have hent : entry f.sender (assemble f) ⟨s, []⟩ = (.ok (.ok content), ⟨(entry f.sender (assemble f) ⟨s, []⟩).2.st, []⟩) := by
      simp only [entry, assemble]
      unfold inst at ha
      rw [ha]
    simp only [if_true, receiveFragment, StM.bind_run, StM.lift, hp, Res.guard, hver, hrec']
    rw [hent]
    simp only [hnf, Bool.false_eq_true, if_false]
    exact receiveWhole_encoded hpc hm _

/-- A message for which no context is handed over is processed by the instance of its sender. -/
theorem encoded_run {s : Session} {sent : List Bytes} {m : EncodedMessage} (hv : verifyHeader A m = .ok ())
    (ha : allowed A m.version = true) (hn : ∀ d, m.message ≠ .dhKey d) (hn' : ∀ d, m.message ≠ .authR d) (h4 : m.version = .v3 ∨ m.version = .v4) :
    ∃ i1, SameKex (s.inst m.sender) i1 ∧ receiveEncoded E A c m ⟨s, sent⟩ =
      ((process E A c m ⟨i1, sent⟩).1,
        ⟨{ s with instances := insertKey s.instances m.sender (process E A c m ⟨i1, sent⟩).2.st }, (process E A c m ⟨i1, sent⟩).2.sent⟩) := by
  have hh : handOver m ⟨s, sent⟩ = (.ok (.none, .none), ⟨s, sent⟩) := by
    simp only [handOver, StM.query]
    obtain ⟨v, snd, rcv, msg⟩ := m
    cases v <;> cases msg <;> first | rfl | exact absurd rfl (hn _) | exact absurd rfl (hn' _)
  have hc : ∀ i : Instance, ∃ i1, SameKex i i1 ∧ clearAssembler m.version ⟨i, sent⟩ = (.ok (), ⟨i1, sent⟩) := by
    intro i
    unfold clearAssembler
    rcases h4 with h4 | h4 <;> rw [h4]
    · refine ⟨{ i with assembler := { i.assembler with inorder := .new } }, ⟨_, rfl⟩, ?_⟩
      simp [StM.bind_run, StM.query, Assembler.cleanup, StM.modify]
    · exact ⟨i, kex_pre.refl _, rfl⟩
  obtain ⟨i1, h1, h2⟩ := hc (s.inst m.sender)
  refine ⟨i1, h1, ?_⟩
  simp only [receiveEncoded, StM.bind_run, StM.lift, hv, ha, Bool.not_true, Bool.false_eq_true, if_false, hh, entry, adopt,
    Instance.handle]
  have : (lookup s.instances m.sender).getD (.new m.sender) = s.inst m.sender := rfl
  simp only [this, StM.pure_run, h2]

end Session
end Otrr
