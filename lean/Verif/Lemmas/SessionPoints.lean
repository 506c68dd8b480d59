import Verif.Props.DakeSafe
import Verif.Props.SessionLife
import Verif.Lemmas.Safe4
import Verif.Lemmas.SessionHist
/-!
# The points in a session

All points of the curve that a client takes from messages are on the curve, and the ratchets of its sessions are sound.
-/

namespace Otrr
open Spec

/-- The points in the state of the exchange are on the curve. -/
def DakePts (E : Env) (d : DAKEState) : Prop := ∀ st, d = .awaitingAuthI st → OnCurve E.curve st.ecdh0Other

/-- The ratchet is sound. -/
def Sound4 (E : Env) (d : DoubleRatchet) : Prop := Weak4 E d ∧ HasReveals d

/-- The ratchet of the session is sound. -/
def StatePts (E : Env) (s : PState) : Prop := ∀ x smp, s = .encrypted4 x smp → Sound4 E x.ratchet

structure Pts (E : Env) (i : Instance) : Prop where
  dake : DakePts E i.dake
  state : StatePts E i.state

def PtsRel (E : Env) (i i' : Instance) : Prop := Pts E i → Pts E i'

theorem pts_pre (E : Env) : Pre (PtsRel E) := ⟨fun _ => id, fun h h' => h' ∘ h⟩

/-- The points that a decoded message has. -/
def PointsOk (E : Env) : EncodedMessageType → Prop
  | .identity m => DecodedIdentity E m
  | .authR m => DecodedAuthR E m
  | .data4 m => OnCurve E.curve m.ecdh
  | _ => True

theorem data4_onCurve {E : Env} (hf : GoodField E.curve) {b rest : Bytes} {m : DataMessage4} (h : readDataMessage4 E b = .ok (m, rest)) :
    OnCurve E.curve m.ecdh := by
  unfold readDataMessage4 at h
  simp only [Dec.bind_eq_ok, Dec.pure_run, Res.ok.injEq, Prod.mk.injEq] at h
  obtain ⟨_, _, _, _, _, _, _, _, _, _, _, _, P, _, hP, _, _, _, _, _, _, _, _, _, _, _, _, rfl, _⟩ := h
  exact Props.readPoint_onCurve hf hP

theorem parse_points {E : Env} (hf : GoodField E.curve) {text : Bytes} {m : EncodedMessage} (h : parse E text = .ok (.encoded m)) :
    PointsOk E m.message := by
  obtain ⟨d, d', hr⟩ := parse_readEncoded h
  unfold readEncoded at hr
  simp only [Dec.bind_eq_ok, Dec.pure_run, Res.ok.injEq, Prod.mk.injEq] at hr
  obtain ⟨v, s1, _, t, s2, _, sn, s3, h3, rc, s4, h4, x, s5, h5, rfl, _⟩ := hr
  simp only
  unfold readContent at h5
  split at h5
  · repeat' split at h5
    all_goals simp only [Dec.bind_eq_ok, Dec.pure_run, Res.ok.injEq, Prod.mk.injEq, Dec.fail_run, reduceCtorEq] at h5
    all_goals obtain ⟨x, _, h1, rfl, h3⟩ := h5
    all_goals trivial
  · repeat' split at h5
    all_goals simp only [Dec.bind_eq_ok, Dec.pure_run, Res.ok.injEq, Prod.mk.injEq, Dec.fail_run, reduceCtorEq] at h5
    all_goals obtain ⟨x, _, h1, rfl, h3⟩ := h5
    · exact ⟨_, _, h1⟩
    · exact ⟨_, _, h1⟩
    · trivial
    · exact data4_onCurve hf h1
  · cases h5

namespace Instance
variable {E : Env} {A : Account} {c : Call}

/-- A computation and what is known of its result. -/
def Gives (E : Env) (f : InstM α) (Q : α → Prop) : Prop := ∀ w, Pts E w.st → Pts E (f w).2.st ∧ ∀ a, (f w).1 = .ok a → Q a

theorem Gives.bind {f : InstM α} {g : α → InstM β} {Q : α → Prop} (hf : Gives E f Q) (hg : ∀ a, Q a → Keeps (PtsRel E) (g a)) :
    Keeps (PtsRel E) (f >>= g) := by
  intro w hw
  obtain ⟨h1, h2⟩ := hf w hw
  rw [StM.bind_run]
  cases hr : f w with
  | mk r w' =>
    rw [hr] at h1 h2
    cases r with
    | ok a => exact hg a (h2 a rfl) w' h1
    | err e => exact h1
    | panic => exact h1

theorem pts_onAke (f : StM AKEState α) : Keeps (PtsRel E) (onAke f) := fun _ h => ⟨h.dake, h.state⟩

theorem pts_onState {f : StM PState α} (hf : ∀ s, StatePts E s → StatePts E (f s).2) : Keeps (PtsRel E) (onState f) :=
  fun _ h => ⟨h.dake, hf _ h.state⟩

theorem gives_onDake {f : StM DAKEState α} {Q : α → Prop} (hf : ∀ s, DakePts E s → DakePts E (f s).2 ∧ ∀ a, (f s).1 = .ok a → Q a) :
    Gives E (onDake f) Q := fun _ h => ⟨⟨(hf _ h.dake).1, h.state⟩, (hf _ h.dake).2⟩

theorem pts_onDake {f : StM DAKEState α} (hf : ∀ s, DakePts E s → DakePts E (f s).2) : Keeps (PtsRel E) (onDake f) :=
  fun _ h => ⟨hf _ h.dake, h.state⟩

theorem dakePts_initial : DakePts E .initial := fun _ h => by cases h
theorem dakePts_authR (st : AwaitingAuthR) : DakePts E (.awaitingAuthR st) := fun _ h => by cases h

theorem transact_pts {f : DAKEState → Res (α × DAKEState)} (hf : ∀ s a s', DakePts E s → f s = .ok (a, s') → DakePts E s') (s : DAKEState)
    (hs : DakePts E s) : DakePts E (StM.transact f s).2 := by
  unfold StM.transact
  cases h : f s with
  | ok x => exact hf s x.1 x.2 hs h
  | err e => exact hs
  | panic => exact hs

theorem transact_gives {f : DAKEState → Res (α × DAKEState)} {Q : α → Prop}
    (hf : ∀ s a s', DakePts E s → f s = .ok (a, s') → DakePts E s' ∧ Q a) (s : DAKEState)
    (hs : DakePts E s) : DakePts E (StM.transact f s).2 ∧ ∀ a, (StM.transact f s).1 = .ok a → Q a := by
  unfold StM.transact
  cases h : f s with
  | ok x => exact ⟨(hf s x.1 x.2 hs h).1, fun a ha => by cases ha; exact (hf s x.1 x.2 hs h).2⟩
  | err e => exact ⟨hs, fun a ha => by cases ha⟩
  | panic => exact ⟨hs, fun a ha => by cases ha⟩

theorem pts_dakeInitiate (host : DAKEHost) (rnd : Rand) : Keeps (PtsRel E) (onDake (DAKE.initiate E host rnd)) := by
  refine pts_onDake (transact_pts fun s a s' _ h => ?_)
  split at h
  · simp only [Res.bind_eq_ok, Res.pure_def, Res.ok.injEq, Prod.mk.injEq] at h
    obtain ⟨_, _, _, rfl⟩ := h
    exact dakePts_authR _
  · cases h

theorem answerIdentity_pts {host : DAKEHost} {m : IdentityMessage} {bob : ClientProfile} {rnd : Rand} {a : EncodedMessageType} {s' : DAKEState}
    (hm : OnCurve E.curve m.ecdh0) (h : DAKE.answerIdentity E host m bob rnd = .ok (a, s')) : DakePts E s' := by
  unfold DAKE.answerIdentity at h
  simp only [Res.bind_eq_ok, Res.pure_def, Res.ok.injEq, Prod.mk.injEq] at h
  obtain ⟨_, _, _, _, _, _, _, _, _, rfl⟩ := h
  intro st hst
  cases hst
  exact hm

theorem pts_handleIdentity {host : DAKEHost} {m : IdentityMessage} {rnd : Rand} (hm : OnCurve E.curve m.ecdh0) :
    Keeps (PtsRel E) (onDake (DAKE.handleIdentity E host m rnd)) := by
  refine pts_onDake (transact_pts fun s a s' hs h => ?_)
  rw [Res.bind_eq_ok] at h
  obtain ⟨bob, _, h⟩ := h
  split at h
  · split at h
    · cases h; exact hs
    · exact answerIdentity_pts hm h
  · exact answerIdentity_pts hm h

theorem gives_handleAuthR {host : DAKEHost} {m : AuthRMessage} {rnd : Rand} {now : Nat} (hm : OnCurve E.curve m.ecdh0) :
    Gives E (onDake (DAKE.handleAuthR E host m rnd now)) fun x => Sound4 E x.1.ratchet := by
  refine gives_onDake (transact_gives fun s a s' _ h => ?_)
  split at h
  · rw [Res.bind_eq_ok] at h
    obtain ⟨r, hr, h⟩ := h
    cases h
    refine ⟨dakePts_initial, ?_⟩
    unfold DAKE.answerAuthR at hr
    simp only [Res.bind_eq_ok, Res.pure_def, Res.ok.injEq] at hr
    obtain ⟨_, _, _, _, _, _, _, _, k, _, first, hf, d, hd, rfl⟩ := hr
    exact fresh4_weak hf hm (.inr ⟨_, _, hd⟩)
  · cases h

theorem gives_handleAuthI {host : DAKEHost} {m : AuthIMessage} {now : Nat} :
    Gives E (onDake (DAKE.handleAuthI E host m now)) fun x => Sound4 E x.ratchet := by
  refine gives_onDake (transact_gives fun s a s' hs h => ?_)
  split at h
  · rename_i st
    rw [Res.bind_eq_ok] at h
    obtain ⟨r, hr, h⟩ := h
    cases h
    refine ⟨hs, ?_⟩
    unfold DAKE.acceptAuthI at hr
    simp only [Res.bind_eq_ok, Res.pure_def, Res.ok.injEq] at hr
    obtain ⟨_, _, _, _, _, _, first, hf, rfl⟩ := hr
    exact fresh4_weak hf (hs st rfl) (.inl rfl)
  · cases h

theorem onRatchet_pts {f : DoubleRatchet → Res (α × DoubleRatchet)} {x : Enc4} (hx : Sound4 E x.ratchet)
    (hf : ∀ a d', f x.ratchet = .ok (a, d') → Sound4 E d') : Sound4 E (Enc4.onRatchet f x).2.ratchet := by
  unfold Enc4.onRatchet
  cases h : f x.ratchet with
  | ok y => exact hf y.1 y.2 h
  | err e => exact hx
  | panic => exact hx

theorem statePts4 {x : Enc4} {smp : SMP4Context} : StatePts E (.encrypted4 x smp) ↔ Sound4 E x.ratchet :=
  ⟨fun h => h _ _ rfl, fun h _ _ e => by cases e; exact h⟩

theorem statePts_of {s : PState} (h : ∀ x smp, s ≠ .encrypted4 x smp) : StatePts E s := fun x smp e => absurd e (h x smp)

theorem encrypt_pts {flags : UInt8} {content : Bytes} {rnd : Rand} {now : Nat} {x : Enc4} (hx : Sound4 E x.ratchet) :
    Sound4 E (Enc4.encrypt E flags content rnd now x).2.ratchet :=
  onRatchet_pts hx fun _ _ h => hx.1.send h

theorem prepare_pts {flags : UInt8} {content : Bytes} {rnd : Rand} {now : Nat} (s : PState) (hs : StatePts E s) :
    StatePts E (PState.prepare E flags content rnd now s).2 := by
  cases s with
  | encrypted4 x smp =>
    rw [statePts4] at hs
    have h1 := encrypt_pts (flags := flags) (content := content) (rnd := rnd) (now := now) hs
    unfold PState.prepare PState.with4
    simp only [StM.bind_run]
    cases h : Enc4.encrypt E flags content rnd now x with
    | mk r x' =>
      rw [h] at h1
      cases r <;> exact statePts4.mpr h1
  | plaintext => exact hs
  | encrypted3 x smp =>
    unfold PState.prepare PState.with3
    exact statePts_of fun _ _ h => by cases h
  | finished => exact hs

theorem transition_pts {y : Res (PMessage × Bool) × PState} (h : StatePts E y.2) : StatePts E (PState.transition y).2 := by
  unfold PState.transition
  split
  · exact statePts_of fun _ _ h => by cases h
  · exact h
  · exact h
  · exact h

theorem handle3_pts {m : DataMessage} {ad fresh : Bytes} (s : PState) (hs : StatePts E s) : StatePts E (PState.handle3 E m ad fresh s).2 := by
  cases s with
  | encrypted3 x smp => exact transition_pts (statePts_of fun _ _ h => by cases h)
  | plaintext => exact hs
  | encrypted4 x smp => exact hs
  | finished => exact hs

theorem handle4_pts {m : DataMessage4} (hm : OnCurve E.curve m.ecdh) {ad : Bytes} {now : Nat} (s : PState) (hs : StatePts E s) :
    StatePts E (PState.handle4 E m ad now s).2 := by
  cases s with
  | encrypted4 x smp =>
    rw [statePts4] at hs
    refine transition_pts (statePts4.mpr ?_)
    have h1 : Sound4 E (Enc4.onRatchet (decrypt4 E m ad now) x).2.ratchet := onRatchet_pts hs fun _ _ h => hs.1.recv hm h
    cases h : Enc4.onRatchet (decrypt4 E m ad now) x with
    | mk r x' =>
      rw [h] at h1
      cases r with
      | ok plain => dsimp only; split <;> exact h1
      | err e => exact h1
      | panic => exact h1
  | plaintext => exact hs
  | encrypted3 x smp => exact hs
  | finished => exact hs

theorem disconnect_pts {rnd : Rand} {now : Nat} {x x' : Enc4} {r : Res DataMessage4} (hx : Sound4 E x.ratchet)
    (h : Enc4.disconnect E rnd now x = (r, x')) (hr : ∀ m, r ≠ .ok m) : Sound4 E x'.ratchet := by
  unfold Enc4.disconnect Enc4.onRatchet at h
  split at h
  · cases h; exact absurd rfl (hr _)
  · cases h; exact hx
  · cases h; exact hx

theorem finish_pts {rnd : Rand} {now : Nat} (s : PState) (hs : StatePts E s) : StatePts E (PState.finish E rnd now s).2 := by
  cases s with
  | encrypted4 x smp =>
    rw [statePts4] at hs
    unfold PState.finish
    dsimp only
    split
    · exact statePts_of fun _ _ h => by cases h
    · rename_i h; exact statePts4.mpr (disconnect_pts hs h fun _ e => by cases e)
    · rename_i h; exact statePts4.mpr (disconnect_pts hs h fun _ e => by cases e)
  | plaintext => exact hs
  | encrypted3 x smp =>
    unfold PState.finish
    dsimp only
    split <;> exact statePts_of fun _ _ h => by cases h
  | finished => exact statePts_of fun _ _ h => by cases h

theorem expire_pts {t : Nat} {rnd : Rand} {now : Nat} (s : PState) (hs : StatePts E s) : StatePts E (PState.expire E t rnd now s).2 := by
  cases s with
  | encrypted4 x smp =>
    have hs' := statePts4.mp hs
    unfold PState.expire
    dsimp only
    split
    · split
      · exact statePts_of fun _ _ h => by cases h
      · rename_i h; exact statePts4.mpr (disconnect_pts hs' h fun _ e => by cases e)
      · rename_i h; exact statePts4.mpr (disconnect_pts hs' h fun _ e => by cases e)
    · exact hs
  | plaintext => exact hs
  | encrypted3 x smp => exact hs
  | finished => exact hs

theorem onSmp_pts {f : StM SMPContext α} {e : OTRError} (s : PState) (hs : StatePts E s) : StatePts E (PState.onSmp f e s).2 := by
  cases s with
  | encrypted3 x smp => exact statePts_of fun _ _ h => by cases h
  | plaintext => exact hs
  | encrypted4 x smp => exact hs
  | finished => exact hs

theorem onSmp4_pts {f : StM SMP4Context α} {e : OTRError} (s : PState) (hs : StatePts E s) : StatePts E (PState.onSmp4 f e s).2 := by
  cases s with
  | encrypted4 x smp => exact statePts4.mpr (statePts4.mp hs)
  | plaintext => exact hs
  | encrypted3 x smp => exact hs
  | finished => exact hs

theorem smpHandle_pts {rnd : Rand} {v : Version} {t : TLV} (s : PState) (hs : StatePts E s) : StatePts E (smpHandle E c rnd v t s).2 := by
  unfold smpHandle
  split
  · exact onSmp_pts s hs
  · exact onSmp4_pts s hs

theorem pts_sendTlv {rnd : Rand} {k : UInt32} {t : TLV} : Keeps (PtsRel E) (sendTlv E A c rnd k t) := by
  have hR := pts_pre E
  exact .bind hR (.lift hR _) fun _ => .bind hR (pts_onState prepare_pts) fun _ => .bind hR (.gets hR _) fun _ => keeps_inject hR

theorem pts_handleSmp {v : Version} {k : UInt32} {tlvs : List TLV} : Keeps (PtsRel E) (handleSmp E A c v k tlvs) := by
  have hR := pts_pre E
  unfold handleSmp
  refine .ite (.lift hR _) ?_
  split
  · exact .lift hR _
  · refine .bind hR (pts_onState smpHandle_pts) fun r => ?_
    have rest : Keeps (PtsRel E) (do
        let own ← StM.gets fun w : World Instance => w.st.receiver
        match ← StM.query fun w => smpStatus v w.st.state with
        | .inProgress => return UserMessage.none
        | .completed => return .smpSucceeded own
        | .aborted => return .smpFailed own
        | .initial => StM.lift .panic) := by
      refine .bind hR (.gets hR _) fun _ => .bind hR (.query hR _) fun s => ?_
      cases s <;> first | exact .pure hR _ | exact .lift hR _
    cases r with
    | none => exact rest
    | some t => exact .bind hR pts_sendTlv fun _ => rest

theorem pts_handleDecrypted {v : Version} {k : UInt32} {flags : UInt8} (r : Res PMessage) :
    Keeps (PtsRel E) (handleDecrypted E A c v k flags r) := by
  have hR := pts_pre E
  refine .bind hR (.gets hR _) fun _ => ?_
  split
  · exact .ite pts_handleSmp (.pure hR _)
  · exact .pure hR _
  · exact .bind hR (.lift hR _) fun _ => .bind hR (.emit hR _) fun _ => .ite (.pure hR _) (.lift hR _)
  · exact .lift hR _
  · exact .lift hR _

theorem pts_secure {k : UInt32} {mat : AKEMaterial} : Keeps (PtsRel E) (secure E A c k mat) := by
  refine pts_onState fun s hs => ?_
  cases h : s.secure3 E A.tag k mat (c.rnd.sub 1) with
  | ok s' =>
    refine statePts_of fun x smp e => ?_
    simp only at e
    subst e
    cases s <;> simp only [PState.secure3, Res.bind_eq_ok, Res.pure_def, Res.ok.injEq, reduceCtorEq, and_false, exists_false] at h
  | err e => exact hs
  | panic => exact hs

theorem pts_secure4 {our their : UInt32} {mat : MixedKeyMaterial} (h : Sound4 E mat.ratchet) :
    Keeps (PtsRel E) (onState fun _ => (.ok (), PState.secure4 our their mat)) :=
  pts_onState fun _ _ => statePts4.mpr h

theorem pts_process (hf : GoodField E.curve) {m : EncodedMessage} (hm : PointsOk E m.message) : Keeps (PtsRel E) (process E A c m) := by
  have hR := pts_pre E
  refine .bind hR (.gets hR _) fun own => ?_
  obtain ⟨v, snd, rcv, b⟩ := m
  dsimp only at hm ⊢
  cases v with
  | v3 =>
    cases b with
    | dhCommit d => exact .bind hR (pts_onAke _) fun _ => .bind hR (keeps_inject hR) fun _ => .pure hR _
    | dhKey d => exact .bind hR (pts_onAke _) fun _ => .bind hR (keeps_inject hR) fun _ => .pure hR _
    | revealSignature d =>
      exact .bind hR (pts_onAke _) fun _ => .bind hR pts_secure fun _ => .bind hR (keeps_inject hR) fun _ => .pure hR _
    | signature d => exact .bind hR (pts_onAke _) fun _ => .bind hR pts_secure fun _ => .pure hR _
    | data d => exact .bind hR (.attempt (pts_onState handle3_pts)) fun r => pts_handleDecrypted r
    | _ => exact .lift hR _
  | v4 =>
    cases b with
    | identity d =>
      exact .bind hR (pts_handleIdentity (Props.decodedIdentity_onCurve hf hm).2.1) fun _ => .bind hR (keeps_inject hR) fun _ => .pure hR _
    | authR d =>
      refine Gives.bind (gives_handleAuthR (Props.decodedAuthR_onCurve hf hm).2.1) fun x hx => ?_
      exact .bind hR (keeps_inject hR) fun _ => .bind hR (pts_secure4 hx) fun _ => .pure hR _
    | authI d => exact Gives.bind gives_handleAuthI fun x hx => .bind hR (pts_secure4 hx) fun _ => .pure hR _
    | data4 d =>
      exact .bind hR (.lift hR _) fun _ => .bind hR (.attempt (pts_onState (handle4_pts hm))) fun r => pts_handleDecrypted r
    | _ => exact .lift hR _
  | none => cases b <;> exact .lift hR _
  | unsupported n => cases b <;> exact .lift hR _

theorem pts_handle (hf : GoodField E.curve) {m : EncodedMessage} (hm : PointsOk E m.message) : Keeps (PtsRel E) (handle E A c m) := by
  refine .bind (pts_pre E) ?_ fun _ => pts_process hf hm
  intro w hw
  unfold clearAssembler
  split
  · exact ⟨hw.dake, hw.state⟩
  · exact hw

theorem pts_initiate (v : Version) : Keeps (PtsRel E) (initiate E A c v) := by
  have hR := pts_pre E
  have rest : ∀ m, Keeps (PtsRel E) (do
      inject A c (c.rnd.sub 1) v (← StM.gets fun w : World Instance => w.st.receiver) m
      return UserMessage.none) := fun m =>
    .bind hR (.gets hR _) fun _ => .bind hR (keeps_inject hR) fun _ => .pure hR _
  cases v with
  | v3 => exact .bind hR (pts_onAke _) rest
  | v4 => exact .bind hR (pts_dakeInitiate _ _) rest
  | none => exact .bind hR (.lift hR _) rest
  | unsupported n => exact .bind hR (.lift hR _) rest

theorem pts_reset : Keeps (PtsRel E) (reset E A c) := by
  have hR := pts_pre E
  refine .bind hR (.gets hR _) fun _ => .bind hR (.gets hR _) fun _ => .bind hR (.gets hR _) fun _ =>
    .bind hR (pts_onState finish_pts) fun o => .bind hR (.gets hR _) fun _ => .ite (.bind hR (.lift hR _) fun _ => .pure hR _) ?_
  cases o with
  | none => exact .pure hR _
  | some m => exact .bind hR (keeps_inject hR) fun _ => .pure hR _

theorem pts_send (t : Bool) (content : Bytes) : Keeps (PtsRel E) (send E A c t content) := by
  have hR := pts_pre E
  refine .bind hR (pts_onState prepare_pts) fun m => ?_
  cases m with
  | unencoded b =>
    exact .bind hR (.gets hR _) fun _ => .bind hR (.lift hR _) fun _ =>
      .ite (.bind hR (.lift hR _) fun _ => .pure hR _) (.bind hR (.lift hR _) fun _ => .pure hR _)
  | _ =>
    exact .bind hR (.gets hR _) fun _ => .bind hR (.gets hR _) fun _ => .bind hR (.lift hR _) fun _ => .bind hR (.lift hR _) fun _ =>
      .pure hR _

theorem pts_startSmp (secret question : Bytes) : Keeps (PtsRel E) (startSmp E A c secret question) := by
  have hR := pts_pre E
  refine .bind hR (.gets hR _) fun v => ?_
  have rest : ∀ tlv, Keeps (PtsRel E) (do
      sendTlv E A c (c.rnd.sub 1) (← StM.gets fun w : World Instance => w.st.receiver) tlv) := fun _ =>
    .bind hR (.gets hR _) fun _ => pts_sendTlv
  cases v with
  | v3 => exact .bind hR (pts_onState onSmp_pts) rest
  | v4 => exact .bind hR (pts_onState onSmp4_pts) rest
  | none => exact .bind hR (.lift hR _) rest
  | unsupported n => exact .bind hR (.lift hR _) rest

theorem pts_abortSmp : Keeps (PtsRel E) (abortSmp E A c) := by
  have hR := pts_pre E
  refine .bind hR (.gets hR _) fun v => ?_
  have rest : ∀ tlv, Keeps (PtsRel E) (do
      sendTlv E A c (c.rnd.sub 1) (← StM.gets fun w : World Instance => w.st.receiver) tlv) := fun _ =>
    .bind hR (.gets hR _) fun _ => pts_sendTlv
  cases v with
  | v3 => exact .bind hR (pts_onState onSmp_pts) rest
  | v4 => exact .bind hR (pts_onState onSmp4_pts) rest
  | none => exact .bind hR (.lift hR _) rest
  | unsupported n => exact .bind hR (.lift hR _) rest

theorem pts_expire (rnd : Rand) (t : Nat) : Keeps (PtsRel E) (expire E A c rnd t) := by
  have hR := pts_pre E
  refine .bind hR (.gets hR _) fun v => .bind hR (pts_onState expire_pts) fun o => ?_
  cases o with
  | none => exact .pure hR _
  | some m => exact .bind hR (.gets hR _) fun _ => keeps_inject hR

end Instance

namespace Session
open Instance
variable {E : Env} {A : Account} {c : Call}

/-- What instance 0 hands over. -/
def HandsOver (h : Option AKEState × Option DAKEState) : Prop := ∀ d, h.2 = some d → ∃ st, d = .awaitingAuthR st

theorem handOver_waits {m : EncodedMessage} {w : World Session} {h : Option AKEState × Option DAKEState} (hh : (handOver m w).1 = .ok h) :
    HandsOver h := by
  intro d hd
  unfold handOver StM.query at hh
  dsimp only at hh
  split at hh
  · rw [Res.bind_eq_ok] at hh
    obtain ⟨i, _, hh⟩ := hh
    split at hh <;> cases hh <;> cases hd
  · rw [Res.bind_eq_ok] at hh
    obtain ⟨i, _, hh⟩ := hh
    split at hh
    · rename_i ht
      cases hh
      cases hd
      unfold DAKE.transfer at ht
      split at ht
      · cases ht; exact ⟨_, rfl⟩
      · cases ht
    · cases hh; cases hd
  · cases hh; cases hd

theorem pts_adopt {h : Option AKEState × Option DAKEState} (hh : HandsOver h) : Keeps (PtsRel E) (adopt h) := by
  have hR := pts_pre E
  have key : ∀ a d, HandsOver (a, d) → Keeps (PtsRel E) (do
      StM.lift (Res.assert ((← StM.gets fun w : World Instance => w.st.receiver) != 0))
      StM.modify fun w : World Instance => { w with st := { w.st with ake := a.getD w.st.ake, dake := d.getD w.st.dake } }) := by
    intro a d hd
    refine .bind hR (.gets hR _) fun _ => .bind hR (.lift hR _) fun _ w hw => ⟨?_, hw.state⟩
    cases d with
    | none => exact hw.dake
    | some x =>
      obtain ⟨st, rfl⟩ := hd x rfl
      exact dakePts_authR st
  obtain ⟨a, d⟩ := h
  cases a <;> cases d
  · exact .pure hR _
  all_goals exact key _ _ hh

theorem pts_query : Keeps (Rel (PtsRel E)) (query A) := by
  have hR := rel_pre (pts_pre E)
  unfold query
  exact .ite (.lift hR _) (.bind hR (.lift hR _) fun _ => .emit hR _)

theorem pts_sinitiate (v : Version) (k : UInt32) : Keeps (Rel (PtsRel E)) (initiate E A c v k) :=
  keeps_entry (pts_pre E) (Instance.pts_initiate v) k

theorem pts_reportPlain (content : Bytes) : Keeps (Rel (PtsRel E)) (reportPlain A content) := by
  have hR := rel_pre (pts_pre E)
  exact .bind hR (.query hR _) fun _ => .ite (.pure hR _) (.pure hR _)

theorem pts_answerOffer (vs : List Version) : Keeps (Rel (PtsRel E)) (answerOffer E A c vs) := by
  have hR := rel_pre (pts_pre E)
  unfold answerOffer
  split
  · exact .bind hR (pts_sinitiate _ _) fun _ => .pure hR _
  · exact .pure hR _

/-- A bind that keeps in mind where the value comes from. -/
theorem keeps_known {R : σ → σ → Prop} (hR : Pre R) {x : StM (World σ) α} {f : α → StM (World σ) β} (hx : Keeps R x)
    (hf : ∀ a, (∃ w, (x w).1 = .ok a) → Keeps R (f a)) : Keeps R (x >>= f) := by
  intro w
  have h := hx w
  rw [StM.bind_run]
  cases hr : x w with
  | mk r w' =>
    rw [hr] at h
    cases r with
    | ok a => exact hR.trans h (hf a ⟨w, by rw [hr]⟩ w')
    | err e => exact h
    | panic => exact h

theorem pts_receiveWhole (hf : GoodField E.curve) (payload : Bytes) : Keeps (Rel (PtsRel E)) (receiveWhole E A c payload) := by
  have hR := rel_pre (pts_pre E)
  refine keeps_known hR (.lift hR _) fun x hx => ?_
  obtain ⟨_, hx⟩ := hx
  have hx : parse E payload = .ok x := hx
  cases x with
  | error e => exact .ite (.bind hR pts_query fun _ => .pure hR _) (.pure hR _)
  | plaintext t => exact pts_reportPlain t
  | tagged vs t => exact .ite (.bind hR (pts_answerOffer vs) fun _ => pts_reportPlain t) (pts_reportPlain t)
  | query vs => exact .bind hR (pts_answerOffer vs) fun _ => .pure hR _
  | encoded m =>
    refine .ite (.pure hR _) (.bind hR (.lift hR _) fun _ => .ite (.pure hR _) (keeps_known hR (.query hR _) fun h hh => ?_))
    obtain ⟨_, hh⟩ := hh
    exact keeps_entry (pts_pre E) (.bind (pts_pre E) (pts_adopt (handOver_waits hh)) fun _ => pts_handle hf (parse_points hf hx)) _

theorem pts_assemble (f : Fragment) : Keeps (PtsRel E) (assemble f) := fun _ hw => ⟨hw.dake, hw.state⟩

theorem pts_receive (hf : GoodField E.curve) (payload : Bytes) : Keeps (Rel (PtsRel E)) (receive E A c payload) := by
  have hR := rel_pre (pts_pre E)
  refine .ite (.pure hR _) (.ite (.bind hR (.lift hR _) fun o => ?_) (pts_receiveWhole hf payload))
  cases o with
  | none => exact .pure hR _
  | some f =>
    refine .bind hR (.lift hR _) fun _ => .bind hR (.lift hR _) fun _ =>
      .bind hR (keeps_entry (pts_pre E) (pts_assemble f) f.sender) fun r => ?_
    cases r with
    | ok t => exact .ite (.lift hR _) (pts_receiveWhole hf t)
    | err e => cases e <;> exact .lift hR _
    | panic => exact .lift hR _

theorem pts_ssend (k : UInt32) (content : Bytes) : Keeps (Rel (PtsRel E)) (send E A c k content) := by
  have hR := rel_pre (pts_pre E)
  refine .ite (.pure hR _) (.bind hR (.gets hR _) fun st => ?_)
  cases st with
  | none => exact .lift hR _
  | some st =>
    refine .ite (.bind hR pts_query fun _ => .lift hR _) ?_
    refine .bind hR (.gets hR _) fun t => .bind hR (keeps_existing (pts_pre E) (Instance.pts_send t content) k) fun x => ?_
    refine .bind hR (fun _ => ?_) fun _ => .pure hR _
    exact ⟨fun _ h => h, id, fun _ => (pts_pre E).refl _⟩

theorem pts_expireAll (t n : Nat) (ks : List UInt32) : Keeps (Rel (PtsRel E)) (expireAll E A c t n ks) := by
  induction ks generalizing n with
  | nil => exact .pure (rel_pre (pts_pre E)) _
  | cons k ks ih =>
    exact .bind (rel_pre (pts_pre E)) (keeps_existing (pts_pre E) (Instance.pts_expire _ t) k) fun _ => ih _

theorem pts_run (hf : GoodField E.curve) (op : Op) (s : Session) : Rel (PtsRel E) s (op.run E A c s).after := by
  have key : ∀ {α : Type} {f : SessM α} {g : α → Answer}, Keeps (Rel (PtsRel E)) f → Rel (PtsRel E) s (perform f g s).after := by
    intro α f g h
    rw [perform_after]
    exact h ⟨s, []⟩
  cases op with
  | receive p => exact key (pts_receive hf p)
  | send k t => exact key (pts_ssend k t)
  | initiate v k => exact key (pts_sinitiate v k)
  | close k => exact key (keeps_existing (pts_pre E) Instance.pts_reset k)
  | query => exact key pts_query
  | startSmp k a b => exact key (keeps_existing (pts_pre E) (Instance.pts_startSmp a b) k)
  | abortSmp k => exact key (keeps_existing (pts_pre E) Instance.pts_abortSmp k)
  | expire t => exact key (.bind (rel_pre (pts_pre E)) (.gets (rel_pre (pts_pre E)) _) fun _ => pts_expireAll _ _ _)

/-- The points and the ratchets of a session are sound. -/
theorem hist_pts (hf : GoodField E.curve) {h : List Ev} {s : Session} (hh : Hist E A h s) (k : UInt32) : Pts E (s.inst k) := by
  induction hh with
  | new =>
    unfold inst new
    simp only [lookup]
    split <;> exact ⟨dakePts_initial, statePts_of fun _ _ h => by cases h⟩
  | step _ hr _ ih => subst hr; exact (pts_run hf _ _).each k ih

end Session
end Otrr
