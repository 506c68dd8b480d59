import Verif.Lemmas.SessionLife
import Verif.Lemmas.SmpSteps
import Verif.Lemmas.Smp4
import Verif.Spec.SessionLife
/-!
The SMP of a session leaves its first state only when the user starts it, or answers the question of the peer.
-/

namespace Otrr
open Otrr.Spec

/-- The SMP of the session waits for a message of the exchange it is in. -/
def Engaged : PState → Prop
  | .encrypted3 _ smp => smp.state ≠ .expect1
  | .encrypted4 _ smp => smp.state ≠ .expect1
  | _ => False

/-- If the SMP is engaged after the call, it was before, or `P`. -/
def Engages (P : Prop) (a b : PState) : Prop := Engaged b → Engaged a ∨ P

theorem Engages.refl (P : Prop) (a : PState) : Engages P a a := .inl
theorem Engages.trans {P : Prop} {a b d : PState} (h : Engages P a b) (h' : Engages P b d) : Engages P a d :=
  fun hd => (h' hd).elim h .inr
theorem Engages.not {P : Prop} {a b : PState} (h : ¬ Engaged b) : Engages P a b := fun h' => absurd h' h

theorem SMP.handle_answered {E : Env} {host : SMPHost} {t : TLV} {rnd : Rand} {c : SMPContext} (hc : c.state = .expect1) :
    ((SMP.handle E host t rnd c).2.state ≠ .expect1 → ∃ q a, Asks .v3 t q ∧ host.secret q = some a) ∧
    ((SMP.handle E host t rnd c).1 ≠ .panic → (SMP.handle E host t rnd c).2.status ≠ .completed) := by
  have hd : (∃ e, SMP.dispatch E host t rnd c = .err e ∧ ∀ r, e ≠ .smpSuccess r) ∨ SMP.dispatch E host t rnd c = .panic ∨
      (∃ r c', SMP.dispatch E host t rnd c = .ok (r, c') ∧ c'.status = .inProgress ∧ ∃ q a, Asks .v3 t q ∧ host.secret q = some a) := by
    unfold SMP.dispatch
    split
    · rename_i ht
      rcases SMP.handle1_spec E host t rnd c with ⟨e, he, h⟩ | ⟨_, h⟩ | ⟨_, h⟩ | ⟨key, answer, g2a, g3a, _, _, hs, _, h⟩
      · exact .inl ⟨e, h, fun r hr => by rcases he with h | h | h <;> rw [hr] at h <;> cases h⟩
      · exact .inl ⟨_, h, nofun⟩
      · exact .inr (.inl h)
      · refine .inr (.inr ⟨_, _, h, rfl, _, _, .inl ⟨rfl, ?_⟩, hs⟩)
        rcases ht with ht | ht
        · exact .inl ⟨ht, by rw [question, ht]; rfl⟩
        · exact .inr ⟨ht, by rw [question, ht]; rfl⟩
    · simp only [SMP.handle2, SMP.handle3, SMP.handle4, hc]
      repeat' split
      all_goals first | exact .inl ⟨_, rfl, by nofun⟩ | exact .inr (.inl rfl)
  rcases hd with ⟨e, hd, hne⟩ | hd | ⟨r, c', hd, hst, ha⟩
  · simp only [SMP.handle, hd]
    cases e
    case smpSuccess r => exact absurd rfl (hne r)
    case smpAborted b => cases b <;> exact ⟨fun h => absurd rfl h, fun _ => by nofun⟩
    all_goals exact ⟨fun h => absurd rfl h, fun _ => by nofun⟩
  · simp only [SMP.handle, hd]
    exact ⟨fun h => absurd hc h, fun h => absurd rfl h⟩
  · simp only [SMP.handle, hd]
    exact ⟨fun _ => ha, fun _ => by rw [hst]; nofun⟩

theorem SMP4.handle_answered {E : Env} {host : SMPHost} {t : TLV} {rnd : Rand} {c : SMP4Context} (hc : c.state = .expect1) :
    ((SMP4.handle E host t rnd c).2.state ≠ .expect1 → ∃ q a, Asks .v4 t q ∧ host.secret q = some a) ∧
    ((SMP4.handle E host t rnd c).1 ≠ .panic → (SMP4.handle E host t rnd c).2.status ≠ .completed) := by
  have hd : (∃ e, SMP4.dispatch E host t rnd c = .err e) ∨ SMP4.dispatch E host t rnd c = .panic ∨
      (∃ r c', SMP4.dispatch E host t rnd c = .ok (r, c') ∧ c'.status = .aborted ∧ c'.state = .expect1) ∨
      (∃ r c', SMP4.dispatch E host t rnd c = .ok (r, c') ∧ c'.status = .inProgress ∧ ∃ q a, Asks .v4 t q ∧ host.secret q = some a) := by
    unfold SMP4.dispatch
    dsimp only
    split
    · exact .inr (.inr (.inl ⟨_, _, rfl, rfl, rfl⟩))
    split
    · rename_i ht
      cases h : SMP4.handle1 E host t rnd { c with status := .inProgress } with
      | err e => exact .inl ⟨e, rfl⟩
      | panic => exact .inr (.inl rfl)
      | ok p =>
        obtain ⟨r, c'⟩ := p
        refine .inr (.inr (.inr ⟨r, c', rfl, ?_⟩))
        simp only [SMP4.handle1, hc, Res.bind_eq_ok] at h
        obtain ⟨m, hm, _, _, h⟩ := h
        split at h
        · cases h
        · rename_i a ha
          simp only [Res.bind_eq_ok, Res.pure_def, Res.ok.injEq, Prod.mk.injEq] at h
          obtain ⟨_, _, _, _, _, _, _, _, _, rfl⟩ := h
          have hq : ∃ rest, t.value = wU32 (UInt32.ofNat m.question.length) ++ m.question ++ rest := by
            obtain ⟨s', hm⟩ := runDec_ok.mp hm
            simp only [SMP4.readMsg1, Dec.bind_eq_ok] at hm
            obtain ⟨q, s1, h1, hm⟩ := hm
            refine ⟨s1, ?_⟩
            have hq : m.question = q := by
              simp only [pure, Res.ok.injEq, Prod.mk.injEq] at hm
              obtain ⟨_, _, _, _, _, _, _, _, _, _, _, _, _, _, _, _, _, _, _, _, _, _, _, _, _, _, hm⟩ := hm
              replace hm := hm.2.1
              rw [← hm]
            rw [hq]
            exact (readData_ok h1).1
          exact ⟨rfl, _, a, .inr ⟨rfl, ht, hq⟩, ha⟩
    · simp only [SMP4.handle2, SMP4.handle3, SMP4.handle4, hc]
      repeat' split
      all_goals first | exact .inl ⟨_, rfl⟩ | exact .inr (.inl rfl)
  rcases hd with ⟨e, hd⟩ | hd | ⟨r, c', hd, h1, h2⟩ | ⟨r, c', hd, hst, ha⟩
  · simp only [SMP4.handle, hd]
    exact ⟨fun h => absurd rfl h, fun _ => by nofun⟩
  · simp only [SMP4.handle, hd]
    exact ⟨fun h => absurd hc h, fun h => absurd rfl h⟩
  · simp only [SMP4.handle, hd]
    exact ⟨fun h => absurd h2 h, fun _ => by rw [h1]; nofun⟩
  · simp only [SMP4.handle, hd]
    exact ⟨fun _ => ha, fun _ => by rw [hst]; nofun⟩

namespace PState

theorem engages_prepare {E : Env} {P : Prop} {fl : UInt8} {content : Bytes} {rnd : Rand} {now : Nat} (s : PState) :
    Engages P s (prepare E fl content rnd now s).2 := by
  cases s with
  | plaintext => exact .refl _ _
  | finished => exact .refl _ _
  | encrypted3 x smp =>
    cases hx : Enc3.encrypt E fl content x with
    | mk r x' =>
      have hp : prepare E fl content rnd now (.encrypted3 x smp) = (r.bind fun m => .ok (.data m), .encrypted3 x' smp) := by
        simp only [prepare, with3, StM.bind_run, StM.pure_run, hx]
        cases r <;> rfl
      rw [hp]
      exact .inl
  | encrypted4 x smp =>
    cases hx : Enc4.encrypt E fl content rnd now x with
    | mk r x' =>
      have hp : prepare E fl content rnd now (.encrypted4 x smp) = (r.bind fun m => .ok (.data4 m), .encrypted4 x' smp) := by
        simp only [prepare, with4, StM.bind_run, StM.pure_run, hx]
        cases r <;> rfl
      rw [hp]
      exact .inl

theorem engages_handle3 {E : Env} {P : Prop} {m : DataMessage} {ad fr : Bytes} (s : PState) :
    Engages P s (handle3 E m ad fr s).2 := by
  cases s with
  | encrypted3 x smp =>
    rw [handle3]
    cases hx : Enc3.handle E m ad fr x with
    | mk r x' =>
      cases r with
      | panic => exact .inl
      | err e => exact .inl
      | ok p =>
        obtain ⟨msg, last⟩ := p
        cases last with
        | true => exact .not id
        | false => exact .inl
  | _ => exact .refl _ _

theorem engages_handle4 {E : Env} {P : Prop} {m : DataMessage4} {ad : Bytes} {now : Nat} (s : PState) :
    Engages P s (handle4 E m ad now s).2 := by
  cases s with
  | encrypted4 x smp =>
    rw [handle4]
    cases hx : Enc4.handle E m ad now x with
    | mk r x' =>
      cases r with
      | panic => exact .inl
      | err e => exact .inl
      | ok p =>
        obtain ⟨msg, last⟩ := p
        cases last with
        | true => exact .not id
        | false => exact .inl
  | _ => exact .refl _ _

theorem engages_finish {E : Env} {P : Prop} {rnd : Rand} {now : Nat} (s : PState) : Engages P s (finish E rnd now s).2 := by
  cases s with
  | plaintext => exact .refl _ _
  | finished => exact .not id
  | encrypted3 x smp =>
    rw [finish]
    cases hx : Enc3.encrypt E IGNORE_UNREADABLE disconnectPlain x with
    | mk r x' => cases r <;> first | exact .inl | exact .not id
  | encrypted4 x smp =>
    rw [finish]
    cases hx : Enc4.disconnect E rnd now x with
    | mk r x' => cases r <;> first | exact .inl | exact .not id

theorem engages_expire {E : Env} {P : Prop} {t : Nat} {rnd : Rand} {now : Nat} (s : PState) : Engages P s (expire E t rnd now s).2 := by
  cases s with
  | encrypted4 x smp =>
    rw [expire]
    split
    · cases hx : Enc4.disconnect E rnd now x with
      | mk r x' => cases r <;> first | exact .inl | exact .not id
    · exact .refl _ _
  | _ => exact .refl _ _

end PState

namespace Instance
variable {E : Env} {A : Account} {c : Call} {P : Prop}

/-- As `Engages`, for instances. -/
def Eng (P : Prop) (i i' : Instance) : Prop := Engages P i.state i'.state

theorem eng_pre : Pre (Eng P) := ⟨fun _ => .refl _ _, fun h h' => .trans h h'⟩

theorem SameState.eng {i i' : Instance} (h : SameState i i') : Eng P i i' := by unfold Eng; rw [h.1]; exact .refl _ _

theorem eng_same {f : InstM α} (h : Keeps SameState f) : Keeps (Eng P) f := fun w => (h w).eng

theorem eng_onState {f : StM PState α} (hf : ∀ s, Engages P s (f s).2) : Keeps (Eng P) (onState f) := fun w => hf w.st.state

theorem eng_inject {rnd : Rand} {v : Version} {k : UInt32} {m : EncodedMessageType} : Keeps (Eng P) (inject A c rnd v k m) :=
  keeps_inject eng_pre

theorem eng_sendTlv {rnd : Rand} {k : UInt32} {t : TLV} : Keeps (Eng P) (sendTlv E A c rnd k t) := by
  have hR := eng_pre (P := P)
  exact .bind hR (.lift hR _) fun _ => .bind hR (eng_onState PState.engages_prepare) fun _ =>
    .bind hR (.gets hR _) fun _ => eng_inject

theorem eng_send (t : Bool) (content : Bytes) : Keeps (Eng P) (send E A c t content) := by
  have hR := eng_pre (P := P)
  refine .bind hR (eng_onState PState.engages_prepare) fun m => ?_
  split
  · refine .bind hR (.gets hR _) fun _ => .bind hR (.lift hR _) fun _ => .ite ?_ ?_
    · exact .bind hR (.lift hR _) fun _ => .pure hR _
    · exact .bind hR (.lift hR _) fun _ => .pure hR _
  · exact .bind hR (.gets hR _) fun _ => .bind hR (.gets hR _) fun _ => .bind hR (.lift hR _) fun _ =>
      .bind hR (.lift hR _) fun _ => .pure hR _

theorem eng_reset : Keeps (Eng P) (reset E A c) := by
  have hR := eng_pre (P := P)
  refine .bind hR (.gets hR _) fun _ => .bind hR (.gets hR _) fun _ => .bind hR (.gets hR _) fun _ =>
    .bind hR (eng_onState PState.engages_finish) fun m => .bind hR (.gets hR _) fun _ => .ite ?_ ?_
  · exact .bind hR (.lift hR _) fun _ => .pure hR _
  · cases m with
    | some m => exact .bind hR eng_inject fun _ => .pure hR _
    | none => exact .pure hR _

theorem eng_expire (rnd : Rand) (t : Nat) : Keeps (Eng P) (expire E A c rnd t) := by
  have hR := eng_pre (P := P)
  refine .bind hR (.gets hR _) fun _ => .bind hR (eng_onState PState.engages_expire) fun m => ?_
  cases m with
  | some m => exact .bind hR (.gets hR _) fun _ => eng_inject
  | none => exact .pure hR _

theorem eng_abortSmp : Keeps (Eng P) (abortSmp E A c) := by
  have hR := eng_pre (P := P)
  have k : ∀ t : TLV, Keeps (Eng P) (do sendTlv E A c (c.rnd.sub 1) (← StM.gets fun w => w.st.receiver) t) := fun t =>
    .bind hR (.gets hR _) fun _ => eng_sendTlv
  refine .bind hR (.gets hR _) fun v => ?_
  cases v with
  | v3 => exact .bind hR (eng_onState fun s => by cases s <;> first | exact .refl _ _ | exact .not fun h => h rfl) k
  | v4 => exact .bind hR (eng_onState fun s => by cases s <;> first | exact .refl _ _ | exact .not fun h => h rfl) k
  | none => exact .bind hR (.lift hR _) k
  | unsupported v => exact .bind hR (.lift hR _) k

/-- The TLV is the first message of the SMP, and the user answers the question in it. -/
def Answers (c : Call) (v : Version) (t : TLV) : Prop := ∃ q a, Asks v t q ∧ c.secret q = some a

theorem eng_smpHandle {v : Version} (hv : v = .v3 ∨ v = .v4) {t : TLV} (rnd : Rand) (h : Answers c v t → P) :
    Keeps (Eng P) (onState (smpHandle E c rnd v t)) := by
  refine eng_onState fun s => ?_
  rcases hv with rfl | rfl
  · show Engages P s (PState.onSmp (SMP.handle E c.smp t rnd) .protocolViolation s).2
    cases s with
    | encrypted3 x smp =>
      intro hb
      by_cases hc : smp.state = .expect1
      · exact .inr (h ((SMP.handle_answered hc).1 hb))
      · exact .inl hc
    | _ => exact .refl _ _
  · show Engages P s (PState.onSmp4 (SMP4.handle E c.smp t rnd) .protocolViolation s).2
    cases s with
    | encrypted4 x smp =>
      intro hb
      by_cases hc : smp.state = .expect1
      · exact .inr (h ((SMP4.handle_answered hc).1 hb))
      · exact .inl hc
    | _ => exact .refl _ _

theorem eng_smpEnd (v : Version) : Keeps (Eng P) (smpEnd v) := by
  have hR := eng_pre (P := P)
  refine .bind hR (.gets hR _) fun _ => .bind hR (.query hR _) fun st => ?_
  cases st
  · exact .lift hR _
  all_goals exact .pure hR _

theorem eng_handleSmp {v : Version} (hv : v = .v3 ∨ v = .v4) {k : UInt32} {ts : List TLV} (h : ∀ t ∈ ts, Answers c v t → P) :
    Keeps (Eng P) (handleSmp E A c v k ts) := by
  have hR := eng_pre (P := P)
  unfold handleSmp
  refine .ite (.lift hR _) ?_
  split
  · exact .lift hR _
  · rename_i t ht
    refine .bind hR (eng_smpHandle hv _ (h t (List.mem_of_find?_eq_some ht))) fun r => ?_
    cases r with
    | some r => exact .bind hR eng_sendTlv fun _ => eng_smpEnd v
    | none => exact eng_smpEnd v

theorem eng_handleDecrypted {v : Version} (hv : v = .v3 ∨ v = .v4) {k : UInt32} {fl : UInt8} {r : Res PMessage}
    (h : ∀ content tlvs, r = .ok (.confidential content tlvs) → ∀ t ∈ tlvs, Answers c v t → P) :
    Keeps (Eng P) (handleDecrypted E A c v k fl r) := by
  have hR := eng_pre (P := P)
  refine .bind hR (.gets hR _) fun own => ?_
  split
  · exact .ite (eng_handleSmp hv (h _ _ rfl)) (.pure hR _)
  · exact .pure hR _
  · exact .bind hR (.lift hR _) fun _ => .bind hR (.emit hR _) fun _ => .ite (.pure hR _) (.lift hR _)
  · exact .lift hR _
  · exact .lift hR _

/-- These do not report new sessions. -/
def NoStart (f : StM σ UserMessage) : Prop := ∀ w k, (f w).1 ≠ .ok (.sessionStarted k)

theorem NoStart.bind {x : StM σ α} {f : α → StM σ UserMessage} (hf : ∀ a, NoStart (f a)) : NoStart (x >>= f) := by
  intro w k
  rw [StM.bind_run]
  cases hr : x w with
  | mk r w' =>
    cases r with
    | ok a => exact hf a w' k
    | err e => nofun
    | panic => nofun
theorem NoStart.pure {u : UserMessage} (h : ∀ k, u ≠ .sessionStarted k) : NoStart (Pure.pure u : StM σ UserMessage) :=
  fun _ k hk => h k (by cases hk; rfl)
theorem NoStart.lift {r : Res UserMessage} (h : ∀ u, r ≠ .ok u) : NoStart (StM.lift r : StM σ UserMessage) := fun _ _ hk => h _ hk
theorem NoStart.ite {p : Prop} [Decidable p] {x y : StM σ UserMessage} (hx : NoStart x) (hy : NoStart y) : NoStart (if p then x else y) := by
  split <;> assumption

theorem noStart_smpEnd (v : Version) : NoStart (smpEnd v) := by
  refine .bind fun _ => .bind fun st => ?_
  cases st
  · exact .lift nofun
  all_goals exact .pure nofun

theorem noStart_handleSmp {v : Version} {k : UInt32} {ts : List TLV} : NoStart (handleSmp E A c v k ts) := by
  unfold handleSmp
  refine .ite (.lift nofun) ?_
  split
  · exact .lift nofun
  · refine .bind fun r => ?_
    cases r with
    | some r => exact .bind fun _ => noStart_smpEnd v
    | none => exact noStart_smpEnd v

theorem noStart_handleDecrypted {v : Version} {k : UInt32} {fl : UInt8} {r : Res PMessage} :
    NoStart (handleDecrypted E A c v k fl r) := by
  refine .bind fun own => ?_
  split
  · exact .ite noStart_handleSmp (.pure nofun)
  · exact .pure nofun
  · exact .bind fun _ => .bind fun _ => .ite (.pure nofun) (.lift nofun)
  · exact .lift nofun
  · exact .lift nofun

theorem noStart_reset : NoStart (reset E A c) := by
  refine .bind fun _ => .bind fun _ => .bind fun _ => .bind fun m => .bind fun _ => .ite ?_ ?_
  · exact .bind fun _ => .pure fun _ h => by cases h
  · cases m with
    | some m => exact .bind fun _ => .pure fun _ h => by cases h
    | none => exact .pure fun _ h => by cases h

theorem noStart_initiate (v : Version) : NoStart (initiate E A c v) := by
  have k : ∀ m : EncodedMessageType, NoStart (do
      inject A c (c.rnd.sub 1) v (← StM.gets fun w => w.st.receiver) m
      return .none : InstM UserMessage) := fun m => .bind fun _ => .bind fun _ => .pure fun _ h => by cases h
  cases v <;> exact .bind k

/-- After a message was processed the SMP is engaged only if it was before, in the same session, or the user answered. -/
def Asked (E : Env) (c : Call) (m : EncodedMessage) (i : Instance) (r : Res UserMessage) (i' : Instance) : Prop :=
  r ≠ .panic → Engaged i'.state → (Engaged i.state ∧ ∀ k, r ≠ .ok (.sessionStarted k)) ∨
    ∃ content tlvs t, Decrypts E c m i.state (.confidential content tlvs) ∧ t ∈ tlvs ∧ Answers c m.version t

theorem Asked.of {m : EncodedMessage} {f : InstM UserMessage} {w : World Instance}
    (h : Eng (∃ content tlvs t, Decrypts E c m w.st.state (.confidential content tlvs) ∧ t ∈ tlvs ∧ Answers c m.version t) w.st (f w).2.st)
    (hn : NoStart f) : Asked E c m w.st (f w).1 (f w).2.st :=
  fun _ he => (h he).imp (fun h => ⟨h, hn w⟩) id

theorem not_secure {k : UInt32} {mat : AKEMaterial} {w w' : World Instance} {u : Unit}
    (h : secure E A c k mat w = (.ok u, w')) : ¬ Engaged w'.st.state := by
  rcases secure_inv h with ⟨h1, _⟩ | ⟨_, s, h1⟩
  · cases h1
  · rw [h1]
    exact fun h => h rfl

theorem attempt_opens3 {snd rcv : UInt32} {d : DataMessage} {w : World Instance} (msg : PMessage)
    (h : (attempt (onState (PState.handle3 E d (authenticatorData 3 snd rcv d) (c.rnd.bytes [0] 192))) w).1 = .ok (.ok msg)) :
    Decrypts E c ⟨.v3, snd, rcv, .data d⟩ w.st.state msg := by
  simp only [attempt, onState] at h
  cases hs : w.st.state with
  | encrypted3 x smp =>
    rw [hs] at h
    simp only [PState.handle3] at h
    cases hx : Enc3.handle E d (authenticatorData 3 snd rcv d) (c.rnd.bytes [0] 192) x with
    | mk r x' =>
      rw [hx] at h
      cases r with
      | ok p =>
        obtain ⟨msg', last⟩ := p
        have : msg' = msg := by cases last <;> (cases h; rfl)
        subst this
        exact .inl ⟨x, smp, d, x', last, rfl, rfl, rfl, hx⟩
      | err e => cases h
      | panic => cases h
  | plaintext => rw [hs] at h; simp [PState.handle3] at h
  | finished => rw [hs] at h; simp [PState.handle3] at h
  | encrypted4 x smp => rw [hs] at h; simp [PState.handle3] at h

theorem attempt_opens4 {snd rcv : UInt32} {d : DataMessage4} {w : World Instance} (hval : d.validate E = .ok ()) (msg : PMessage)
    (h : (attempt (onState (PState.handle4 E d (authenticatorData4 4 snd rcv d) c.now)) w).1 = .ok (.ok msg)) :
    Decrypts E c ⟨.v4, snd, rcv, .data4 d⟩ w.st.state msg := by
  simp only [attempt, onState] at h
  cases hs : w.st.state with
  | encrypted4 x smp =>
    rw [hs] at h
    simp only [PState.handle4] at h
    cases hx : Enc4.handle E d (authenticatorData4 4 snd rcv d) c.now x with
    | mk r x' =>
      rw [hx] at h
      cases r with
      | ok p =>
        obtain ⟨msg', last⟩ := p
        have : msg' = msg := by cases last <;> (cases h; rfl)
        subst this
        exact .inr ⟨x, smp, d, x', last, rfl, rfl, rfl, hval, hx⟩
      | err e => cases h
      | panic => cases h
  | plaintext => rw [hs] at h; simp [PState.handle4] at h
  | finished => rw [hs] at h; simp [PState.handle4] at h
  | encrypted3 x smp => rw [hs] at h; simp [PState.handle4] at h

theorem process_asked (m : EncodedMessage) (w : World Instance) : Asked E c m w.st (process E A c m w).1 (process E A c m w).2.st := by
  have hR {P : Prop} := eng_pre (P := P)
  unfold process
  rw [StM.bind_run]
  simp only [StM.gets]
  obtain ⟨v, snd, rcv, msg⟩ := m
  have hv : ∀ m (r : Res UserMessage), (∀ u, r ≠ .ok u) → Asked E c m w.st (StM.lift r w).1 (StM.lift r w).2.st :=
    fun m r h => Asked.of (Keeps.lift hR r w) (.lift h)
  cases v with
  | v3 =>
    cases msg with
    | dhCommit msg =>
      exact Asked.of (Keeps.bind hR (eng_same (same_onAke _)) (fun _ => .bind hR eng_inject fun _ => .pure hR _) w)
        (.bind fun _ => .bind fun _ => .pure fun _ h => by cases h)
    | dhKey msg =>
      exact Asked.of (Keeps.bind hR (eng_same (same_onAke _)) (fun _ => .bind hR eng_inject fun _ => .pure hR _) w)
        (.bind fun _ => .bind fun _ => .pure fun _ h => by cases h)
    | revealSignature msg =>
      intro hp
      simp only [StM.bind_run] at hp ⊢
      have hs := same_onAke (AKE.handleRevealSignature E c.keypair msg) w
      generalize onAke (AKE.handleRevealSignature E c.keypair msg) w = x at hp hs ⊢
      obtain ⟨r, w1⟩ := x
      cases r with
      | panic => exact absurd rfl hp
      | err e => exact fun he => (hs.eng (P := False) he).imp (fun h => ⟨h, nofun⟩) False.elim
      | ok p =>
        obtain ⟨mat, r⟩ := p
        simp only at hp ⊢
        cases hx : secure E A c snd mat w1 with
        | mk r2 w2 =>
          rw [hx] at hp
          cases r2 with
          | panic => exact absurd rfl hp
          | err e => rcases secure_inv hx with ⟨h1, -⟩ | ⟨h1, -⟩ <;> cases h1
          | ok u =>
            simp only at hp ⊢
            have hst := inject_spec A c (c.rnd.sub 3) .v3 snd r w2
            generalize inject A c (c.rnd.sub 3) .v3 snd r w2 = y at hp hst ⊢
            obtain ⟨r3, w3⟩ := y
            have : w3.st = w2.st := hst
            intro he
            have he' : Engaged w3.st.state := by cases r3 <;> exact he
            rw [this] at he'
            exact absurd he' (not_secure hx)
    | signature msg =>
      intro hp
      simp only [StM.bind_run] at hp ⊢
      have hs := same_onAke (AKE.handleSignature E msg) w
      generalize onAke (AKE.handleSignature E msg) w = x at hp hs ⊢
      obtain ⟨r, w1⟩ := x
      cases r with
      | panic => exact absurd rfl hp
      | err e => exact fun he => (hs.eng (P := False) he).imp (fun h => ⟨h, nofun⟩) False.elim
      | ok mat =>
        simp only at hp ⊢
        cases hx : secure E A c snd mat w1 with
        | mk r2 w2 =>
          rw [hx] at hp
          cases r2 with
          | panic => exact absurd rfl hp
          | err e => rcases secure_inv hx with ⟨h1, -⟩ | ⟨h1, -⟩ <;> cases h1
          | ok u => exact fun he => absurd he (not_secure hx)
    | data msg =>
      refine Asked.of (f := do handleDecrypted E A c .v3 snd msg.flags (← attempt (onState (PState.handle3 E msg (authenticatorData 3 snd rcv msg) (c.rnd.bytes [0] 192))))) ?_ (.bind fun _ => noStart_handleDecrypted)
      rw [StM.bind_run]
      have hk := Keeps.attempt (eng_onState (P := False) (PState.engages_handle3 (E := E) (m := msg) (ad := authenticatorData 3 snd rcv msg)
        (fr := c.rnd.bytes [0] 192))) w
      have hd := attempt_opens3 (E := E) (c := c) (snd := snd) (rcv := rcv) (d := msg) (w := w)
      generalize attempt (onState (PState.handle3 E msg (authenticatorData 3 snd rcv msg) (c.rnd.bytes [0] 192))) w = x at hk hd ⊢
      obtain ⟨r, w1⟩ := x
      cases r with
      | panic => exact fun he => (hk he).imp id False.elim
      | err e => exact fun he => (hk he).imp id False.elim
      | ok r =>
        refine fun he => ?_
        rcases eng_handleDecrypted (P := ∃ content tlvs t, Decrypts E c ⟨.v3, snd, rcv, .data msg⟩ w.st.state (.confidential content tlvs) ∧ t ∈ tlvs ∧ Answers c .v3 t) (.inl rfl) (fun content tlvs hr t ht ha => ⟨content, tlvs, t, hd _ (by rw [hr]), ht, ha⟩) w1 he with he | h
        · exact .inl ((hk he).elim id False.elim)
        · exact .inr h
    | _ => exact hv _ _ nofun
  | v4 =>
    cases msg with
    | identity msg =>
      exact Asked.of (Keeps.bind hR (eng_same (same_onDake _)) (fun _ => .bind hR eng_inject fun _ => .pure hR _) w)
        (.bind fun _ => .bind fun _ => .pure fun _ h => by cases h)
    | authR msg =>
      intro hp
      simp only [StM.bind_run] at hp ⊢
      have hs := same_onDake (DAKE.handleAuthR E (c.dake A) msg (c.rnd.sub 0) c.now) w
      generalize onDake (DAKE.handleAuthR E (c.dake A) msg (c.rnd.sub 0) c.now) w = x at hp hs ⊢
      obtain ⟨r, w1⟩ := x
      cases r with
      | panic => exact absurd rfl hp
      | err e => exact fun he => (hs.eng (P := False) he).imp (fun h => ⟨h, nofun⟩) False.elim
      | ok p =>
        obtain ⟨mat, r⟩ := p
        simp only at hp ⊢
        have hst := inject_spec A c (c.rnd.sub 3) .v4 snd r w1
        have hne := (StM.NoErr.inject A c (c.rnd.sub 3) .v4 snd r) w1
        generalize inject A c (c.rnd.sub 3) .v4 snd r w1 = y at hp hst hne ⊢
        obtain ⟨r3, w3⟩ := y
        cases r3 with
        | panic => exact absurd rfl hp
        | err e => exact absurd rfl (hne e)
        | ok u => exact fun he => absurd rfl he
    | authI msg =>
      intro hp
      simp only [StM.bind_run] at hp ⊢
      have hs := same_onDake (DAKE.handleAuthI E (c.dake A) msg c.now) w
      generalize onDake (DAKE.handleAuthI E (c.dake A) msg c.now) w = x at hp hs ⊢
      obtain ⟨r, w1⟩ := x
      cases r with
      | panic => exact absurd rfl hp
      | err e => exact fun he => (hs.eng (P := False) he).imp (fun h => ⟨h, nofun⟩) False.elim
      | ok mat => exact fun he => absurd rfl he
    | data4 msg =>
      refine Asked.of (f := do
        StM.lift (msg.validate E)
        handleDecrypted E A c .v4 snd msg.flags (← attempt (onState (PState.handle4 E msg (authenticatorData4 4 snd rcv msg) c.now)))) ?_
        (.bind fun _ => .bind fun _ => noStart_handleDecrypted)
      rw [StM.bind_run, StM.lift]
      cases hval : msg.validate E with
      | panic => exact .inl
      | err e => exact .inl
      | ok u =>
        simp only
        rw [StM.bind_run]
        have hk := Keeps.attempt (eng_onState (P := False) (PState.engages_handle4 (E := E) (m := msg) (ad := authenticatorData4 4 snd rcv msg)
          (now := c.now))) w
        have hd := attempt_opens4 (E := E) (c := c) (snd := snd) (rcv := rcv) (d := msg) (w := w) hval
        generalize attempt (onState (PState.handle4 E msg (authenticatorData4 4 snd rcv msg) c.now)) w = x at hk hd ⊢
        obtain ⟨r, w1⟩ := x
        cases r with
        | panic => exact fun he => (hk he).imp id False.elim
        | err e => exact fun he => (hk he).imp id False.elim
        | ok r =>
          refine fun he => ?_
          rcases eng_handleDecrypted (P := ∃ content tlvs t, Decrypts E c ⟨.v4, snd, rcv, .data4 msg⟩ w.st.state (.confidential content tlvs) ∧ t ∈ tlvs ∧ Answers c .v4 t) (.inr rfl) (fun content tlvs hr t ht ha => ⟨content, tlvs, t, hd _ (by rw [hr]), ht, ha⟩) w1 he with he | h
          · exact .inl ((hk he).elim id False.elim)
          · exact .inr h
    | _ => exact hv _ _ nofun
  | none => cases msg <;> exact hv _ _ nofun
  | unsupported v => cases msg <;> exact hv _ _ nofun

theorem Asked.same {m : EncodedMessage} {i i1 : Instance} {r : Res UserMessage} {i' : Instance} (h : SameState i i1)
    (ha : Asked E c m i1 r i') : Asked E c m i r i' := by
  unfold Asked at ha ⊢
  rw [h.1] at ha
  exact ha

theorem handle_asked {f : InstM Unit} (hf : Keeps SameState f) (m : EncodedMessage) (w : World Instance) :
    Asked E c m w.st ((do f; Instance.handle E A c m : InstM UserMessage) w).1 ((do f; Instance.handle E A c m : InstM UserMessage) w).2.st := by
  have hs := hf w
  rw [StM.bind_run]
  cases hr : f w with
  | mk r w1 =>
    rw [hr] at hs
    cases r with
    | err e => exact fun _ he => (hs.eng (P := False) he).imp (fun h => ⟨h, nofun⟩) False.elim
    | panic => exact fun h => absurd rfl h
    | ok u =>
      simp only [Instance.handle, StM.bind_run]
      have hs2 := same_clearAssembler m.version w1
      cases hr2 : clearAssembler m.version w1 with
      | mk r2 w2 =>
        rw [hr2] at hs2
        have hq := same_pre.trans hs hs2
        cases r2 with
        | err e => exact fun _ he => (hq.eng (P := False) he).imp (fun h => ⟨h, nofun⟩) False.elim
        | panic => exact fun h => absurd rfl h
        | ok u2 => exact (process_asked m w2).same hq

end Instance

namespace Session
open Instance
variable {E : Env} {A : Account} {c : Call} {P : Prop}

theorem asked_receive {w : World Session} (hi : Inv E w.st) (payload : Bytes) :
    ToldBy A (fun m i r i' => Asked E c m i r i' ∧ Reports E c m i r i') w.st (Delivers E A w.st payload) (receive E A c payload w).1 (receive E A c payload w).2.st :=
  toldBy_receive (fun h m w => ⟨handle_asked (same_adopt h) m w, handle_reports (same_adopt h) m w⟩) (fun _ _ _ _ _ h ha => ⟨ha.1.same h, by
    have := ha.2
    unfold Reports at this ⊢
    rw [h.1, h.2] at this
    exact this⟩) hi payload

theorem eng_expireAll (t n : Nat) (ks : List UInt32) : Keeps (Rel (Eng P)) (expireAll E A c t n ks) := by
  have hR := rel_pre (eng_pre (P := P))
  induction ks generalizing n with
  | nil => exact .pure hR _
  | cons k ks ih => exact .bind hR (keeps_existing eng_pre (eng_expire _ t) k) fun _ => ih (n + 1)

/-- Calls other than `receive` and `startSmp`. -/
theorem eng_run {s : Session} {op : Op} (h : ∀ p, op ≠ .receive p) (h' : ∀ k a q, op ≠ .startSmp k a q) :
    Rel (Eng P) s (op.run E A c s).after := by
  have hR := rel_pre (eng_pre (P := P))
  have key : ∀ {α : Type} {f : SessM α} {g : α → Answer}, Keeps (Rel (Eng P)) f → Rel (Eng P) s (perform f g s).after := by
    intro α f g hf
    rw [perform_after]
    exact hf ⟨s, []⟩
  cases op with
  | receive p => exact absurd rfl (h p)
  | startSmp k a q => exact absurd rfl (h' k a q)
  | expire t => exact key (.bind hR (.gets hR _) fun _ => eng_expireAll _ _ _)
  | send k content =>
    refine key (Keeps.ite (.pure hR _) (.bind hR (.gets hR _) fun st => ?_))
    cases st with
    | none => exact .lift hR _
    | some st =>
      refine .ite (.bind hR ?_ fun _ => .lift hR _) ?_
      · exact .ite (.lift hR _) (.bind hR (.lift hR _) fun _ => .emit hR _)
      · refine .bind hR (.gets hR _) fun t => .bind hR (keeps_existing eng_pre (eng_send t content) k) fun x => ?_
        refine .bind hR (fun w => ?_) fun _ => .pure hR _
        exact ⟨fun _ h => h, id, fun _ => eng_pre.refl _⟩
  | initiate v k =>
    refine key fun w => ?_
    have := keeps_entry same_pre (same_initiate (E := E) (A := A) (c := c) v) k w
    exact ⟨this.keys, this.nodup, fun k => (this.each k).eng⟩
  | close k => exact key (keeps_existing eng_pre eng_reset k)
  | query => exact key (Keeps.ite (.lift hR _) (.bind hR (.lift hR _) fun _ => .emit hR _))
  | abortSmp k => exact key (keeps_existing eng_pre eng_abortSmp k)

end Session
end Otrr
