import Verif.Lemmas.NoErr
import Verif.Props.Ake
import Verif.Props.Dake
/-!
What handling an encoded message does to an instance, and calls of the API to a session.
-/

namespace Otrr
open Spec

namespace Instance
variable {E : Env} {A : Account} {c : Call}

/-- Messages that may end a key exchange. -/
def isFinal (m : EncodedMessage) : Bool :=
  match m.version, m.message with
  | .v3, .revealSignature _ => true
  | .v3, .signature _ => true
  | .v4, .authR _ => true
  | .v4, .authI _ => true
  | _, _ => false

theorem quiet_clearAssembler (v : Version) : Keeps (Quiet E) (clearAssembler v) := by
  have hR := quiet_pre E
  refine .ite (.bind hR (.query hR _) fun a => ?_) (.pure hR _)
  exact fun w => ⟨⟨rfl, id, id⟩, .refl _⟩

theorem quiet_process {m : EncodedMessage} (hm : isFinal m = false) : Keeps (Quiet E) (process E A c m) := by
  have hR := quiet_pre E
  refine .bind hR (.gets hR _) fun own => ?_
  obtain ⟨v, snd, rcv, msg⟩ := m
  cases v with
  | v3 =>
    cases msg with
    | dhCommit msg =>
      exact .bind hR (quiet_onAke fun s h => h.dhCommit _ _) fun _ => .bind hR (keeps_inject hR) fun _ => .pure hR _
    | dhKey msg =>
      exact .bind hR (quiet_onAke fun s h => h.dhKey _ _) fun _ => .bind hR (keeps_inject hR) fun _ => .pure hR _
    | data msg =>
      exact .bind hR (.attempt (quiet_onState (PState.handle3_calm E _ _ _))) fun _ => quiet_handleDecrypted
    | revealSignature msg => simp [isFinal] at hm
    | signature msg => simp [isFinal] at hm
    | _ => exact .lift hR _
  | v4 =>
    cases msg with
    | identity msg =>
      exact .bind hR (quiet_onDake fun s h => h.identity _ _ _) fun _ => .bind hR (keeps_inject hR) fun _ => .pure hR _
    | data4 msg =>
      exact .bind hR (.lift hR _) fun _ => .bind hR (.attempt (quiet_onState (PState.handle4_calm E _ _ _))) fun _ => quiet_handleDecrypted
    | authR msg => simp [isFinal] at hm
    | authI msg => simp [isFinal] at hm
    | _ => exact .lift hR _
  | none => cases msg <;> exact .lift hR _
  | unsupported v => cases msg <;> exact .lift hR _

theorem evolves_process (m : EncodedMessage) : Keeps (Evolves E) (process E A c m) := by
  by_cases hm : isFinal m = false
  · exact (quiet_process hm).evolves
  have hR := evolves_pre E
  refine .bind hR (.gets hR _) fun own => ?_
  obtain ⟨v, snd, rcv, msg⟩ := m
  cases v with
  | v3 =>
    cases msg with
    | revealSignature msg =>
      exact .bind hR (quiet_onAke fun s h => h.reveal _ _).evolves fun _ => .bind hR (evolves_onState _) fun _ =>
        .bind hR (keeps_inject hR) fun _ => .pure hR _
    | signature msg =>
      exact .bind hR (quiet_onAke fun s h => h.signature _).evolves fun _ => .bind hR (evolves_onState _) fun _ => .pure hR _
    | _ => simp [isFinal] at hm
  | v4 =>
    cases msg with
    | authR msg =>
      exact .bind hR (quiet_onDake fun s h => h.authR _ _ _ _).evolves fun _ => .bind hR (keeps_inject hR) fun _ =>
        .bind hR (evolves_onState _) fun _ => .pure hR _
    | authI msg =>
      exact .bind hR (quiet_onDake fun s h => h.authI _ _ _).evolves fun _ => .bind hR (evolves_onState _) fun _ => .pure hR _
    | _ => simp [isFinal] at hm
  | none => simp [isFinal] at hm
  | unsupported v => simp [isFinal] at hm

theorem evolves_handle (m : EncodedMessage) : Keeps (Evolves E) (handle E A c m) :=
  .bind (evolves_pre E) (quiet_clearAssembler _).evolves fun _ => evolves_process m

/-- The session was secured by the last message of a verified key exchange. -/
def Secured (E : Env) (A : Account) (m : EncodedMessage) (i : Instance) (r : Res UserMessage) (i' : Instance) : Prop :=
  ∃ ssid, i'.state.ssid? = some ssid ∧ (r = .ok (.sessionStarted i.receiver) ∨ r = .panic) ∧ i'.state.version = m.version ∧
    (AkeOk E i.ake → DakeOk E i.dake → Completes E A m ssid)

/-- Sending changes nothing in the instance and gives no error. -/
theorem inject_spec (A : Account) (c : Call) (rnd : Rand) (v : Version) (k : UInt32) (m : EncodedMessageType) (w : World Instance) :
    (inject A c rnd v k m w).2.st = w.st := by
  have hR : Pre (Eq : Instance → Instance → Prop) := ⟨fun _ => rfl, fun h h' => h.trans h'⟩
  exact (keeps_inject hR w).symm

theorem secure_inv {w w' : World Instance} {k : UInt32} {mat : AKEMaterial} {r : Res Unit}
    (h : secure E A c k mat w = (r, w')) :
    (r = .panic ∧ w'.st = w.st) ∨
      (r = .ok () ∧ ∃ s, w'.st = { w.st with state := .encrypted3 s (SMP.new mat.ssid (fingerprint3 E mat.theirDsa)) }) := by
  simp only [secure, onState, Prod.mk.injEq] at h
  obtain ⟨rfl, rfl⟩ := h
  have hn := Res.NoErr.secure3 E A.tag k mat (c.rnd.sub 1) w.st.state
  cases hs : w.st.state.secure3 E A.tag k mat (c.rnd.sub 1) with
  | err e => exact absurd hs (hn e)
  | panic => exact .inl ⟨rfl, rfl⟩
  | ok s =>
    refine .inr ⟨rfl, ?_⟩
    have : ∃ x, s = .encrypted3 x (SMP.new mat.ssid (fingerprint3 E mat.theirDsa)) := by
      unfold PState.secure3 at hs
      split at hs
      · simp at hs
      · simp only [Res.bind_eq_ok, Res.pure_def, Res.ok.injEq] at hs
        obtain ⟨x, _, rfl⟩ := hs
        exact ⟨x, rfl⟩
    obtain ⟨x, rfl⟩ := this
    exact ⟨x, rfl⟩

theorem inject_res (A : Account) (c : Call) (rnd : Rand) (v : Version) (k : UInt32) (m : EncodedMessageType) (w : World Instance) :
    (∃ sent, inject A c rnd v k m w = (.ok (), ⟨w.st, sent⟩)) ∨ ∃ sent, inject A c rnd v k m w = (.panic, ⟨w.st, sent⟩) := by
  have h1 := inject_spec A c rnd v k m w
  have h2 := StM.NoErr.inject A c rnd v k m w
  cases hi : inject A c rnd v k m w with
  | mk r w' =>
    rw [hi] at h1 h2
    obtain ⟨st, sent⟩ := w'
    simp only at h1
    subst h1
    cases r with
    | ok a => exact .inl ⟨_, rfl⟩
    | err e => exact absurd rfl (h2 e)
    | panic => exact .inr ⟨_, rfl⟩

theorem state_process (m : EncodedMessage) (w : World Instance) :
    NoKex w.st.state (process E A c m w).2.st.state ∨
      Secured E A m w.st (process E A c m w).1 (process E A c m w).2.st := by
  by_cases hm : isFinal m = false
  · exact .inl (quiet_process hm w).calm
  obtain ⟨v, snd, rcv, msg⟩ := m
  cases v with
  | v3 =>
    cases msg with
    | revealSignature msg =>
      simp only [process, StM.bind_run, StM.gets]
      cases ha : AKE.handleRevealSignature E c.keypair msg w.st.ake with
      | mk r a' =>
        simp only [onAke, ha]
        cases r with
        | err e => exact .inl (.refl _)
        | panic => exact .inl (.refl _)
        | ok x =>
          obtain ⟨mat, reply⟩ := x
          simp only
          generalize hw1 : ({ st := { receiver := w.st.receiver, assembler := w.st.assembler, state := w.st.state, ake := a', dake := w.st.dake }, sent := w.sent } : World Instance) = w1
          have hw1' : w1.st.state = w.st.state := by rw [← hw1]
          cases hs : secure E A c snd mat w1 with
          | mk r2 w2 =>
            rcases secure_inv hs with ⟨rfl, h2⟩ | ⟨rfl, s, h2⟩
            · left
              simp only [h2, hw1']
              exact .refl _
            · right
              simp only
              have hc : AkeOk E w.st.ake → DakeOk E w.st.dake → Completes E A ⟨.v3, snd, rcv, .revealSignature msg⟩ mat.ssid := by
                rintro ⟨h, hl⟩ _
                obtain ⟨_, ⟨x, hx⟩, h1, h2⟩ := Props.C29_reveal hl ha
                rw [hx] at h2
                exact ⟨x, mat.theirDh, mat.theirDsa, h1, h2⟩
              rcases inject_res A c (c.rnd.sub 3) .v3 snd reply w2 with ⟨sent, hi⟩ | ⟨sent, hi⟩
              · rw [hi]
                exact ⟨mat.ssid, by simp [StM.pure_run, h2, PState.ssid?, SMP.new], .inl rfl, by simp [StM.pure_run, h2, PState.version], hc⟩
              · rw [hi]
                exact ⟨mat.ssid, by simp [h2, PState.ssid?, SMP.new], .inr rfl, by simp [h2, PState.version], hc⟩
    | signature msg =>
      simp only [process, StM.bind_run, StM.gets]
      cases ha : AKE.handleSignature E msg w.st.ake with
      | mk r a' =>
        simp only [onAke, ha]
        cases r with
        | err e => exact .inl (.refl _)
        | panic => exact .inl (.refl _)
        | ok mat =>
          simp only
          generalize hw1 : ({ st := { receiver := w.st.receiver, assembler := w.st.assembler, state := w.st.state, ake := a', dake := w.st.dake }, sent := w.sent } : World Instance) = w1
          have hw1' : w1.st.state = w.st.state := by rw [← hw1]
          cases hs : secure E A c snd mat w1 with
          | mk r2 w2 =>
            rcases secure_inv hs with ⟨rfl, h2⟩ | ⟨rfl, s, h2⟩
            · left
              simp only [h2, hw1']
              exact .refl _
            · right
              simp only
              have hc : AkeOk E w.st.ake → DakeOk E w.st.dake → Completes E A ⟨.v3, snd, rcv, .signature msg⟩ mat.ssid := by
                rintro ⟨h, hl⟩ _
                obtain ⟨_, _, ⟨x, hx⟩, h1, h2⟩ := Props.C29_signature hl ha
                rw [hx] at h2
                exact ⟨x, mat.theirDh, mat.theirDsa, h1, h2⟩
              exact ⟨mat.ssid, by simp [StM.pure_run, h2, PState.ssid?, SMP.new], .inl rfl, by simp [StM.pure_run, h2, PState.version], hc⟩
    | _ => simp [isFinal] at hm
  | v4 =>
    cases msg with
    | authR msg =>
      simp only [process, StM.bind_run, StM.gets]
      cases ha : DAKE.handleAuthR E (c.dake A) msg (c.rnd.sub 0) c.now w.st.dake with
      | mk r a' =>
        simp only [onDake, ha]
        cases r with
        | err e => exact .inl (.refl _)
        | panic => exact .inl (.refl _)
        | ok x =>
          obtain ⟨mat, reply⟩ := x
          simp only
          generalize hw1 : ({ st := { receiver := w.st.receiver, assembler := w.st.assembler, state := w.st.state, ake := w.st.ake, dake := a' }, sent := w.sent } : World Instance) = w1
          have hw1' : w1.st.state = w.st.state := by rw [← hw1]
          rcases inject_res A c (c.rnd.sub 3) .v4 snd reply w1 with ⟨sent, hi⟩ | ⟨sent, hi⟩
          · rw [hi]
            right
            refine ⟨mat.ssid, rfl, .inl rfl, rfl, ?_⟩
            rintro _ ⟨h, hl⟩
            obtain ⟨i, bob, alice, _, h1, h2, _, _, _, _, h3, _⟩ := Props.C34_authR E h _ _ hl _ _ _ _ _ _ ha
            exact ⟨i, bob, alice, h1, h2, h3⟩
          · rw [hi]
            left
            simp only [hw1']
            exact .refl _
    | authI msg =>
      simp only [process, StM.bind_run, StM.gets]
      cases ha : DAKE.handleAuthI E (c.dake A) msg c.now w.st.dake with
      | mk r a' =>
        simp only [onDake, ha]
        cases r with
        | err e => exact .inl (.refl _)
        | panic => exact .inl (.refl _)
        | ok mat =>
          right
          refine ⟨mat.ssid, rfl, .inl rfl, rfl, ?_⟩
          rintro _ ⟨h, hl⟩
          obtain ⟨i, r, bob, alice, _, h1, h2, _, _, _, _, h3, _⟩ := Props.C34_authI E h _ _ hl _ _ _ _ ha
          exact ⟨i, r, bob, alice, h1, h2, h3⟩
    | _ => simp [isFinal] at hm
  | none => simp [isFinal] at hm
  | unsupported v => simp [isFinal] at hm

end Instance

end Otrr
