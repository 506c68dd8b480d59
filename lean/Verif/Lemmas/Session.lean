import Verif.Lemmas.Ake
import Verif.Lemmas.Dake
import Verif.Lemmas.Assembly
import Verif.Spec.Session
/-!
What calls on instances and sessions preserve.
-/

namespace Otrr
open Spec

/-! ## Contexts of key exchanges -/

/-- The context has a history. -/
def AkeOk (E : Env) (s : AKEState) : Prop := ∃ h, AkeLife E h s

def DakeOk (E : Env) (s : DAKEState) : Prop := ∃ h, DakeLife E h s

theorem transact_snd_panic {f : σ → Res (α × σ)} {s : σ} (h : (StM.transact f s).1 = .panic) :
    (StM.transact f s).2 = s := by
  unfold StM.transact at *
  cases hf : f s with
  | ok x => simp [hf] at h
  | err e => simp
  | panic => simp

theorem AkeOk.initiate {E : Env} {s : AKEState} (h : AkeOk E s) (rnd : Rand) : AkeOk E (AKE.initiate E rnd s).2 := by
  obtain ⟨h, hl⟩ := h
  exact ⟨_, .began hl rfl⟩

theorem AkeOk.dhCommit {E : Env} {s : AKEState} (h : AkeOk E s) (m : DHCommitMessage) (rnd : Rand) :
    AkeOk E (AKE.handleDhCommit E m rnd s).2 := by
  obtain ⟨h, hl⟩ := h
  exact ⟨_, .commit hl rfl⟩

theorem AkeOk.dhKey {E : Env} {s : AKEState} (h : AkeOk E s) (host : Option DSAKeypair) (m : DHKeyMessage) :
    AkeOk E (AKE.handleDhKey E host m s).2 := by
  by_cases hp : (AKE.handleDhKey E host m s).1 = .panic
  · have : (AKE.handleDhKey E host m s).2 = s := transact_snd_panic hp
    rw [this]; exact h
  · obtain ⟨h, hl⟩ := h
    exact ⟨_, .key hl rfl hp⟩

theorem AkeOk.reveal {E : Env} {s : AKEState} (h : AkeOk E s) (host : Option DSAKeypair) (m : RevealSignatureMessage) :
    AkeOk E (AKE.handleRevealSignature E host m s).2 := by
  by_cases hp : (AKE.handleRevealSignature E host m s).1 = .panic
  · have : (AKE.handleRevealSignature E host m s).2 = s := transact_snd_panic hp
    rw [this]; exact h
  · obtain ⟨h, hl⟩ := h
    exact ⟨_, .reveal hl rfl hp⟩

theorem AkeOk.signature {E : Env} {s : AKEState} (h : AkeOk E s) (m : SignatureMessage) :
    AkeOk E (AKE.handleSignature E m s).2 := by
  by_cases hp : (AKE.handleSignature E m s).1 = .panic
  · have : (AKE.handleSignature E m s).2 = s := transact_snd_panic hp
    rw [this]; exact h
  · obtain ⟨h, hl⟩ := h
    exact ⟨_, .sig hl rfl hp⟩

theorem DakeOk.initiate {E : Env} {s : DAKEState} (h : DakeOk E s) (host : DAKEHost) (rnd : Rand) :
    DakeOk E (DAKE.initiate E host rnd s).2 := by
  cases hr : DAKE.initiate E host rnd s with
  | mk r s' =>
    cases r with
    | ok m =>
      obtain ⟨h, hl⟩ := h
      have hm : ∃ i, m = .identity i := by
        have := transact_ok.mp hr
        split at this
        · simp only [Res.bind_eq_ok, Res.pure_def, Res.ok.injEq, Prod.mk.injEq] at this
          obtain ⟨_, _, rfl, _⟩ := this
          exact ⟨_, rfl⟩
        · simp at this
      obtain ⟨i, rfl⟩ := hm
      exact ⟨_, .began hl hr⟩
    | err e => rw [(transact_err.mp hr).2]; exact h
    | panic => rw [(transact_panic.mp hr).2]; exact h

theorem DakeOk.identity {E : Env} {s : DAKEState} (h : DakeOk E s) (host : DAKEHost) (m : IdentityMessage) (rnd : Rand) :
    DakeOk E (DAKE.handleIdentity E host m rnd s).2 := by
  by_cases hp : (DAKE.handleIdentity E host m rnd s).1 = .panic
  · have : (DAKE.handleIdentity E host m rnd s).2 = s := transact_snd_panic hp
    rw [this]; exact h
  · obtain ⟨h, hl⟩ := h
    exact ⟨_, .identity hl rfl hp⟩

theorem DakeOk.authR {E : Env} {s : DAKEState} (h : DakeOk E s) (host : DAKEHost) (m : AuthRMessage) (rnd : Rand)
    (now : Nat) : DakeOk E (DAKE.handleAuthR E host m rnd now s).2 := by
  by_cases hp : (DAKE.handleAuthR E host m rnd now s).1 = .panic
  · have : (DAKE.handleAuthR E host m rnd now s).2 = s := transact_snd_panic hp
    rw [this]; exact h
  · obtain ⟨h, hl⟩ := h
    exact ⟨_, .authR hl rfl hp⟩

theorem DakeOk.authI {E : Env} {s : DAKEState} (h : DakeOk E s) (host : DAKEHost) (m : AuthIMessage)
    (now : Nat) : DakeOk E (DAKE.handleAuthI E host m now s).2 := by
  by_cases hp : (DAKE.handleAuthI E host m now s).1 = .panic
  · have : (DAKE.handleAuthI E host m now s).2 = s := transact_snd_panic hp
    rw [this]; exact h
  · obtain ⟨h, hl⟩ := h
    exact ⟨_, .authI hl rfl hp⟩

/-! ## The SSID of a state -/

/-- The SSID of an encrypted session. -/
def PState.ssid? : PState → Option Bytes
  | .encrypted3 _ smp => some smp.ssid
  | .encrypted4 _ smp => some smp.ssid
  | _ => .none

theorem SMP.handle_ssid (E : Env) (host : SMPHost) (t : TLV) (rnd : Rand) (c : SMPContext) :
    (SMP.handle E host t rnd c).2.ssid = c.ssid := by
  unfold SMP.handle
  split
  · rename_i r c' h
    unfold SMP.dispatch at h
    split at h
    · unfold SMP.handle1 at h
      split at h
      · simp only [Res.bind_eq_ok] at h
        obtain ⟨x, _, h⟩ := h
        split at h
        · simp only [Res.bind_eq_ok] at h
          obtain ⟨_, _, h⟩ := h
          split at h
          · simp at h
          · split at h
            · simp at h
            · simp only [Res.ok.injEq, Prod.mk.injEq] at h
              rw [← h.2]
        · simp at h
      · simp at h
    · split at h
      · unfold SMP.handle2 at h
        split at h
        · simp only [Res.bind_eq_ok] at h
          obtain ⟨x, _, h⟩ := h
          split at h
          · simp only [Res.bind_eq_ok, Res.ok.injEq, Prod.mk.injEq] at h
            obtain ⟨_, _, _, _, _, _, _, h⟩ := h
            rw [← h]
          · simp at h
        · simp at h
      · split at h
        · unfold SMP.handle3 at h
          split at h
          · simp only [Res.bind_eq_ok] at h
            obtain ⟨x, _, h⟩ := h
            split at h
            · simp only [Res.bind_eq_ok] at h
              obtain ⟨_, _, _, _, _, _, _, _, h⟩ := h
              split at h <;> simp at h
            · simp at h
          · simp at h
        · split at h
          · unfold SMP.handle4 at h
            split at h
            · simp only [Res.bind_eq_ok] at h
              obtain ⟨x, _, h⟩ := h
              split at h
              · simp only [Res.bind_eq_ok] at h
                obtain ⟨_, _, _, _, _, _, h⟩ := h
                split at h <;> simp at h
              · simp at h
            · simp at h
          · split at h <;> simp at h
  all_goals rfl

theorem SMP.start_ssid (E : Env) (host : SMPHost) (secret q : Bytes) (rnd : Rand) (c : SMPContext) :
    (SMP.start E host secret q rnd c).2.ssid = c.ssid := by
  unfold SMP.start
  split
  · split <;> (try split) <;> rfl
  · rfl

theorem SMP4.start_ssid (E : Env) (secret q : Bytes) (rnd : Rand) (c : SMP4Context) :
    (SMP4.start E secret q rnd c).2.ssid = c.ssid := by
  unfold SMP4.start
  split
  · rfl
  · dsimp only
    split <;> rfl

theorem SMP4.handle_ssid (E : Env) (host : SMPHost) (t : TLV) (rnd : Rand) (c : SMP4Context) :
    (SMP4.handle E host t rnd c).2.ssid = c.ssid := by
  unfold SMP4.handle
  split
  · rename_i r c' h
    unfold SMP4.dispatch at h
    dsimp only at h
    split at h
    · simp only [Res.ok.injEq, Prod.mk.injEq] at h
      rw [← h.2]
    · split at h
      · unfold SMP4.handle1 at h
        split at h
        · simp only [Res.bind_eq_ok] at h
          obtain ⟨x, _, _, _, h⟩ := h
          split at h
          · simp at h
          · simp only [Res.bind_eq_ok, Res.pure_def, Res.ok.injEq, Prod.mk.injEq] at h
            obtain ⟨_, _, _, _, _, _, _, _, _, h⟩ := h
            rw [← h]
        · simp at h
      · split at h
        · unfold SMP4.handle2 at h
          split at h
          · simp only [Res.bind_eq_ok, Res.pure_def, Res.ok.injEq, Prod.mk.injEq] at h
            obtain ⟨_, _, _, _, _, h⟩ := h
            rw [← h]
          · simp at h
        · split at h
          · unfold SMP4.handle3 at h
            split at h
            · simp only [Res.bind_eq_ok, Res.pure_def, Res.ok.injEq, Prod.mk.injEq] at h
              obtain ⟨_, _, _, _, _, h⟩ := h
              rw [← h]
            · simp at h
          · split at h
            · unfold SMP4.handle4 at h
              split at h
              · simp only [Res.bind_eq_ok, Res.pure_def, Res.ok.injEq, Prod.mk.injEq] at h
                obtain ⟨_, _, _, _, _, _, _, h⟩ := h
                rw [← h]
              · simp at h
            · simp at h
  all_goals rfl

/-- What may become of a state without a key exchange. -/
def NoKex (s s' : PState) : Prop :=
  (∃ x, s.ssid? = some x ∧ s'.ssid? = some x ∧ s'.version = s.version) ∨ s' = .finished ∧ s ≠ .plaintext ∨ s' = .plaintext

theorem NoKex.refl (s : PState) : NoKex s s := by
  cases s with
  | plaintext => exact .inr (.inr rfl)
  | encrypted3 a b => exact .inl ⟨_, rfl, rfl, rfl⟩
  | encrypted4 a b => exact .inl ⟨_, rfl, rfl, rfl⟩
  | finished => exact .inr (.inl ⟨rfl, nofun⟩)

theorem NoKex.trans {a b c : PState} (h : NoKex a b) (h' : NoKex b c) : NoKex a c := by
  rcases h' with ⟨x, hb, hc, hv⟩ | ⟨rfl, hn⟩ | rfl
  · rcases h with ⟨y, ha, hb', hv'⟩ | ⟨rfl, hn⟩ | rfl
    · refine .inl ⟨y, ha, ?_, hv.trans hv'⟩
      rw [hb] at hb'
      rw [hc, hb']
    · simp [PState.ssid?] at hb
    · simp [PState.ssid?] at hb
  · rcases h with ⟨y, ha, hb', -⟩ | ⟨rfl, hn'⟩ | rfl
    · refine .inr (.inl ⟨rfl, ?_⟩)
      rintro rfl
      simp [PState.ssid?] at ha
    · exact .inr (.inl ⟨rfl, hn'⟩)
    · simp at hn
  · exact .inr (.inr rfl)

theorem NoKex.plaintext {s : PState} (h : NoKex .plaintext s) : s = .plaintext := by
  rcases h with ⟨x, h, _⟩ | ⟨_, h⟩ | h
  · simp [PState.ssid?] at h
  · simp at h
  · exact h

theorem PState.prepare_calm (E : Env) (flags : UInt8) (content : Bytes) (rnd : Rand) (now : Nat) (s : PState) :
    NoKex s (s.prepare E flags content rnd now).2 := by
  cases s with
  | plaintext => exact .inr (.inr rfl)
  | encrypted3 a b => exact .inl ⟨_, rfl, rfl, rfl⟩
  | encrypted4 a b => exact .inl ⟨_, rfl, rfl, rfl⟩
  | finished => exact .inr (.inl ⟨rfl, nofun⟩)

theorem PState.transition_calm {s : PState} {x : Res (PMessage × Bool) × PState} (h : NoKex s x.2)
    (hn : s ≠ .plaintext) : NoKex s (transition x).2 := by
  obtain ⟨r, s'⟩ := x
  unfold transition
  split
  · exact .inr (.inl ⟨rfl, hn⟩)
  all_goals simp_all

theorem PState.handle3_calm (E : Env) (m : DataMessage) (a b : Bytes) (s : PState) : NoKex s (s.handle3 E m a b).2 := by
  cases s with
  | encrypted3 x y => exact transition_calm (.inl ⟨_, rfl, rfl, rfl⟩) nofun
  | _ => exact .refl _

theorem PState.handle4_calm (E : Env) (m : DataMessage4) (a : Bytes) (n : Nat) (s : PState) :
    NoKex s (s.handle4 E m a n).2 := by
  cases s with
  | encrypted4 x y => exact transition_calm (.inl ⟨_, rfl, rfl, rfl⟩) nofun
  | _ => exact .refl _

theorem PState.finish_calm (E : Env) (rnd : Rand) (now : Nat) (s : PState) : NoKex s (s.finish E rnd now).2 := by
  cases s with
  | plaintext => exact .inr (.inr rfl)
  | finished => exact .inr (.inr rfl)
  | encrypted3 a b =>
    rw [finish]
    split
    · exact .inr (.inr rfl)
    · exact .inl ⟨_, rfl, rfl, rfl⟩
    · exact .inl ⟨_, rfl, rfl, rfl⟩
  | encrypted4 a b =>
    rw [finish]
    split
    · exact .inr (.inr rfl)
    · exact .inl ⟨_, rfl, rfl, rfl⟩
    · exact .inl ⟨_, rfl, rfl, rfl⟩

theorem PState.expire_calm (E : Env) (t : Nat) (rnd : Rand) (now : Nat) (s : PState) : NoKex s (s.expire E t rnd now).2 := by
  cases s with
  | encrypted4 a b =>
    rw [expire]
    split
    · split
      · exact .inr (.inl ⟨rfl, nofun⟩)
      · exact .inl ⟨_, rfl, rfl, rfl⟩
      · exact .inl ⟨_, rfl, rfl, rfl⟩
    · exact .refl _
  | _ => exact .refl _

theorem PState.onSmp_calm {f : StM SMPContext α} (hf : ∀ c, (f c).2.ssid = c.ssid) (e : OTRError) (s : PState) :
    NoKex s (PState.onSmp f e s).2 := by
  cases s with
  | encrypted3 a b => exact .inl ⟨_, rfl, congrArg some (hf b), rfl⟩
  | _ => exact .refl _

theorem PState.onSmp4_calm {f : StM SMP4Context α} (hf : ∀ c, (f c).2.ssid = c.ssid) (e : OTRError) (s : PState) :
    NoKex s (PState.onSmp4 f e s).2 := by
  cases s with
  | encrypted4 a b => exact .inl ⟨_, rfl, congrArg some (hf b), rfl⟩
  | _ => exact .refl _

/-! ## Relations between the values before and after a call -/

/-- The value before and the value after the call are related. -/
def Keeps (R : σ → σ → Prop) (f : StM (World σ) α) : Prop := ∀ w, R w.st (f w).2.st

/-- Reflexive and transitive. -/
structure Pre (R : σ → σ → Prop) : Prop where
  refl : ∀ a, R a a
  trans : ∀ {a b c}, R a b → R b c → R a c

namespace Keeps
variable {R : σ → σ → Prop}

theorem bind (hR : Pre R) {x : StM (World σ) α} {f : α → StM (World σ) β} (hx : Keeps R x) (hf : ∀ a, Keeps R (f a)) :
    Keeps R (x >>= f) := by
  intro w
  have h := hx w
  rw [StM.bind_run]
  cases hr : x w with
  | mk r w' =>
    rw [hr] at h
    cases r with
    | ok a => exact hR.trans h (hf a w')
    | err e => exact h
    | panic => exact h

theorem pure (hR : Pre R) (a : α) : Keeps R (Pure.pure a : StM (World σ) α) := fun w => hR.refl w.st
theorem lift (hR : Pre R) (r : Res α) : Keeps R (StM.lift r) := fun w => hR.refl w.st
theorem gets (hR : Pre R) (f : World σ → α) : Keeps R (StM.gets f) := fun w => hR.refl w.st
theorem query (hR : Pre R) (f : World σ → Res α) : Keeps R (StM.query f) := fun w => hR.refl w.st
theorem emit (hR : Pre R) (ms : List Bytes) : Keeps R (Instance.emit ms) := fun w => hR.refl w.st

theorem ite {p : Prop} [Decidable p] {x y : StM (World σ) α} (hx : Keeps R x) (hy : Keeps R y) :
    Keeps R (if p then x else y) := by split <;> assumption

theorem attempt {x : StM (World σ) α} (hx : Keeps R x) : Keeps R (Instance.attempt x) := by
  intro w
  unfold Instance.attempt
  have := hx w
  split
  rename_i r s h
  rw [h] at this
  split <;> exact this

end Keeps

/-- What every call on an instance preserves. -/
structure Evolves (E : Env) (i i' : Instance) : Prop where
  receiver : i'.receiver = i.receiver
  ake : AkeOk E i.ake → AkeOk E i'.ake
  dake : DakeOk E i.dake → DakeOk E i'.dake

/-- What every call without the end of a key exchange preserves. -/
structure Quiet (E : Env) (i i' : Instance) : Prop extends Evolves E i i' where
  calm : NoKex i.state i'.state

theorem evolves_pre (E : Env) : Pre (Evolves E) :=
  ⟨fun _ => ⟨rfl, id, id⟩, fun h h' => ⟨h'.1.trans h.1, h'.2 ∘ h.2, h'.3 ∘ h.3⟩⟩

theorem quiet_pre (E : Env) : Pre (Quiet E) :=
  ⟨fun _ => ⟨⟨rfl, id, id⟩, .refl _⟩, fun h h' => ⟨(evolves_pre E).trans h.1 h'.1, h.2.trans h'.2⟩⟩

namespace Instance
variable {E : Env}

theorem quiet_onState {f : StM PState α} (hf : ∀ s, NoKex s (f s).2) : Keeps (Quiet E) (onState f) :=
  fun w => ⟨⟨rfl, id, id⟩, hf w.st.state⟩

theorem evolves_onState (f : StM PState α) : Keeps (Evolves E) (onState f) := fun _ => ⟨rfl, id, id⟩

theorem quiet_onAke {f : StM AKEState α} (hf : ∀ s, AkeOk E s → AkeOk E (f s).2) : Keeps (Quiet E) (onAke f) :=
  fun w => ⟨⟨rfl, hf w.st.ake, id⟩, .refl _⟩

theorem quiet_onDake {f : StM DAKEState α} (hf : ∀ s, DakeOk E s → DakeOk E (f s).2) : Keeps (Quiet E) (onDake f) :=
  fun w => ⟨⟨rfl, id, hf w.st.dake⟩, .refl _⟩

theorem _root_.Otrr.Keeps.evolves {f : InstM α} (h : Keeps (Quiet E) f) : Keeps (Evolves E) f := fun w => (h w).1

theorem keeps_inject {R : Instance → Instance → Prop} (hR : Pre R) {A : Account} {c : Call} {rnd : Rand} {v : Version}
    {k : UInt32} {m : EncodedMessageType} :
    Keeps R (inject A c rnd v k m) :=
  .bind hR (.gets hR _) fun _ => .bind hR (.lift hR _) fun _ => .bind hR (.lift hR _) fun _ =>
    .bind hR (.lift hR _) fun _ => .emit hR _

theorem quiet_expire (A : Account) (c : Call) (rnd : Rand) (t : Nat) : Keeps (Quiet E) (expire E A c rnd t) := by
  have hR := quiet_pre E
  refine .bind hR (.gets hR _) fun v => .bind hR (quiet_onState (PState.expire_calm E t _ _)) fun m => ?_
  cases m with
  | some m => exact .bind hR (.gets hR _) fun _ => keeps_inject hR
  | none => exact .pure hR _

theorem quiet_initiate (A : Account) (c : Call) (v : Version) : Keeps (Quiet E) (initiate E A c v) := by
  have hR := quiet_pre E
  unfold initiate
  have k : ∀ m : EncodedMessageType, Keeps (Quiet E) (do
      inject A c (c.rnd.sub 1) v (← StM.gets fun w => w.st.receiver) m
      return UserMessage.none) := fun m =>
    .bind hR (.gets hR _) fun _ => .bind hR (keeps_inject hR) fun _ => .pure hR _
  cases v with
  | v3 => exact .bind hR (quiet_onAke fun s h => h.initiate _) k
  | v4 => exact .bind hR (quiet_onDake fun s h => h.initiate _ _) k
  | none => exact .bind hR (.lift hR _) k
  | unsupported v => exact .bind hR (.lift hR _) k

theorem quiet_sendTlv {A : Account} {c : Call} {rnd : Rand} {k : UInt32} {t : TLV} : Keeps (Quiet E) (sendTlv E A c rnd k t) := by
  have hR := quiet_pre E
  exact .bind hR (.lift hR _) fun _ => .bind hR (quiet_onState (PState.prepare_calm E _ _ _ _)) fun _ =>
    .bind hR (.gets hR _) fun _ => keeps_inject hR

theorem smpHandle_calm (c : Call) (rnd : Rand) (v : Version) (t : TLV) (s : PState) :
    NoKex s (smpHandle E c rnd v t s).2 := by
  unfold smpHandle
  split
  · exact PState.onSmp_calm (SMP.handle_ssid E _ _ _) _ _
  · exact PState.onSmp4_calm (SMP4.handle_ssid E _ _ _) _ _

theorem quiet_handleSmp {A : Account} {c : Call} {v : Version} {k : UInt32} {ts : List TLV} :
    Keeps (Quiet E) (handleSmp E A c v k ts) := by
  have hR := quiet_pre E
  unfold handleSmp
  refine .ite (.lift hR _) ?_
  split
  · exact .lift hR _
  · refine .bind hR (quiet_onState (smpHandle_calm c _ v _)) fun r => ?_
    have k : ∀ x : PUnit, Keeps (Quiet E) (do
      let own ← StM.gets fun w => w.st.receiver
      match ← StM.query fun w => smpStatus v w.st.state with
      | .inProgress => return UserMessage.none
      | .completed => return .smpSucceeded own
      | .aborted => return .smpFailed own
      | .initial => StM.lift .panic) := by
      intro _
      refine .bind hR (.gets hR _) fun _ => .bind hR (.query hR _) fun st => ?_
      cases st
      · exact .lift hR _
      all_goals exact .pure hR _
    cases r with
    | some r => exact .bind hR quiet_sendTlv k
    | none => exact k ⟨⟩

theorem quiet_handleDecrypted {A : Account} {c : Call} {v : Version} {k : UInt32} {fl : UInt8} {r : Res PMessage} :
    Keeps (Quiet E) (handleDecrypted E A c v k fl r) := by
  have hR := quiet_pre E
  refine .bind hR (.gets hR _) fun own => ?_
  split
  · exact .ite quiet_handleSmp (.pure hR _)
  · exact .pure hR _
  · exact .bind hR (.lift hR _) fun _ => .bind hR (.emit hR _) fun _ => .ite (.pure hR _) (.lift hR _)
  · exact .lift hR _
  · exact .lift hR _

theorem quiet_send (A : Account) (c : Call) (t : Bool) (content : Bytes) : Keeps (Quiet E) (send E A c t content) := by
  have hR := quiet_pre E
  refine .bind hR (quiet_onState (PState.prepare_calm E _ _ _ _)) fun m => ?_
  split
  · refine .bind hR (.gets hR _) fun _ => .bind hR (.lift hR _) fun _ => .ite ?_ ?_
    · exact .bind hR (.lift hR _) fun _ => .pure hR _
    · exact .bind hR (.lift hR _) fun _ => .pure hR _
  · exact .bind hR (.gets hR _) fun _ => .bind hR (.gets hR _) fun _ => .bind hR (.lift hR _) fun _ =>
      .bind hR (.lift hR _) fun _ => .pure hR _

theorem quiet_reset (A : Account) (c : Call) : Keeps (Quiet E) (reset E A c) := by
  have hR := quiet_pre E
  refine .bind hR (.gets hR _) fun _ => .bind hR (.gets hR _) fun _ => .bind hR (.gets hR _) fun _ =>
    .bind hR (quiet_onState (PState.finish_calm E _ _)) fun m => .bind hR (.gets hR _) fun _ => .ite ?_ ?_
  · exact .bind hR (.lift hR _) fun _ => .pure hR _
  · cases m with
    | some m => exact .bind hR (keeps_inject hR) fun _ => .pure hR _
    | none => exact .pure hR _

theorem quiet_startSmp (A : Account) (c : Call) (secret q : Bytes) : Keeps (Quiet E) (startSmp E A c secret q) := by
  have hR := quiet_pre E
  have k : ∀ t : TLV, Keeps (Quiet E) (do sendTlv E A c (c.rnd.sub 1) (← StM.gets fun w => w.st.receiver) t) := fun t =>
    .bind hR (.gets hR _) fun _ => quiet_sendTlv
  refine .bind hR (.gets hR _) fun v => ?_
  cases v with
  | v3 => exact .bind hR (quiet_onState (PState.onSmp_calm (SMP.start_ssid E _ _ _ _) _)) k
  | v4 => exact .bind hR (quiet_onState (PState.onSmp4_calm (SMP4.start_ssid E _ _ _) _)) k
  | none => exact .bind hR (.lift hR _) k
  | unsupported v => exact .bind hR (.lift hR _) k

theorem quiet_abortSmp (A : Account) (c : Call) : Keeps (Quiet E) (abortSmp E A c) := by
  have hR := quiet_pre E
  have k : ∀ t : TLV, Keeps (Quiet E) (do sendTlv E A c (c.rnd.sub 1) (← StM.gets fun w => w.st.receiver) t) := fun t =>
    .bind hR (.gets hR _) fun _ => quiet_sendTlv
  refine .bind hR (.gets hR _) fun v => ?_
  cases v with
  | v3 => exact .bind hR (quiet_onState (PState.onSmp_calm (fun _ => rfl) _)) k
  | v4 => exact .bind hR (quiet_onState (PState.onSmp4_calm (fun _ => rfl) _)) k
  | none => exact .bind hR (.lift hR _) k
  | unsupported v => exact .bind hR (.lift hR _) k

end Instance

end Otrr
