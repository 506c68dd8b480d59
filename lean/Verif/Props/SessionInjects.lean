import Verif.Spec.SessionInjects
import Verif.Props.SessionIsolation
import Verif.Props.Session
import Verif.Lemmas.SessionOffer
import Verif.Lemmas.SmpAnswer
/-!
# What calls send on their own: C87
-/

namespace Otrr
open Spec

/-- A method of instance `k` that sends nothing. -/
def Silent (k : UInt32) (f : InstM α) : Prop := ∀ w, w.st.receiver = k → (f w).2.st.receiver = k ∧ (f w).2.sent = w.sent

/-- A method of instance `k` that sends nothing or something that satisfies `P`. -/
def Sends (P : List Bytes → Prop) (k : UInt32) (f : InstM α) : Prop := ∀ w, w.st.receiver = k →
  (f w).2.st.receiver = k ∧ ((f w).2.sent = w.sent ∨ ∃ out, (f w).2.sent = w.sent ++ out ∧ P out)

namespace Silent
variable {k : UInt32}

theorem bind {x : InstM α} {f : α → InstM β} (hx : Silent k x) (hf : ∀ a, Silent k (f a)) : Silent k (x >>= f) := by
  intro w hw
  have h := hx w hw
  rw [StM.bind_run]
  revert h
  cases x w with
  | mk r v =>
    rintro ⟨h1, h2⟩
    cases r with
    | ok a => exact ⟨(hf a v h1).1, (hf a v h1).2.trans h2⟩
    | err e => exact ⟨h1, h2⟩
    | panic => exact ⟨h1, h2⟩

theorem pure (a : α) : Silent k (Pure.pure a : InstM α) := fun _ h => ⟨h, rfl⟩
theorem lift (r : Res α) : Silent k (StM.lift r : InstM α) := fun _ h => ⟨h, rfl⟩
theorem gets (f : World Instance → α) : Silent k (StM.gets f) := fun _ h => ⟨h, rfl⟩
theorem query (f : World Instance → Res α) : Silent k (StM.query f) := fun _ h => ⟨h, rfl⟩
theorem state (f : StM PState α) : Silent k (Instance.onState f) := fun _ h => ⟨h, rfl⟩
theorem ake (f : StM AKEState α) : Silent k (Instance.onAke f) := fun _ h => ⟨h, rfl⟩
theorem dake (f : StM DAKEState α) : Silent k (Instance.onDake f) := fun _ h => ⟨h, rfl⟩

theorem ite {p : Prop} [Decidable p] {x y : InstM α} (hx : Silent k x) (hy : Silent k y) : Silent k (if p then x else y) := by
  split <;> assumption

theorem attempt {x : InstM α} (hx : Silent k x) : Silent k (Instance.attempt x) := by
  intro w hw
  have h := hx w hw
  unfold Instance.attempt
  revert h
  cases x w with
  | mk r v => cases r <;> exact id

theorem sends {P : List Bytes → Prop} {x : InstM α} (hx : Silent k x) : Sends P k x := fun w hw => ⟨(hx w hw).1, .inl (hx w hw).2⟩

end Silent

namespace Sends
variable {k : UInt32} {P : List Bytes → Prop}

/-- What was computed before may be used. -/
theorem after {x : InstM α} {f : α → InstM β} (hx : Silent k x) (hf : ∀ w a w', x w = (.ok a, w') → Sends P k (f a)) :
    Sends P k (x >>= f) := by
  intro w hw
  have h := hx w hw
  have hf := hf w
  rw [StM.bind_run]
  revert h hf
  cases x w with
  | mk r v =>
    rintro ⟨h1, h2⟩ hf
    cases r with
    | ok a =>
      have := hf a v rfl v h1
      simp only at h2
      rw [h2] at this
      exact this
    | err e => exact ⟨h1, .inl h2⟩
    | panic => exact ⟨h1, .inl h2⟩

theorem bind {x : InstM α} {f : α → InstM β} (hx : Sends P k x) (hf : ∀ a, Silent k (f a)) : Sends P k (x >>= f) := by
  intro w hw
  have h := hx w hw
  rw [StM.bind_run]
  revert h
  cases x w with
  | mk r v =>
    rintro ⟨h1, h2⟩
    cases r with
    | ok a =>
      simp only
      rw [(hf a v h1).2]
      exact ⟨(hf a v h1).1, h2⟩
    | err e => exact ⟨h1, h2⟩
    | panic => exact ⟨h1, h2⟩

theorem ite {p : Prop} [Decidable p] {x y : InstM α} (hx : Sends P k x) (hy : Sends P k y) : Sends P k (if p then x else y) := by
  split <;> assumption

end Sends

namespace Instance
variable {E : Env} {A : Account} {c : Call} {k : UInt32}

/-- The messages of an instance. -/
abbrev Out (E : Env) (A : Account) (c : Call) (k : UInt32) : List Bytes → Prop := Injects E A c (· = k)

theorem silent_clearAssembler (v : Version) : Silent k (clearAssembler v) := by
  unfold clearAssembler
  exact .ite (.bind (.query _) fun a w h => ⟨h, rfl⟩) (.pure _)

theorem silent_adopt (h : Option AKEState × Option DAKEState) : Silent k (Session.adopt h) := by
  unfold Session.adopt
  split
  · exact .pure _
  · exact .bind (.gets _) fun _ => .bind (.lift _) fun _ w h => ⟨h, rfl⟩

theorem sends_inject {rnd : Rand} {v : Version} {j : UInt32} {m : EncodedMessageType}
    (hm : (∃ t, m = .unencoded t) ∨ IsKeyExchange m ∨ (∃ t, CarriesTlv E c t m) ∨ (∃ s, Disconnects E c s m)) :
    Sends (Out E A c k) k (inject A c rnd v j m) := by
  intro w hw
  simp only [inject, StM.bind_run, StM.gets, StM.lift]
  cases Res.assert (j != 0 && w.st.receiver == 0 || w.st.receiver == j) with
  | err e => exact ⟨hw, .inl rfl⟩
  | panic => exact ⟨hw, .inl rfl⟩
  | ok u =>
    simp only
    cases he : encodeMessage v A.tag w.st.receiver m with
    | err e => exact ⟨hw, .inl rfl⟩
    | panic => exact ⟨hw, .inl rfl⟩
    | ok content =>
      simp only
      cases hp : payloads A c v w.st.receiver rnd content with
      | err e => exact ⟨hw, .inl rfl⟩
      | panic => exact ⟨hw, .inl rfl⟩
      | ok out =>
        refine ⟨hw, .inr ⟨out, rfl, ?_⟩⟩
        rcases hm with ⟨t, rfl⟩ | hm
        · exfalso
          rw [encodeMessage, serialize, Res.bind_eq_ok] at he
          obtain ⟨b, he, _⟩ := he
          simp only [encodeEncoded, typeCode, Res.bind_eq_ok] at he
          obtain ⟨_, _, _, h, _⟩ := he
          cases h
        · exact .message hm rfl hw (Props.payloads_inTransit he hp)

theorem onAke_ok {f : StM AKEState α} {w w' : World Instance} {a : α} (h : onAke f w = (.ok a, w')) : ∃ s s', f s = (.ok a, s') := by
  have h := congrArg Prod.fst h
  exact ⟨w.st.ake, (f w.st.ake).2, Prod.ext h rfl⟩

theorem onDake_ok {f : StM DAKEState α} {w w' : World Instance} {a : α} (h : onDake f w = (.ok a, w')) : ∃ s s', f s = (.ok a, s') := by
  have h := congrArg Prod.fst h
  exact ⟨w.st.dake, (f w.st.dake).2, Prod.ext h rfl⟩

theorem sends_initiate (v : Version) : Sends (Out E A c k) k (initiate E A c v) := by
  have key : ∀ m : EncodedMessageType, IsKeyExchange m → Sends (Out E A c k) k (do
      inject A c (c.rnd.sub 1) v (← StM.gets fun w => w.st.receiver) m
      return UserMessage.none) := fun m hm =>
    .after (.gets _) fun _ _ _ _ => .bind (sends_inject (.inr (.inl hm))) fun _ => .pure _
  unfold initiate
  cases v with
  | v3 =>
    refine .after (.ake _) fun w m w' h => key m ?_
    cases h
    trivial
  | v4 =>
    refine .after (.dake _) fun w m w' h => key m ?_
    obtain ⟨s, s', h⟩ := onDake_ok h
    rw [DAKE.initiate, transact_ok] at h
    split at h
    · simp only [Res.bind_eq_ok, Res.pure_def, Res.ok.injEq, Prod.mk.injEq] at h
      obtain ⟨_, _, rfl, _⟩ := h
      trivial
    · cases h
  | none => exact .after (.lift _) fun w m w' h => by cases h
  | unsupported n => exact .after (.lift _) fun w m w' h => by cases h

theorem answerIdentity_kind {host : DAKEHost} {m : IdentityMessage} {bob : ClientProfile} {rnd : Rand} {r : EncodedMessageType}
    {s' : DAKEState} (h : DAKE.answerIdentity E host m bob rnd = .ok (r, s')) : IsKeyExchange r := by
  simp only [DAKE.answerIdentity, Res.bind_eq_ok, Res.pure_def, Res.ok.injEq, Prod.mk.injEq] at h
  obtain ⟨_, _, _, _, _, _, _, _, rfl, _⟩ := h
  trivial

theorem handleIdentity_kind {host : DAKEHost} {m : IdentityMessage} {rnd : Rand} {s s' : DAKEState} {r : EncodedMessageType}
    (h : DAKE.handleIdentity E host m rnd s = (.ok r, s')) : IsKeyExchange r := by
  rw [DAKE.handleIdentity, transact_ok, Res.bind_eq_ok] at h
  obtain ⟨bob, _, h⟩ := h
  split at h
  · split at h
    · cases h; trivial
    · exact answerIdentity_kind h
  · exact answerIdentity_kind h

theorem handleAuthR_kind {host : DAKEHost} {m : AuthRMessage} {rnd : Rand} {now : Nat} {s s' : DAKEState}
    {r : MixedKeyMaterial × EncodedMessageType} (h : DAKE.handleAuthR E host m rnd now s = (.ok r, s')) : IsKeyExchange r.2 := by
  rw [DAKE.handleAuthR, transact_ok] at h
  split at h
  · simp only [DAKE.answerAuthR, Res.bind_eq_ok, Res.pure_def, Res.ok.injEq, Prod.mk.injEq] at h
    obtain ⟨_, ⟨_, _, _, _, _, _, _, _, _, _, _, _, _, _, rfl⟩, rfl, _⟩ := h
    trivial
  · cases h

theorem handleDhCommit_kind {m : DHCommitMessage} {rnd : Rand} {s s' : AKEState} {r : EncodedMessageType}
    (h : AKE.handleDhCommit E m rnd s = (.ok r, s')) : IsKeyExchange r := by
  rw [AKE.handleDhCommit, transact_ok] at h
  split at h
  · cases h; trivial
  · split at h <;> cases h <;> trivial
  · cases h; trivial
  · cases h; trivial

theorem handleDhKey_kind {host : Option DSAKeypair} {m : DHKeyMessage} {s s' : AKEState} {r : EncodedMessageType}
    (h : AKE.handleDhKey E host m s = (.ok r, s')) : IsKeyExchange r := by
  rw [AKE.handleDhKey, transact_ok] at h
  split at h
  · simp only [AKE.answerDhKey, Res.bind_eq_ok, Res.pure_def, Res.ok.injEq, Prod.mk.injEq] at h
    obtain ⟨_, _, _, _, rfl, _⟩ := h
    trivial
  · split at h <;> cases h
    trivial
  · cases h

theorem handleRevealSignature_kind {host : Option DSAKeypair} {m : RevealSignatureMessage} {s s' : AKEState}
    {r : AKEMaterial × EncodedMessageType} (h : AKE.handleRevealSignature E host m s = (.ok r, s')) : IsKeyExchange r.2 := by
  rw [AKE.handleRevealSignature, transact_ok] at h
  split at h
  · simp only [AKE.answerRevealSignature, Res.bind_eq_ok, Res.pure_def, Res.ok.injEq, Prod.mk.injEq] at h
    obtain ⟨_, ⟨_, _, _, _, _, _, _, _, ⟨_, _, _⟩, _, _, _, _, _, rfl⟩, rfl, _⟩ := h
    trivial
  · cases h

theorem onState_ok {f : StM PState α} {w w' : World Instance} {a : α} (h : onState f w = (.ok a, w')) : ∃ s s', f s = (.ok a, s') := by
  have h := congrArg Prod.fst h
  exact ⟨w.st.state, (f w.st.state).2, Prod.ext h rfl⟩

theorem onSmp_ok {f : StM SMPContext α} {e : OTRError} {s s' : PState} {a : α} (h : PState.onSmp f e s = (.ok a, s')) :
    ∃ x x', f x = (.ok a, x') := by
  cases s with
  | encrypted3 x smp => exact ⟨smp, (f smp).2, Prod.ext (congrArg Prod.fst h :) rfl⟩
  | plaintext => cases h
  | encrypted4 x smp => cases h
  | finished => cases h

theorem onSmp4_ok {f : StM SMP4Context α} {e : OTRError} {s s' : PState} {a : α} (h : PState.onSmp4 f e s = (.ok a, s')) :
    ∃ x x', f x = (.ok a, x') := by
  cases s with
  | encrypted4 x smp => exact ⟨smp, (f smp).2, Prod.ext (congrArg Prod.fst h :) rfl⟩
  | plaintext => cases h
  | encrypted3 x smp => cases h
  | finished => cases h

theorem smpHandle_isSmp {rnd : Rand} {v : Version} {t r : TLV} {w w' : World Instance}
    (h : onState (smpHandle E c rnd v t) w = (.ok (some r), w')) : IsSmp r := by
  obtain ⟨s, s', h⟩ := onState_ok h
  cases v with
  | v3 => obtain ⟨_, _, h⟩ := onSmp_ok h; exact SMP.handle_isSmp h
  | v4 => obtain ⟨_, _, h⟩ := onSmp4_ok h; exact SMP4.handle_isSmp h
  | none => obtain ⟨_, _, h⟩ := onSmp4_ok h; exact SMP4.handle_isSmp h
  | unsupported n => obtain ⟨_, _, h⟩ := onSmp4_ok h; exact SMP4.handle_isSmp h

theorem sends_sendTlv {rnd : Rand} {j : UInt32} {t : TLV} (ht : IsSmp t) : Sends (Out E A c k) k (sendTlv E A c rnd j t) := by
  unfold sendTlv
  refine .after (.lift _) fun _ plain _ hp => .after (.state _) fun w m w' hm => .after (.gets _) fun _ _ _ _ => sends_inject ?_
  have hp := congrArg Prod.fst hp
  simp only [StM.lift, tlvPlain, Res.bind_eq_ok, Res.assert_eq_ok, Res.pure_def, Res.ok.injEq] at hp
  obtain ⟨_, hlen, rfl⟩ := hp
  have hm := congrArg Prod.fst hm
  simp only [onState] at hm
  cases hs : w.st.state.status with
  | encrypted =>
    rcases Props.prepare_encrypts (E := E) (c := c) (fl := IGNORE_UNREADABLE) (content := wU8 0 ++ wTlv t) (rnd := rnd.sub 0) hs with h | ⟨m', s', h, he⟩
    · rw [h] at hm; cases hm
    · rw [h] at hm
      cases hm
      exact .inr (.inr (.inl ⟨t, ht, by simpa [tlvOk] using hlen, _, _, he⟩))
  | plaintext =>
    cases hw : w.st.state <;> rw [hw] at hs hm <;> first | cases hs | skip
    cases hm
    exact .inl ⟨_, rfl⟩
  | finished =>
    cases hw : w.st.state <;> rw [hw] at hs hm <;> first | cases hs | skip
    cases hm

theorem sends_handleSmp {v : Version} {j : UInt32} {tlvs : List TLV} : Sends (Out E A c k) k (handleSmp E A c v j tlvs) := by
  have tail : Silent k (do
      let own ← StM.gets fun w => w.st.receiver
      match ← StM.query fun w => smpStatus v w.st.state with
      | .inProgress => return UserMessage.none
      | .completed => return .smpSucceeded own
      | .aborted => return .smpFailed own
      | .initial => StM.lift .panic : InstM UserMessage) :=
    .bind (.gets _) fun own => .bind (.query _) fun st => by
      cases st
      · exact .lift _
      · exact .pure _
      · exact .pure _
      · exact .pure _
  unfold handleSmp
  refine .ite (Silent.lift _).sends ?_
  split
  · exact (Silent.lift _).sends
  · refine .after (.state _) fun _ o _ ho => ?_
    cases o with
    | none => exact tail.sends
    | some reply => exact .bind (sends_sendTlv (smpHandle_isSmp ho)) fun _ => tail

theorem sends_handleDecrypted {v : Version} {j : UInt32} {flags : UInt8} {r : Res PMessage} :
    Sends (Out E A c k) k (handleDecrypted E A c v j flags r) := by
  unfold handleDecrypted
  refine .after (.gets _) fun _ own _ _ => ?_
  split
  · exact .ite sends_handleSmp (Silent.pure _).sends
  · exact (Silent.pure _).sends
  · have hs : serialize (.error UNREADABLE) = .ok UNREADABLE_ERROR := by decide
    rw [hs]
    have he : Sends (Out E A c k) k (emit [UNREADABLE_ERROR] : InstM Unit) := fun w hw => ⟨hw, .inr ⟨_, rfl, .error⟩⟩
    refine .after (.lift _) fun w t w' h => ?_
    cases h
    exact .bind he fun _ => .ite (.pure _) (.lift _)
  · exact (Silent.lift _).sends
  · exact (Silent.lift _).sends

theorem silent_secure {j : UInt32} {mat : AKEMaterial} : Silent k (secure E A c j mat) := .state _

theorem sends_process {m : EncodedMessage} : Sends (Out E A c k) k (process E A c m) := by
  have key : ∀ {rnd : Rand} {v : Version} {j : UInt32} {r : EncodedMessageType} {g : Unit → InstM UserMessage}, IsKeyExchange r →
      (∀ u, Silent k (g u)) → Sends (Out E A c k) k (inject A c rnd v j r >>= g) := fun hr hg =>
    .bind (sends_inject (.inr (.inl hr))) hg
  unfold process
  refine .after (.gets _) fun _ own _ _ => ?_
  split
  · exact .after (.ake _) fun w r w' h => by
      obtain ⟨_, _, h⟩ := onAke_ok h
      exact key (handleDhCommit_kind h) fun _ => .pure _
  · exact .after (.ake _) fun w r w' h => by
      obtain ⟨_, _, h⟩ := onAke_ok h
      exact key (handleDhKey_kind h) fun _ => .pure _
  · exact .after (.ake _) fun w r w' h => by
      obtain ⟨_, _, h⟩ := onAke_ok h
      obtain ⟨mat, r⟩ := r
      exact .after silent_secure fun _ _ _ _ => key (handleRevealSignature_kind h) fun _ => .pure _
  · exact (Silent.bind (.ake _) fun _ => .bind silent_secure fun _ => .pure _).sends
  · exact .after (.attempt (.state _)) fun _ _ _ _ => sends_handleDecrypted
  · exact .after (.dake _) fun w r w' h => by
      obtain ⟨_, _, h⟩ := onDake_ok h
      exact key (handleIdentity_kind h) fun _ => .pure _
  · exact .after (.dake _) fun w r w' h => by
      obtain ⟨_, _, h⟩ := onDake_ok h
      obtain ⟨mat, r⟩ := r
      exact key (handleAuthR_kind h) fun _ => .bind (.state _) fun _ => .pure _
  · exact (Silent.bind (.dake _) fun _ => .bind (.state _) fun _ => .pure _).sends
  · exact .after (.lift _) fun _ _ _ _ => .after (.attempt (.state _)) fun _ _ _ _ => sends_handleDecrypted
  · exact (Silent.lift _).sends
  · exact (Silent.lift _).sends

theorem sends_reset : Sends (Out E A c k) k (reset E A c) := by
  unfold reset
  refine .after (.gets _) fun _ _ _ _ => .after (.gets _) fun _ _ _ _ => .after (.gets _) fun _ _ _ _ => .after (.state _) fun w o w' h => ?_
  refine .after (.gets _) fun _ _ _ _ => .ite (Silent.bind (.lift _) fun _ => .pure _).sends ?_
  cases o with
  | none => exact (Silent.pure _).sends
  | some m =>
    refine .bind (sends_inject (.inr (.inr (.inr ⟨w.st.state, ?_⟩)))) fun _ => .pure _
    have h := congrArg Prod.fst h
    simp only [onState] at h
    cases hs : w.st.state.status with
    | encrypted =>
      rcases Props.finish_encrypted (E := E) (c := c) (rnd := c.rnd.sub 0) hs with h1 | ⟨m', h1, he⟩
      · rw [h1] at h; cases h
      · rw [h1] at h
        cases h
        exact he
    | plaintext =>
      cases hw : w.st.state <;> rw [hw] at hs h <;> first | cases hs | skip
      simp [PState.finish] at h
    | finished =>
      cases hw : w.st.state <;> rw [hw] at hs h <;> first | cases hs | skip
      simp [PState.finish] at h

theorem sends_startSmp {secret question : Bytes} : Sends (Out E A c k) k (startSmp E A c secret question) := by
  unfold startSmp
  refine .after (.gets _) fun _ v _ _ => ?_
  cases v with
  | v3 =>
    refine .after (.state _) fun _ _ _ h => .after (.gets _) fun _ _ _ _ => sends_sendTlv ?_
    obtain ⟨_, _, h⟩ := onState_ok h
    obtain ⟨_, _, h⟩ := onSmp_ok h
    exact SMP.start_isSmp h
  | v4 =>
    refine .after (.state _) fun _ _ _ h => .after (.gets _) fun _ _ _ _ => sends_sendTlv ?_
    obtain ⟨_, _, h⟩ := onState_ok h
    obtain ⟨_, _, h⟩ := onSmp4_ok h
    exact SMP4.start_isSmp h
  | none => exact .after (.lift _) fun _ _ _ h => by cases h
  | unsupported n => exact .after (.lift _) fun _ _ _ h => by cases h

theorem sends_abortSmp : Sends (Out E A c k) k (abortSmp E A c) := by
  unfold abortSmp
  refine .after (.gets _) fun _ v _ _ => ?_
  cases v with
  | v3 =>
    refine .after (.state _) fun _ _ _ h => .after (.gets _) fun _ _ _ _ => sends_sendTlv ?_
    obtain ⟨_, _, h⟩ := onState_ok h
    obtain ⟨_, _, h⟩ := onSmp_ok h
    cases h; exact isSmp_6 _
  | v4 =>
    refine .after (.state _) fun _ _ _ h => .after (.gets _) fun _ _ _ _ => sends_sendTlv ?_
    obtain ⟨_, _, h⟩ := onState_ok h
    obtain ⟨_, _, h⟩ := onSmp4_ok h
    cases h; exact isSmp_6 _
  | none => exact .after (.lift _) fun _ _ _ h => by cases h
  | unsupported n => exact .after (.lift _) fun _ _ _ h => by cases h

theorem silent_send {t : Bool} {content : Bytes} : Silent k (send E A c t content) := by
  unfold send
  refine .bind (.state _) fun m => ?_
  have tail : ∀ m, Silent k (do
      let v ← StM.gets fun w => w.st.state.version
      let own ← StM.gets fun w => w.st.receiver
      let content ← StM.lift (encodeMessage v A.tag own m)
      return (← StM.lift (payloads A c v own (c.rnd.sub 1) content), t) : InstM (List Bytes × Bool)) := fun m =>
    .bind (.gets _) fun _ => .bind (.gets _) fun _ => .bind (.lift _) fun _ => .bind (.lift _) fun _ => .pure _
  cases m with
  | unencoded msg =>
    exact .bind (.gets _) fun _ => .bind (.lift _) fun _ => .ite (.bind (.lift _) fun _ => .pure _) (.bind (.lift _) fun _ => .pure _)
  | _ => exact tail _

end Instance

namespace Session
open Instance
variable {E : Env} {A : Account} {c : Call} {P : List Bytes → Prop}

/-- What a call added to what was sent: nothing or something that satisfies `P`. -/
def Adds (P : List Bytes → Prop) (w w' : World Session) : Prop := w'.sent = w.sent ∨ ∃ out, w'.sent = w.sent ++ out ∧ P out

theorem adds_bind {x : SessM α} {f : α → SessM β} {w : World Session} (hx : Adds P w (x w).2) (hf : ∀ a, Mute (f a)) :
    Adds P w ((x >>= f) w).2 := by
  rw [StM.bind_run]
  revert hx
  cases x w with
  | mk r v =>
    intro hx
    cases r with
    | ok a =>
      simp only [Adds, hf a v]
      exact hx
    | err e => exact hx
    | panic => exact hx

theorem adds_entry {k : UInt32} {f : InstM α} {w : World Session} (hi : Inv E w.st) (hf : Sends P k f) : Adds P w (entry k f w).2 :=
  (hf ⟨w.st.inst k, w.sent⟩ (hi.receiver k)).2

theorem adds_existing {k : UInt32} {f : InstM α} {w : World Session} (hi : Inv E w.st) (hf : Sends P k f) :
    Adds P w (existing k f w).2 := by
  unfold existing
  split
  · exact .inl rfl
  · exact adds_entry hi hf

theorem adds_query {K : UInt32 → Prop} (w : World Session) : Adds (Injects E A c K) w (query A w).2 := by
  unfold query
  by_cases hv : filterVersions A.policy SUPPORTED_VERSIONS = []
  · simp only [hv, if_true]
    exact .inl rfl
  · simp only [hv, if_false]
    rw [StM.bind_run, StM.lift]
    have h4 : Version.v4 ∈ SUPPORTED_VERSIONS := by decide
    have h3 : Version.v3 ∈ SUPPORTED_VERSIONS := by decide
    by_cases ha4 : A.policy.has ALLOW_V4 = true
    · rw [filterVersions, if_pos ⟨h4, ha4⟩]
      exact .inr ⟨_, rfl, .query (.inl ⟨(Props.allowsV4_iff A).mp ha4, by decide +kernel⟩)⟩
    · by_cases ha3 : A.policy.has ALLOW_V3 = true
      · rw [filterVersions, if_neg (fun h => ha4 h.2), if_pos ⟨h3, ha3⟩]
        exact .inr ⟨_, rfl, .query (.inr ⟨fun h => ha4 ((Props.allowsV4_iff A).mpr h), (Props.allowsV3_iff A).mp ha3, by decide +kernel⟩)⟩
      · rw [filterVersions, if_neg (fun h => ha4 h.2), if_neg (fun h => ha3 h.2)] at hv
        exact absurd rfl hv

theorem sends_mono {k : UInt32} {f : InstM α} {K : UInt32 → Prop} (hk : K k) (hf : Sends (Out E A c k) k f) :
    Sends (Injects E A c K) k f := by
  intro w hw
  obtain ⟨h1, h2⟩ := hf w hw
  refine ⟨h1, h2.imp id ?_⟩
  rintro ⟨out, h3, h4⟩
  refine ⟨out, h3, ?_⟩
  cases h4 with
  | nothing => exact .nothing
  | message h5 h6 h7 h8 => exact .message h5 h6 (h7 ▸ hk) h8
  | error => exact .error
  | query h => exact .query h

theorem adds_answerOffer {K : UInt32 → Prop} {w : World Session} (hi : Inv E w.st) (h0 : K 0) (vs : List Version) :
    Adds (Injects E A c K) w (answerOffer E A c vs w).2 := by
  unfold answerOffer
  cases selectVersion A.policy vs with
  | none => exact .inl rfl
  | some v => exact adds_bind (adds_entry hi (sends_mono h0 (sends_initiate _))) fun _ _ => rfl

theorem adds_receiveWhole {K : UInt32 → Prop} {w : World Session} (hi : Inv E w.st) {text : Bytes}
    (hm : ∀ m, parse E text = .ok (.encoded m) → K m.sender)
    (hq : ∀ vs, parse E text = .ok (.query vs) → K 0) (ht : ∀ vs t, parse E text = .ok (.tagged vs t) → K 0) :
    Adds (Injects E A c K) w (receiveWhole E A c text w).2 := by
  unfold receiveWhole
  rw [StM.bind_run, StM.lift]
  cases hp : parse E text with
  | err e => exact .inl rfl
  | panic => exact .inl rfl
  | ok t =>
    cases t with
    | error e =>
      simp only
      split
      · exact adds_bind (adds_query w) fun _ _ => rfl
      · exact .inl rfl
    | plaintext content => exact .inl (mute_reportPlain content w)
    | tagged vs content =>
      simp only
      split
      · exact adds_bind (adds_answerOffer hi (ht vs content hp) vs) fun _ => mute_reportPlain content
      · exact .inl (mute_reportPlain content w)
    | query vs => exact adds_bind (adds_answerOffer hi (hq vs hp) vs) fun _ _ => rfl
    | encoded m =>
      simp only
      split
      · exact .inl rfl
      · unfold receiveEncoded
        rw [StM.bind_run, StM.lift]
        cases verifyHeader A m with
        | err e => exact .inl rfl
        | panic => exact .inl rfl
        | ok u =>
          simp only
          split
          · exact .inl rfl
          · rw [StM.bind_run]
            have ho : (handOver m w).2 = w := rfl
            revert ho
            cases handOver m w with
            | mk o w1 =>
              intro ho
              cases ho
              cases o with
              | err e => exact .inl rfl
              | panic => exact .inl rfl
              | ok h =>
                exact adds_entry hi (sends_mono (hm m hp) (.after (silent_adopt h) fun _ _ _ _ =>
                  .after (silent_clearAssembler _) fun _ _ _ _ => sends_process))

end Session

namespace Props
open Session Instance
variable {E : Env} {A : Account} {c : Call}

/-- C87: what any call other than `expire` hands to the host to be sent.  It is nothing, or one message (whole or in
fragments) from this client to an instance that the call is about, and this message belongs to a key exchange, or
carries no text but one TLV, or says that the session is over; or it is the error text for unreadable messages; or a
query.  So a text of the user is never sent but by what `send` returns. -/
theorem C87_injects {h : List Ev} {s : Session} {op : Op} (hh : Hist E A h s) (ho : ∀ t, op ≠ .expire t) :
    Injects E A c (fun k => Touches E A s k op) (op.run E A c s).sent := by
  have hi := hist_inv hh
  have done : ∀ {K : UInt32 → Prop} {w' : World Session}, Adds (Injects E A c K) ⟨s, []⟩ w' → Injects E A c K w'.sent := by
    rintro K w' (h | ⟨out, h, h1⟩)
    · rw [h]; exact .nothing
    · rw [h]; exact h1
  cases op with
  | receive payload =>
    simp only [Op.run]
    rw [perform_sent]
    refine done ?_
    have whole : ∀ {text} {w : World Session}, Inv E w.st → Reads E A s payload text →
        Adds (Injects E A c (fun k => Touches E A s k (.receive payload))) w (receiveWhole E A c text w).2 := fun hi hr =>
      adds_receiveWhole hi (fun m h1 => .message hr h1 rfl) (fun vs h1 => .query hr h1 rfl) (fun vs t h1 => .tagged hr h1 rfl)
    refine receive_cases (fun x => Adds _ ⟨s, []⟩ x.2) ⟨s, []⟩ payload ?_ ?_ ?_ ?_ ?_ ?_
    · exact fun _ => .inl rfl
    · exact fun _ hf => whole hi (.inl ⟨hf, rfl⟩)
    · exact fun _ _ _ _ => .inl rfl
    · exact fun _ _ _ _ => .inl rfl
    · exact fun _ _ _ _ _ => .inl rfl
    · exact fun f text h1 h2 hr => whole (hi.calm (calm_assemble (E := E) f f.sender ⟨s, []⟩)) hr
  | send j content =>
    simp only [Op.run]
    rw [perform_sent]
    refine done ?_
    unfold Session.send
    split
    · exact .inl rfl
    · rw [StM.bind_run, StM.gets]
      simp only
      cases s.status j with
      | none => exact .inl rfl
      | some st =>
        simp only
        split
        · exact adds_bind (adds_query _) fun _ _ => rfl
        · refine .inl ?_
          simp only [sendOn, StM.bind_run, StM.gets, existing]
          cases hl : lookup s.instances j with
          | none => rfl
          | some i =>
            simp only [entry, hl, Option.getD_some]
            have := (silent_send (E := E) (A := A) (c := c) (t := s.tagged) (content := content) (k := i.receiver) ⟨i, []⟩ rfl).2
            revert this
            cases Instance.send E A c s.tagged content ⟨i, []⟩ with
            | mk r v =>
              intro h
              cases r <;> exact h
  | initiate v j =>
    simp only [Op.run]
    rw [perform_sent]
    exact done (adds_entry hi (sends_mono (.initiate v) (sends_initiate v)))
  | close j =>
    simp only [Op.run]
    rw [perform_sent]
    exact done (adds_existing hi (sends_mono .close sends_reset))
  | query =>
    simp only [Op.run]
    rw [perform_sent]
    exact done (adds_query _)
  | startSmp j a b =>
    simp only [Op.run]
    rw [perform_sent]
    exact done (adds_existing hi (sends_mono (.startSmp a b) sends_startSmp))
  | abortSmp j =>
    simp only [Op.run]
    rw [perform_sent]
    exact done (adds_existing hi (sends_mono .abortSmp sends_abortSmp))
  | expire t => exact absurd rfl (ho t)

/-- Non-vacuity: in a reachable session, a call that sends something. -/
theorem _root_.Otrr.Spec.ToySession.a4_sends : ToySession.a4.sent ≠ [] := by decide +kernel

example : ∃ h, Hist ToySession.tinyEnv ToySession.acA h ToySession.a2.after ∧
    ((Op.receive (ToySession.msg ToySession.b3)).run ToySession.tinyEnv ToySession.acA (ToySession.callA 1000 4) ToySession.a2.after).sent ≠ [] := by
  obtain ⟨h, hh⟩ := ToySession.hist_a2
  refine ⟨h, hh, fun e => ToySession.a4_sends ?_⟩
  unfold ToySession.a4
  exact e

end Props
end Otrr
