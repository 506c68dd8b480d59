import Verif.Lemmas.SessionPoints
/-!
Which calls can make an instance plaintext again: only `close`.
-/

namespace Otrr
open Spec

namespace Instance
variable {E : Env} {A : Account} {c : Call}

/-- An instance is plaintext only if it was before. -/
def NP (i i' : Instance) : Prop := i'.state = .plaintext → i.state = .plaintext

theorem np_pre : Pre NP := ⟨fun _ => id, fun h h' => h ∘ h'⟩

theorem np_onAke (f : StM AKEState α) : Keeps NP (onAke f) := fun _ => id

theorem np_onDake (f : StM DAKEState α) : Keeps NP (onDake f) := fun _ => id

theorem np_onState {f : StM PState α} (h : ∀ s, (f s).2 = .plaintext → s = .plaintext) : Keeps NP (onState f) := fun _ => h _

theorem np_prepare {fl : UInt8} {content : Bytes} {rnd : Rand} {now : Nat} (s : PState)
    (h : (s.prepare E fl content rnd now).2 = .plaintext) : s = .plaintext := by
  cases s with
  | plaintext => rfl
  | finished => cases h
  | encrypted3 x y => cases h
  | encrypted4 x y => cases h

theorem np_transition {x : Res (PMessage × Bool) × PState} (hx : x.2 ≠ .plaintext) : (PState.transition x).2 ≠ .plaintext := by
  obtain ⟨r, s⟩ := x
  rcases r with ⟨m, _ | _⟩ | e | _
  · exact hx
  · nofun
  · exact hx
  · exact hx

theorem np_handle3 {m : DataMessage} {a b : Bytes} (s : PState) (h : (s.handle3 E m a b).2 = .plaintext) : s = .plaintext := by
  cases s with
  | encrypted3 x y => exact absurd h (np_transition nofun)
  | plaintext => rfl
  | encrypted4 x y => cases h
  | finished => cases h

theorem np_handle4 {m : DataMessage4} {a : Bytes} {n : Nat} (s : PState) (h : (s.handle4 E m a n).2 = .plaintext) : s = .plaintext := by
  cases s with
  | encrypted4 x y => exact absurd h (np_transition nofun)
  | plaintext => rfl
  | encrypted3 x y => cases h
  | finished => cases h

theorem np_pexpire {t : Nat} {rnd : Rand} {now : Nat} (s : PState) (h : (s.expire E t rnd now).2 = .plaintext) : s = .plaintext := by
  cases s with
  | encrypted4 x y =>
    revert h
    unfold PState.expire
    dsimp only
    split
    · split <;> intro h <;> cases h
    · intro h; cases h
  | plaintext => rfl
  | encrypted3 x y => cases h
  | finished => cases h

theorem np_onSmp {f : StM SMPContext α} {e : OTRError} (s : PState) (h : (PState.onSmp f e s).2 = .plaintext) : s = .plaintext := by
  cases s with
  | plaintext => rfl
  | encrypted3 x smp => cases h
  | encrypted4 x smp => cases h
  | finished => cases h

theorem np_onSmp4 {f : StM SMP4Context α} {e : OTRError} (s : PState) (h : (PState.onSmp4 f e s).2 = .plaintext) : s = .plaintext := by
  cases s with
  | plaintext => rfl
  | encrypted3 x smp => cases h
  | encrypted4 x smp => cases h
  | finished => cases h

theorem np_smpHandle {rnd : Rand} {v : Version} {t : TLV} (s : PState) (h : (smpHandle E c rnd v t s).2 = .plaintext) : s = .plaintext := by
  revert h
  unfold smpHandle
  split
  · exact np_onSmp s
  · exact np_onSmp4 s

theorem np_secure {k : UInt32} {mat : AKEMaterial} : Keeps NP (secure E A c k mat) := by
  refine np_onState fun s h => ?_
  cases hs : s.secure3 E A.tag k mat (c.rnd.sub 1) with
  | ok s' =>
    rw [hs] at h
    simp only at h
    subst h
    cases s <;> simp only [PState.secure3, Res.bind_eq_ok, Res.pure_def, Res.ok.injEq, reduceCtorEq, and_false, exists_false] at hs
  | err e => rw [hs] at h; exact h
  | panic => rw [hs] at h; exact h

theorem np_secure4 {our their : UInt32} {mat : MixedKeyMaterial} :
    Keeps NP (onState fun _ => (.ok (), PState.secure4 our their mat)) :=
  np_onState fun _ h => by cases h

theorem np_sendTlv {rnd : Rand} {k : UInt32} {t : TLV} : Keeps NP (sendTlv E A c rnd k t) := by
  have hR := np_pre
  exact .bind hR (.lift hR _) fun _ => .bind hR (np_onState np_prepare) fun _ => .bind hR (.gets hR _) fun _ => keeps_inject hR

theorem np_handleSmp {v : Version} {k : UInt32} {tlvs : List TLV} : Keeps NP (handleSmp E A c v k tlvs) := by
  have hR := np_pre
  unfold handleSmp
  refine .ite (.lift hR _) ?_
  split
  · exact .lift hR _
  · refine .bind hR (np_onState np_smpHandle) fun r => ?_
    have rest : Keeps NP (do
        let own ← StM.gets fun w : World Instance => w.st.receiver
        match ← StM.query fun w => smpStatus v w.st.state with
        | .inProgress => return UserMessage.none
        | .completed => return .smpSucceeded own
        | .aborted => return .smpFailed own
        | .initial => StM.lift .panic) := by
      refine .bind hR (.gets hR _) fun _ => .bind hR (.query hR _) fun s => ?_
      cases s <;> first | exact .pure hR _ | exact .lift hR _
    cases r with
    | none => exact rest
    | some t => exact .bind hR np_sendTlv fun _ => rest

theorem np_handleDecrypted {v : Version} {k : UInt32} {flags : UInt8} (r : Res PMessage) :
    Keeps NP (handleDecrypted E A c v k flags r) := by
  have hR := np_pre
  refine .bind hR (.gets hR _) fun _ => ?_
  split
  · exact .ite np_handleSmp (.pure hR _)
  · exact .pure hR _
  · exact .bind hR (.lift hR _) fun _ => .bind hR (.emit hR _) fun _ => .ite (.pure hR _) (.lift hR _)
  · exact .lift hR _
  · exact .lift hR _

theorem np_process (m : EncodedMessage) : Keeps NP (process E A c m) := by
  have hR := np_pre
  refine .bind hR (.gets hR _) fun own => ?_
  obtain ⟨v, snd, rcv, b⟩ := m
  dsimp only
  cases v with
  | v3 =>
    cases b with
    | dhCommit d => exact .bind hR (np_onAke _) fun _ => .bind hR (keeps_inject hR) fun _ => .pure hR _
    | dhKey d => exact .bind hR (np_onAke _) fun _ => .bind hR (keeps_inject hR) fun _ => .pure hR _
    | revealSignature d =>
      exact .bind hR (np_onAke _) fun _ => .bind hR np_secure fun _ => .bind hR (keeps_inject hR) fun _ => .pure hR _
    | signature d => exact .bind hR (np_onAke _) fun _ => .bind hR np_secure fun _ => .pure hR _
    | data d => exact .bind hR (.attempt (np_onState np_handle3)) fun r => np_handleDecrypted r
    | _ => exact .lift hR _
  | v4 =>
    cases b with
    | identity d => exact .bind hR (np_onDake _) fun _ => .bind hR (keeps_inject hR) fun _ => .pure hR _
    | authR d => exact .bind hR (np_onDake _) fun _ => .bind hR (keeps_inject hR) fun _ => .bind hR np_secure4 fun _ => .pure hR _
    | authI d => exact .bind hR (np_onDake _) fun _ => .bind hR np_secure4 fun _ => .pure hR _
    | data4 d => exact .bind hR (.lift hR _) fun _ => .bind hR (.attempt (np_onState np_handle4)) fun r => np_handleDecrypted r
    | _ => exact .lift hR _
  | none => cases b <;> exact .lift hR _
  | unsupported n => cases b <;> exact .lift hR _

theorem np_handle (m : EncodedMessage) : Keeps NP (handle E A c m) := by
  refine .bind np_pre ?_ fun _ => np_process m
  intro w
  unfold clearAssembler
  split <;> exact id

theorem np_initiate (v : Version) : Keeps NP (initiate E A c v) := by
  have hR := np_pre
  have rest : ∀ m, Keeps NP (do
      inject A c (c.rnd.sub 1) v (← StM.gets fun w : World Instance => w.st.receiver) m
      return UserMessage.none) := fun m =>
    .bind hR (.gets hR _) fun _ => .bind hR (keeps_inject hR) fun _ => .pure hR _
  cases v with
  | v3 => exact .bind hR (np_onAke _) rest
  | v4 => exact .bind hR (np_onDake _) rest
  | none => exact .bind hR (.lift hR _) rest
  | unsupported n => exact .bind hR (.lift hR _) rest

theorem np_send (t : Bool) (content : Bytes) : Keeps NP (send E A c t content) := by
  have hR := np_pre
  refine .bind hR (np_onState np_prepare) fun m => ?_
  cases m with
  | unencoded b =>
    exact .bind hR (.gets hR _) fun _ => .bind hR (.lift hR _) fun _ =>
      .ite (.bind hR (.lift hR _) fun _ => .pure hR _) (.bind hR (.lift hR _) fun _ => .pure hR _)
  | _ =>
    exact .bind hR (.gets hR _) fun _ => .bind hR (.gets hR _) fun _ => .bind hR (.lift hR _) fun _ => .bind hR (.lift hR _) fun _ =>
      .pure hR _

theorem np_startSmp (secret question : Bytes) : Keeps NP (startSmp E A c secret question) := by
  have hR := np_pre
  refine .bind hR (.gets hR _) fun v => ?_
  have rest : ∀ tlv, Keeps NP (do
      sendTlv E A c (c.rnd.sub 1) (← StM.gets fun w : World Instance => w.st.receiver) tlv) := fun _ =>
    .bind hR (.gets hR _) fun _ => np_sendTlv
  cases v with
  | v3 => exact .bind hR (np_onState np_onSmp) rest
  | v4 => exact .bind hR (np_onState np_onSmp4) rest
  | none => exact .bind hR (.lift hR _) rest
  | unsupported n => exact .bind hR (.lift hR _) rest

theorem np_abortSmp : Keeps NP (abortSmp E A c) := by
  have hR := np_pre
  refine .bind hR (.gets hR _) fun v => ?_
  have rest : ∀ tlv, Keeps NP (do
      sendTlv E A c (c.rnd.sub 1) (← StM.gets fun w : World Instance => w.st.receiver) tlv) := fun _ =>
    .bind hR (.gets hR _) fun _ => np_sendTlv
  cases v with
  | v3 => exact .bind hR (np_onState np_onSmp) rest
  | v4 => exact .bind hR (np_onState np_onSmp4) rest
  | none => exact .bind hR (.lift hR _) rest
  | unsupported n => exact .bind hR (.lift hR _) rest

theorem np_expire (rnd : Rand) (t : Nat) : Keeps NP (expire E A c rnd t) := by
  have hR := np_pre
  refine .bind hR (.gets hR _) fun v => .bind hR (np_onState np_pexpire) fun o => ?_
  cases o with
  | none => exact .pure hR _
  | some m => exact .bind hR (.gets hR _) fun _ => keeps_inject hR

end Instance

namespace Session
open Instance
variable {E : Env} {A : Account} {c : Call}

theorem np_adopt (h : Option AKEState × Option DAKEState) : Keeps NP (adopt h) := by
  have hR := np_pre
  have key : ∀ a d, Keeps NP (do
      StM.lift (Res.assert ((← StM.gets fun w : World Instance => w.st.receiver) != 0))
      StM.modify fun w : World Instance => { w with st := { w.st with ake := Option.getD a w.st.ake, dake := Option.getD d w.st.dake } }) := by
    intro a d
    exact .bind hR (.gets hR _) fun _ => .bind hR (.lift hR _) fun _ w => id
  obtain ⟨a, d⟩ := h
  cases a <;> cases d
  · exact .pure hR _
  all_goals exact key _ _

theorem np_assemble (f : Fragment) : Keeps NP (assemble f) := fun _ => id

theorem np_query : Keeps (Rel NP) (query A) := by
  have hR := rel_pre np_pre
  unfold query
  exact .ite (.lift hR _) (.bind hR (.lift hR _) fun _ => .emit hR _)

theorem np_sinitiate (v : Version) (k : UInt32) : Keeps (Rel NP) (initiate E A c v k) :=
  keeps_entry np_pre (Instance.np_initiate v) k

theorem np_reportPlain (content : Bytes) : Keeps (Rel NP) (reportPlain A content) := by
  have hR := rel_pre np_pre
  exact .bind hR (.query hR _) fun _ => .ite (.pure hR _) (.pure hR _)

theorem np_answerOffer (vs : List Version) : Keeps (Rel NP) (answerOffer E A c vs) := by
  have hR := rel_pre np_pre
  unfold answerOffer
  split
  · exact .bind hR (np_sinitiate _ _) fun _ => .pure hR _
  · exact .pure hR _

theorem np_receiveWhole (payload : Bytes) : Keeps (Rel NP) (receiveWhole E A c payload) := by
  have hR := rel_pre np_pre
  refine .bind hR (.lift hR _) fun x => ?_
  cases x with
  | error e => exact .ite (.bind hR np_query fun _ => .pure hR _) (.pure hR _)
  | plaintext t => exact np_reportPlain t
  | tagged vs t => exact .ite (.bind hR (np_answerOffer vs) fun _ => np_reportPlain t) (np_reportPlain t)
  | query vs => exact .bind hR (np_answerOffer vs) fun _ => .pure hR _
  | encoded m =>
    refine .ite (.pure hR _) (.bind hR (.lift hR _) fun _ => .ite (.pure hR _) (.bind hR (.query hR _) fun h => ?_))
    exact keeps_entry np_pre (.bind np_pre (np_adopt h) fun _ => np_handle m) _

theorem np_receive (payload : Bytes) : Keeps (Rel NP) (receive E A c payload) := by
  have hR := rel_pre np_pre
  refine .ite (.pure hR _) (.ite (.bind hR (.lift hR _) fun o => ?_) (np_receiveWhole payload))
  cases o with
  | none => exact .pure hR _
  | some f =>
    refine .bind hR (.lift hR _) fun _ => .bind hR (.lift hR _) fun _ => .bind hR (keeps_entry np_pre (np_assemble f) f.sender) fun r => ?_
    cases r with
    | ok t => exact .ite (.lift hR _) (np_receiveWhole t)
    | err e => cases e <;> exact .lift hR _
    | panic => exact .lift hR _

theorem np_ssend (k : UInt32) (content : Bytes) : Keeps (Rel NP) (send E A c k content) := by
  have hR := rel_pre np_pre
  refine .ite (.pure hR _) (.bind hR (.gets hR _) fun st => ?_)
  cases st with
  | none => exact .lift hR _
  | some st =>
    refine .ite (.bind hR np_query fun _ => .lift hR _) ?_
    refine .bind hR (.gets hR _) fun t => .bind hR (keeps_existing np_pre (Instance.np_send t content) k) fun x => ?_
    refine .bind hR (fun _ => ?_) fun _ => .pure hR _
    exact ⟨fun _ h => h, id, fun _ => np_pre.refl _⟩

theorem np_expireAll (t n : Nat) (ks : List UInt32) : Keeps (Rel NP) (expireAll E A c t n ks) := by
  induction ks generalizing n with
  | nil => exact .pure (rel_pre np_pre) _
  | cons k ks ih =>
    exact .bind (rel_pre np_pre) (keeps_existing np_pre (Instance.np_expire _ t) k) fun _ => ih _

/-- Only `close` makes an instance plaintext. -/
theorem np_run {op : Op} (s : Session) (h : ∀ k, op ≠ .close k) : Rel NP s (op.run E A c s).after := by
  have key : ∀ {α : Type} {f : SessM α} {g : α → Answer}, Keeps (Rel NP) f → Rel NP s (perform f g s).after := by
    intro α f g h
    rw [perform_after]
    exact h ⟨s, []⟩
  cases op with
  | receive p => exact key (np_receive p)
  | send k t => exact key (np_ssend k t)
  | initiate v k => exact key (np_sinitiate v k)
  | close k => exact absurd rfl (h k)
  | query => exact key np_query
  | startSmp k a b => exact key (keeps_existing np_pre (Instance.np_startSmp a b) k)
  | abortSmp k => exact key (keeps_existing np_pre Instance.np_abortSmp k)
  | expire t => exact key (.bind (rel_pre np_pre) (.gets (rel_pre np_pre) _) fun _ => np_expireAll _ _ _)

end Session
end Otrr
