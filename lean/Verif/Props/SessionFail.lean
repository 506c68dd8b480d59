import Verif.Lemmas.SessionFail
import Verif.Spec.SessionFail
import Verif.Props.SessionIsolation
import Verif.Props.SessionInjects
import Verif.Props.SessionExchange3
import Verif.Props.SessionEnd
/-!
# Calls that fail, and how sessions end
-/

namespace Otrr
open Spec

namespace StM
variable {σ : Type}

/-- Nothing is sent. -/
def Mute (f : StM (World σ) α) : Prop := ∀ w, (f w).2.sent = w.sent

/-- If it fails, nothing but what `Q` allows was sent. -/
def OnErr (Q : OTRError → List Bytes → Prop) (f : StM (World σ) α) : Prop :=
  ∀ w e, (f w).1 = .err e → (f w).2.sent = w.sent ∨ ∃ out, Q e out ∧ (f w).2.sent = w.sent ++ out

namespace Mute

theorem pure (a : α) : Mute (Pure.pure a : StM (World σ) α) := fun _ => rfl
theorem lift (r : Res α) : Mute (StM.lift r : StM (World σ) α) := fun _ => rfl
theorem gets (f : World σ → α) : Mute (StM.gets f) := fun _ => rfl
theorem query (f : World σ → Res α) : Mute (StM.query f) := fun _ => rfl
theorem onState (f : StM PState α) : Mute (Instance.onState f) := fun _ => rfl
theorem onAke (f : StM AKEState α) : Mute (Instance.onAke f) := fun _ => rfl
theorem onDake (f : StM DAKEState α) : Mute (Instance.onDake f) := fun _ => rfl

theorem attempt {x : StM (World σ) α} (hx : Mute x) : Mute (Instance.attempt x) := by
  intro w
  have h := hx w
  unfold Instance.attempt
  revert h
  cases x w with
  | mk r v => cases r <;> exact id

end Mute

namespace OnErr
variable {Q : OTRError → List Bytes → Prop}

theorem of_mute {f : StM (World σ) α} (h : Mute f) : OnErr Q f := fun w _ _ => .inl (h w)

theorem of_noErr {f : StM (World σ) α} (h : f.NoErr) : OnErr Q f := fun w e he => absurd he (h w e)

theorem after {x : StM (World σ) α} {f : α → StM (World σ) β} (hx : Mute x) (hf : ∀ a, OnErr Q (f a)) : OnErr Q (x >>= f) := by
  intro w e
  have h := hx w
  rw [StM.bind_run]
  revert h
  cases x w with
  | mk r v =>
    intro h he
    cases r with
    | ok a => exact (h : v.sent = w.sent) ▸ hf a v e he
    | err e => exact .inl h
    | panic => cases he

theorem bind {x : StM (World σ) α} {f : α → StM (World σ) β} (hx : OnErr Q x) (hf : ∀ a, (f a).NoErr) : OnErr Q (x >>= f) := by
  intro w e
  have h := hx w
  rw [StM.bind_run]
  revert h
  cases x w with
  | mk r v =>
    intro h he
    cases r with
    | ok a => exact absurd he (hf a v e)
    | err e' => cases he; exact h _ rfl
    | panic => cases he

theorem ite {p : Prop} [Decidable p] {x y : StM (World σ) α} (hx : OnErr Q x) (hy : OnErr Q y) : OnErr Q (if p then x else y) := by
  split <;> assumption

end OnErr
end StM

namespace Instance
open StM
variable {E : Env} {A : Account} {c : Call}

/-- The error text comes with the report that a message was unreadable. -/
def Unread (e : OTRError) (out : List Bytes) : Prop := (∃ k, e = .unreadableMessage k) ∧ out = [UNREADABLE_ERROR]

variable {Q : OTRError → List Bytes → Prop}

theorem onErr_inject {rnd : Rand} {v : Version} {k : UInt32} {m : EncodedMessageType} : OnErr Q (inject A c rnd v k m) :=
  .of_noErr (.inject _ _ _ _ _ _)

theorem noErr_tail {rnd : Rand} {v : Version} {k : UInt32} {m : EncodedMessageType} {x : α} :
    StM.NoErr (do inject A c rnd v k m; return x) := .bind (.inject _ _ _ _ _ _) fun _ => .pure _

theorem onErr_sendTlv {rnd : Rand} {k : UInt32} {t : TLV} : OnErr Q (sendTlv E A c rnd k t) :=
  .after (.lift _) fun _ => .after (.onState _) fun _ => .after (.gets _) fun _ => onErr_inject

theorem noErr_smpEnd (v : Version) : (smpEnd v).NoErr := by
  refine .bind (.gets _) fun _ => .bind (.query fun w => ?_) fun s => ?_
  · unfold smpStatus
    split <;> nofun
  · cases s <;> first | exact .pure _ | exact .lift .panic

theorem onErr_handleSmp {v : Version} {k : UInt32} {tlvs : List TLV} : OnErr Q (handleSmp E A c v k tlvs) := by
  unfold handleSmp
  refine .ite (.of_mute (.lift _)) ?_
  split
  · exact .of_mute (.lift _)
  · refine .after (.onState _) fun r => ?_
    cases r with
    | none => exact .of_noErr (noErr_smpEnd v)
    | some t => exact .bind onErr_sendTlv fun _ => noErr_smpEnd v

theorem onErr_handleDecrypted {v : Version} {k : UInt32} {flags : UInt8} (r : Res PMessage) :
    OnErr Unread (handleDecrypted E A c v k flags r) := by
  refine .after (.gets _) fun own => ?_
  split
  · exact .ite onErr_handleSmp (.of_mute (.pure _))
  · exact .of_mute (.pure _)
  · intro w e he
    revert he
    have hs : serialize (.error UNREADABLE) = .ok UNREADABLE_ERROR := by rfl
    simp only [StM.bind_run, StM.lift, hs, emit]
    by_cases hf : flags &&& IGNORE_UNREADABLE = IGNORE_UNREADABLE
    · rw [if_pos hf]; intro he; cases he
    · rw [if_neg hf]
      intro he
      cases he
      exact .inr ⟨_, ⟨⟨_, rfl⟩, rfl⟩, rfl⟩
  · exact .of_mute (.lift _)
  · exact .of_mute (.lift _)

theorem onErr_process (m : EncodedMessage) : OnErr Unread (process E A c m) := by
  refine .after (.gets _) fun own => ?_
  obtain ⟨v, snd, rcv, b⟩ := m
  dsimp only
  cases v with
  | v3 =>
    cases b with
    | dhCommit d => exact .after (.onAke _) fun _ => .of_noErr noErr_tail
    | dhKey d => exact .after (.onAke _) fun _ => .of_noErr noErr_tail
    | revealSignature d => exact .after (.onAke _) fun _ => .after (.onState _) fun _ => .of_noErr noErr_tail
    | signature d => exact .after (.onAke _) fun _ => .after (.onState _) fun _ => .of_mute (.pure _)
    | data d => exact .after (.attempt (.onState _)) fun r => onErr_handleDecrypted r
    | _ => exact .of_mute (.lift _)
  | v4 =>
    cases b with
    | identity d => exact .after (.onDake _) fun _ => .of_noErr noErr_tail
    | authR d => exact .after (.onDake _) fun _ => .of_noErr (.bind (.inject _ _ _ _ _ _) fun _ => .bind (fun _ => .ok _) fun _ => .pure _)
    | authI d => exact .after (.onDake _) fun _ => .of_mute (fun _ => rfl)
    | data4 d => exact .after (.lift _) fun _ => .after (.attempt (.onState _)) fun r => onErr_handleDecrypted r
    | _ => exact .of_mute (.lift _)
  | none => cases b <;> exact .of_mute (.lift _)
  | unsupported n => cases b <;> exact .of_mute (.lift _)

theorem mute_clearAssembler (v : Version) : Mute (clearAssembler v) := by
  intro w
  unfold clearAssembler
  split <;> rfl

theorem onErr_handle (m : EncodedMessage) : OnErr Unread (handle E A c m) := .after (mute_clearAssembler _) fun _ => onErr_process m

theorem mute_adopt (h : Option AKEState × Option DAKEState) : Mute (Session.adopt h) := by
  intro w
  unfold Session.adopt
  split
  · rfl
  · simp only [StM.bind_run, StM.gets, StM.lift]
    cases Res.assert (w.st.receiver != 0) <;> rfl

theorem onErr_initiate (v : Version) : OnErr Q (initiate E A c v) := by
  have rest : ∀ m, OnErr Q (do
      inject A c (c.rnd.sub 1) v (← StM.gets fun w : World Instance => w.st.receiver) m
      return UserMessage.none) := fun m => .after (.gets _) fun _ => .of_noErr noErr_tail
  cases v with
  | v3 => exact .after (.onAke _) rest
  | v4 => exact .after (.onDake _) rest
  | none => exact .after (.lift _) rest
  | unsupported n => exact .after (.lift _) rest

theorem onErr_startSmp (secret question : Bytes) : OnErr Q (startSmp E A c secret question) := by
  refine .after (.gets _) fun v => ?_
  have rest : ∀ tlv, OnErr Q (do
      sendTlv E A c (c.rnd.sub 1) (← StM.gets fun w : World Instance => w.st.receiver) tlv) := fun _ => .after (.gets _) fun _ => onErr_sendTlv
  cases v with
  | v3 => exact .after (.onState _) rest
  | v4 => exact .after (.onState _) rest
  | none => exact .after (.lift _) rest
  | unsupported n => exact .after (.lift _) rest

theorem onErr_abortSmp : OnErr Q (abortSmp E A c) := by
  refine .after (.gets _) fun v => ?_
  have rest : ∀ tlv, OnErr Q (do
      sendTlv E A c (c.rnd.sub 1) (← StM.gets fun w : World Instance => w.st.receiver) tlv) := fun _ => .after (.gets _) fun _ => onErr_sendTlv
  cases v with
  | v3 => exact .after (.onState _) rest
  | v4 => exact .after (.onState _) rest
  | none => exact .after (.lift _) rest
  | unsupported n => exact .after (.lift _) rest

theorem mute_send (t : Bool) (content : Bytes) (w : World Instance) : (send E A c t content w).2.sent = w.sent := by
  have key : ∀ {α β : Type} {x : StM (World Instance) α} {f : α → StM (World Instance) β}, Mute x → (∀ a, Mute (f a)) → Mute (x >>= f) := by
    intro α β x f hx hf w
    have h := hx w
    rw [StM.bind_run]
    revert h
    cases x w with
    | mk r v => intro h; cases r with
      | ok a => exact (hf a v).trans h
      | err e => exact h
      | panic => exact h
  refine key (.onState _) (fun m => ?_) w
  cases m with
  | unencoded b =>
    refine key (.gets _) fun _ => key (.lift _) fun _ => ?_
    dsimp only
    split
    · exact key (.lift _) fun _ => .pure _
    · exact key (.lift _) fun _ => .pure _
  | _ => exact key (.gets _) fun _ => key (.gets _) fun _ => key (.lift _) fun _ => key (.lift _) fun _ => .pure _

end Instance

namespace Session
open StM Instance
variable {E : Env} {A : Account} {c : Call} {Q : OTRError → List Bytes → Prop}

theorem onErr_entry {f : InstM α} (h : OnErr Q f) (k : UInt32) : OnErr Q (entry k f) := fun w => h ⟨_, w.sent⟩

theorem onErr_existing {f : InstM α} (h : OnErr Q f) (k : UInt32) : OnErr Q (existing k f) := by
  intro w e he
  unfold existing at he ⊢
  cases hl : lookup w.st.instances k with
  | none => exact .inl rfl
  | some i =>
    rw [hl] at he
    exact onErr_entry h k w e he

theorem onErr_query : OnErr Q (query A) := by
  unfold query
  exact .ite (.of_mute (.lift _)) (.after (.lift _) fun _ => .of_noErr (.emit _))

theorem noErr_hasSessionsIn (l : List (UInt32 × Instance)) : (hasSessionsIn l).NoErr := by
  induction l with
  | nil => exact .ok _
  | cons p l ih => exact .bind (.assert _) fun _ => .bind (.assert _) fun _ => .ite (.ok _) ih

theorem noErr_reportPlain (content : Bytes) : (reportPlain A content).NoErr := by
  refine .bind (.query fun w => noErr_hasSessionsIn _) fun _ => ?_
  split <;> exact .pure _

theorem onErr_answerOffer (vs : List Version) : OnErr Q (answerOffer E A c vs) := by
  unfold answerOffer
  split
  · exact .bind (onErr_entry (onErr_initiate _) _) fun _ => .pure _
  · exact .of_mute (.pure _)

theorem onErr_receiveWhole (payload : Bytes) : OnErr Unread (receiveWhole E A c payload) := by
  refine .after (.lift _) fun x => ?_
  cases x with
  | error e => exact .ite (.bind onErr_query fun _ => .pure _) (.of_mute (.pure _))
  | plaintext t => exact .of_noErr (noErr_reportPlain t)
  | tagged vs t => exact .ite (.bind (onErr_answerOffer vs) fun _ => noErr_reportPlain t) (.of_noErr (noErr_reportPlain t))
  | query vs => exact .bind (onErr_answerOffer vs) fun _ => .pure _
  | encoded m =>
    refine .ite (.of_mute (.pure _)) (.after (.lift _) fun _ => .ite (.of_mute (.pure _)) (.after (.query _) fun h => ?_))
    exact onErr_entry (.after (mute_adopt h) fun _ => onErr_handle m) _

theorem onErr_receive (payload : Bytes) : OnErr Unread (receive E A c payload) := by
  refine .ite (.of_mute (.pure _)) (.ite (.after (.lift _) fun o => ?_) (onErr_receiveWhole payload))
  cases o with
  | none => exact .of_mute (.pure _)
  | some f =>
    refine .after (.lift _) fun _ => .after (.lift _) fun _ => .after (fun w => rfl) fun r => ?_
    cases r with
    | ok t => exact .ite (.of_mute (.lift _)) (onErr_receiveWhole t)
    | err e => cases e <;> exact .of_mute (.lift _)
    | panic => exact .of_mute (.lift _)

end Session

namespace Props
open Session
variable {E : Env} {A : Account} {c : Call}

/-- C22: only `close`, for that instance, makes an instance plaintext that was not. -/
theorem C22_plaintext {s : Session} {op : Op} {k : UInt32} {st : Status} (h1 : s.status k = some st) (h2 : st ≠ .plaintext)
    (h3 : (op.run E A c s).after.status k = some .plaintext) : op = .close k := by
  by_cases hc : ∃ j, op = .close j
  · obtain ⟨j, rfl⟩ := hc
    by_cases hj : j = k
    · rw [hj]
    · have := C85_isolation (E := E) (A := A) (c := c) (s := s) (op := .close j) (k := k) (fun h => by cases h; exact hj rfl)
      unfold Session.status at h1 h3
      rw [this, h1] at h3
      cases h3
      exact absurd rfl h2
  · have hn := (np_run (E := E) (A := A) (c := c) (op := op) s (fun j h => hc ⟨j, h⟩)).each k (state_plaintext (status_inst h3))
    have := status_inst h1
    unfold Instance.status at this
    rw [hn] at this
    exact absurd this.symm h2

/-- C22: an encrypted session ends only as announced: the user closes it, and the call says so; or `expire` finds it older
than the time limit; or the peer ends it, and `receive` says so. -/
theorem C22_ended {h : List Ev} {s : Session} (hh : Hist E A h s) {op : Op} {k : UInt32} (h1 : s.status k = some .encrypted)
    (h2 : (op.run E A c s).after.status k ≠ some .encrypted) (h3 : (op.run E A c s).result ≠ .panic) :
    (op = .close k ∧ (op.run E A c s).result = .ok (.user (.reset k)) ∧ (op.run E A c s).after.status k = some .plaintext) ∨
    (∃ t i, op = .expire t ∧ lookup s.instances k = some i ∧ Old t c.now i ∧ (op.run E A c s).after.status k = some .finished) ∨
    (∃ payload content, op = .receive payload ∧ (op.run E A c s).result = .ok (.user (.sessionFinished k content)) ∧
      (op.run E A c s).after.status k = some .finished) := by
  by_cases hc : op = .close k
  · subst hc
    rcases C22_end_encrypted E A h s hh c k h1 with hp | ⟨_, _, _, hr, _, hs, _⟩
    · exact absurd hp h3
    · exact .inl ⟨rfl, hr, hs⟩
  · right
    cases hs : (op.run E A c s).after.status k with
    | none =>
      have hk : (lookup s.instances k).isSome := by
        obtain ⟨i, hl, _⟩ := status_lookup h1
        rw [hl]; rfl
      have : (lookup (op.run E A c s).after.instances k).isSome := (fed_run op s).keys k hk
      unfold Session.status at hs
      rw [Option.map_eq_none_iff] at hs
      rw [hs] at this
      cases this
    | some st =>
      cases st with
      | encrypted => exact absurd hs h2
      | plaintext => exact absurd (C22_plaintext h1 nofun hs) hc
      | finished =>
        rcases C22_finished E A h s hh c op k hs (by rw [h1]; nofun) with ⟨t, rfl⟩ | ⟨payload, m, content, rfl, _, _, _, _, hr⟩
        · left
          rcases C23_expire E A h s hh c t with hp | ⟨_, _, _, hx⟩
          · exact absurd hp h3
          · have hx := hx k
            obtain ⟨i, hl, hi⟩ := status_lookup h1
            rw [hl] at hx
            refine ⟨t, i, rfl, hl, ?_, rfl⟩
            by_cases ho : Old t c.now i
            · exact ho
            · have := hx.2 ho
              unfold Session.status at hs
              rw [this, Option.map_some, hi] at hs
              cases hs
        · exact .inr ⟨payload, content, rfl, hr, rfl⟩

/-- C92: a call that fails leaves the status and the ssid of every instance as they were. -/
theorem C92_status {h : List Ev} {s : Session} (hh : Hist E A h s) {op : Op} {e : OTRError} (he : (op.run E A c s).result = .err e)
    (k : UInt32) : AsBefore s (op.run E A c s).after k := by
  have ssid1 : ∀ x, (op.run E A c s).after.ssid k = .ok x → s.ssid k = .ok x := by
    intro x hx
    by_contra hn
    obtain ⟨_, _, _, _, _, _, _, _, hr | hr⟩ := C21_started E A h s hh c op k x hx hn <;> rw [he] at hr <;> cases hr
  have enc : s.status k = some .encrypted → (op.run E A c s).after.status k = some .encrypted := by
    intro hs
    by_contra hn
    rcases C22_ended hh hs hn (by rw [he]; nofun) with ⟨_, hr, _⟩ | ⟨t, i, rfl, _⟩ | ⟨_, _, _, hr, _⟩
    · rw [he] at hr; cases hr
    · rcases C23_expire E A h s hh c t with hr | ⟨hr, _⟩ <;> rw [he] at hr <;> cases hr
    · rw [he] at hr; cases hr
  have fin : (op.run E A c s).after.status k = some .finished → s.status k = some .finished := by
    intro hf
    by_contra hn
    rcases C22_finished E A h s hh c op k hf hn with ⟨t, rfl⟩ | ⟨_, _, _, _, _, _, _, _, hr⟩
    · rcases C23_expire E A h s hh c t with hr | ⟨hr, _⟩ <;> rw [he] at hr <;> cases hr
    · rw [he] at hr; cases hr
  have enc' : (op.run E A c s).after.status k = some .encrypted → s.status k = some .encrypted := by
    intro hs
    obtain ⟨x, hx⟩ := (ssid_iff _ _).mpr hs
    exact (ssid_iff _ _).mp ⟨x, ssid1 x hx⟩
  have hkeys := (fed_run (E := E) (A := A) (c := c) op s).keys k
  refine ⟨fun st hs => ?_, fun hs => ?_, fun x => ⟨ssid1 x, fun hx => ?_⟩⟩
  · cases ha : (op.run E A c s).after.status k with
    | none =>
      obtain ⟨i, hl, _⟩ := status_lookup hs
      unfold Session.status at ha
      rw [Option.map_eq_none_iff] at ha
      rw [hl, ha] at hkeys
      cases hkeys rfl
    | some st' =>
      cases st' with
      | encrypted => rw [← hs, enc' ha]
      | finished => rw [← hs, fin ha]
      | plaintext =>
        by_cases hst : st = .plaintext
        · rw [hst]
        · have hop := C22_plaintext hs hst ha
          subst hop
          cases st with
          | plaintext => exact absurd rfl hst
          | encrypted => rw [enc hs] at ha; cases ha
          | finished =>
            obtain ⟨i, _, hr⟩ := (C22_end_other E A h s hh c k).2.1 hs
            rw [hr] at he
            cases he
  · cases ha : (op.run E A c s).after.status k with
    | none => exact .inl rfl
    | some st' =>
      cases st' with
      | encrypted => rw [enc' ha] at hs; cases hs
      | finished => rw [fin ha] at hs; cases hs
      | plaintext => exact .inr rfl
  · obtain ⟨y, hy⟩ := (ssid_iff _ _).mpr (enc ((ssid_iff _ _).mp ⟨x, hx⟩))
    have := ssid1 y hy
    rw [hx] at this
    cases this
    exact hy

/-- C92: a call that fails sends nothing, except the query of a refused `send` and the error text for an unreadable message. -/
theorem C92_sent {h : List Ev} {s : Session} (hh : Hist E A h s) {op : Op} {e : OTRError} (he : (op.run E A c s).result = .err e) :
    FailSends op e (op.run E A c s).sent := by
  have key : ∀ {α : Type} {f : SessM α} {g : α → Answer}, (perform f g s).result = .err e → (f ⟨s, []⟩).1 = .err e := by
    intro α f g h
    rw [perform_result] at h
    cases hr : (f ⟨s, []⟩).1 with
    | ok a => rw [hr] at h; cases h
    | err e' => rw [hr] at h; cases h; rfl
    | panic => rw [hr] at h; cases h
  have simple : ∀ {α : Type} {f : SessM α} {g : α → Answer}, StM.OnErr (fun _ _ => False) f → (perform f g s).result = .err e →
      FailSends op e (perform f g s).sent := by
    intro α f g hf h
    rcases hf _ e (key h) with h | ⟨_, h, _⟩
    · rw [perform_sent, h]; exact .inl rfl
    · exact h.elim
  cases op with
  | receive p =>
    rcases onErr_receive (E := E) (A := A) (c := c) p ⟨s, []⟩ e (key he) with h | ⟨out, ⟨⟨k, rfl⟩, rfl⟩, h⟩
    · exact .inl (by rw [Op.run, perform_sent, h])
    · exact .inr (.inr ⟨p, k, rfl, rfl, by rw [Op.run, perform_sent, h]; rfl⟩)
  | initiate v k => exact simple (onErr_entry (Instance.onErr_initiate v) k) he
  | query => exact simple onErr_query he
  | startSmp k a b => exact simple (onErr_existing (Instance.onErr_startSmp a b) k) he
  | abortSmp k => exact simple (onErr_existing Instance.onErr_abortSmp k) he
  | expire t => rcases C23_expire E A h s hh c t with hr | ⟨hr, _⟩ <;> rw [he] at hr <;> cases hr
  | close k =>
    cases hs : s.status k with
    | none => rw [(C22_end_other E A h s hh c k).2.2 hs]; exact .inl rfl
    | some st =>
      cases st with
      | encrypted =>
        rcases C22_end_encrypted E A h s hh c k hs with hr | ⟨_, _, _, hr, _⟩ <;> rw [he] at hr <;> cases hr
      | plaintext => rw [(C22_end_other E A h s hh c k).1 hs] at he; cases he
      | finished => obtain ⟨_, _, hr⟩ := (C22_end_other E A h s hh c k).2.1 hs; rw [hr] at he; cases he
  | send k t =>
    revert he
    simp only [Op.run, perform, Session.send]
    by_cases hd : disabled A = true
    · rw [if_pos hd]; intro he; cases he
    · rw [if_neg hd]
      simp only [StM.bind_run, StM.gets]
      cases hs : s.status k with
      | none => exact fun _ => .inl rfl
      | some st =>
        dsimp only
        by_cases hq : A.policy.has REQUIRE_ENCRYPTION = true ∧ st = .plaintext
        · rw [if_pos hq]
          obtain ⟨q, hq1, hq2⟩ := query_run (A := A) (Classical.byContradiction fun hn => hd ((disabled_iff A).mpr hn)) ⟨s, []⟩
          simp only [StM.bind_run, hq2, StM.lift]
          intro he
          cases he
          exact .inr (.inl ⟨k, t, q, rfl, rfl, hq1, rfl⟩)
        · rw [if_neg hq]
          intro _
          refine .inl ?_
          simp only [sendOn, StM.bind_run, StM.gets]
          have hm : (existing k (Instance.send E A c s.tagged t) ⟨s, []⟩).2.sent = [] := by
            unfold existing
            cases lookup s.instances k with
            | none => rfl
            | some i => exact Instance.mute_send _ _ _
          revert hm
          cases existing k (Instance.send E A c s.tagged t) ⟨s, []⟩ with
          | mk r w => intro hm; cases r <;> exact hm

namespace ToyFail
open ToySession

theorem runs : z7.result ≠ .panic ∧ o9.result ≠ .panic ∧ o10.result ≠ .panic := by decide +kernel

theorem hist_o10 : ∃ h, Hist tinyEnv acB h o10.after := by
  obtain ⟨h, hb⟩ := hist_b5
  obtain ⟨r1, r2, r3⟩ := runs
  have e7 : z7 = (Op.receive (text y6)).run tinyEnv acB (callB 1000 7) b5.after := by unfold z7; rfl
  have e9 : o9 = (Op.receive (text n8)).run tinyEnv acB (callB 1000 9) z7.after := by unfold o9; rfl
  have e10 : o10 = (Op.send acA.tag [111, 107]).run tinyEnv acB (callB 1000 10) o9.after := by unfold o10; rfl
  obtain ⟨_, h1⟩ := hist_next hb e7 r1
  obtain ⟨_, h2⟩ := hist_next h1 e9 r2
  exact hist_next h2 e10 r3

end ToyFail

/-- A message that cannot be read in an encrypted session: the hypotheses of C92 are met. -/
example : ∃ h, Hist ToySession.tinyEnv ToySession.acB h ToySession.o10.after ∧
    ((Op.receive (ToySession.text ToySession.n12)).run ToySession.tinyEnv ToySession.acB (ToySession.callB 1000 13) ToySession.o10.after).result =
      .err (.unreadableMessage ToySession.acA.tag) := by
  obtain ⟨h, hh⟩ := ToyFail.hist_o10
  refine ⟨h, hh, ?_⟩
  have e13 : (Op.receive (ToySession.text ToySession.n12)).run ToySession.tinyEnv ToySession.acB (ToySession.callB 1000 13)
      ToySession.o10.after = ToySession.o13 := by unfold ToySession.o13; rfl
  rw [e13]
  exact ToySession.runTalk3.2.2.2.2.2.2.2.2

/-- Bob is told that Alice ended their session: the hypotheses of `C22_ended` are met. -/
example : ∃ h, Hist ToySession.tinyEnv ToySession.acB h ToySession.b5.after ∧ ToySession.b5.after.status 0x100 = some .encrypted ∧
    ((Op.receive (ToySession.msg ToySession.a8)).run ToySession.tinyEnv ToySession.acB (ToySession.callB 1000 9) ToySession.b5.after).after.status 0x100
      = some .finished := by
  obtain ⟨h, hh⟩ := ToySession.hist_b5
  refine ⟨h, hh, ToySession.status_b5, C22_reported _ _ _ _ hh _ _ _ [] ?_⟩
  have := ToySession.runC.2.2.1
  unfold ToySession.b9 at this
  exact this

end Props
end Otrr
