import Verif.Spec.SessionForged
import Verif.Props.SessionLife
import Verif.Props.SessionIsolation
/-!
# Messages that are not authentic

C95.
-/

namespace Otrr
namespace Instance
open Spec Props
variable {E : Env} {A : Account} {c : Call}

/-- What happens to the session with the sender of a message: nothing, unless a session begins or the message is genuine. -/
def Stays (E : Env) (c : Call) (m : EncodedMessage) (i : Instance) (r : Res UserMessage) (i' : Instance) : Prop :=
  Alive E i.state → (∀ d, m.message = .data d → Decoded d) → r ≠ .panic →
    i'.state = i.state ∨ r = .ok (.sessionStarted i.receiver) ∨ Genuine E c m i.state

theorem Stays.same {m : EncodedMessage} {f : InstM UserMessage} (h : Keeps SameState f) (w : World Instance) :
    Stays E c m w.st (f w).1 (f w).2.st := fun _ _ _ => .inl (h w).1

theorem same_refused {v : Version} {k : UInt32} {fl : UInt8} {e : OTRError} : Keeps SameState (handleDecrypted E A c v k fl (.err e)) := by
  have hR := same_pre
  refine .bind hR (.gets hR _) fun own => ?_
  split
  · rename_i h; cases h
  · rename_i h; cases h
  · exact .bind hR (.lift hR _) fun _ => .bind hR (.emit hR _) fun _ => .ite (.pure hR _) (.lift hR _)
  · exact .lift hR _
  · exact .lift hR _

/-- An OTRv3 data message that is not genuine leaves the session as it is. -/
theorem forged3 {st : PState} {snd rcv : UInt32} {d : DataMessage} {fresh : Bytes} (ha : Alive E st) (hd : Decoded d)
    (hg : ¬ Genuine E c ⟨.v3, snd, rcv, .data d⟩ st) :
    (st.handle3 E d (authenticatorData 3 snd rcv d) fresh).1 = .panic ∨
      ∃ e, st.handle3 E d (authenticatorData 3 snd rcv d) fresh = (.err e, st) := by
  cases st with
  | encrypted3 x smp =>
    obtain ⟨x0, l, _, hf, hl, _⟩ := ha.1 x smp rfl
    rcases C40_forged E x0 x l hf hl d hd (authenticatorData 3 snd rcv d) fresh (fun ours theirs sec h1 h2 h3 h4 => by
      obtain ⟨_, hw, rfl⟩ := ours_select_ok.mp h1
      obtain ⟨_, _, hw', rfl⟩ := theirs_select_ok.mp h2
      exact hg (.otr3 rfl rfl hw'.symm hw h3 h4)) with h | ⟨h, _⟩
    · exact .inr ⟨_, by simp only [PState.handle3, h]; rfl⟩
    · exact .inl (by simp only [PState.handle3, h]; rfl)
  | _ => exact .inr ⟨_, rfl⟩

/-- An OTRv4 data message that is not genuine leaves the session as it is. -/
theorem forged4 {st : PState} {snd rcv : UInt32} {d : DataMessage4} (hv : d.validate E = .ok ())
    (hg : ¬ Genuine E c ⟨.v4, snd, rcv, .data4 d⟩ st) :
    (st.handle4 E d (authenticatorData4 4 snd rcv d) c.now).1 = .panic ∨
      ∃ e, st.handle4 E d (authenticatorData4 4 snd rcv d) c.now = (.err e, st) := by
  cases st with
  | encrypted4 x smp =>
    cases hx : Enc4.handle E d (authenticatorData4 4 snd rcv d) c.now x with
    | mk r x' =>
      by_cases hp : r = .panic
      · exact .inl (by simp only [PState.handle4, hx, hp]; rfl)
      · rcases handle4_cases hx hp with ⟨rfl, rfl, _⟩ | ⟨plain, d', h1, _, _⟩
        · exact .inr ⟨_, by simp only [PState.handle4, hx]; rfl⟩
        · obtain ⟨sp, keys, h2, h3, h4, h5, h6, _⟩ := decrypt4_ok h1
          obtain ⟨_, _, k3⟩ := Ratchet.keys_ok h4
          refine absurd (.otr4 (d1 := sp) rfl rfl ((C48_validate E d).mp hv).1 ?_ ?_) hg
          · rcases speculate4_ok h2 with ⟨s1, s2, _, s4, s5⟩ | ⟨s1, s2, s3⟩
            · exact .inr ⟨s1, s2, s4, s5⟩
            · exact .inl ⟨s1, s2, s3⟩
          · rw [← h5, k3]
  | _ => exact .inr ⟨_, rfl⟩

theorem Stays.started {m : EncodedMessage} {f : InstM α} {g : α → InstM UserMessage} {own : UInt32} (hf : Keeps SameState f)
    (w : World Instance) (ho : own = w.st.receiver) (hg : ∀ a w', (g a w').1 = .panic ∨ (g a w').1 = .ok (.sessionStarted own)) :
    Stays E c m w.st ((f >>= g) w).1 ((f >>= g) w).2.st := by
  intro _ _ hp
  have hs := hf w
  rw [StM.bind_run] at hp ⊢
  generalize f w = x at hp hs ⊢
  obtain ⟨r, w1⟩ := x
  cases r with
  | panic => exact absurd rfl hp
  | err e => exact .inl hs.1
  | ok a =>
    rcases hg a w1 with h | h
    · exact absurd h hp
    · exact .inr (.inl (h.trans (by rw [ho])))

theorem ends_secure {k own : UInt32} {mat : AKEMaterial} (w : World Instance) :
    ((do secure E A c k mat; return .sessionStarted own : InstM UserMessage) w).1 = .panic ∨
      ((do secure E A c k mat; return .sessionStarted own : InstM UserMessage) w).1 = .ok (.sessionStarted own) := by
  rw [StM.bind_run]
  cases hx : secure E A c k mat w with
  | mk r w1 =>
    cases r with
    | panic => exact .inl rfl
    | err e => rcases secure_inv hx with ⟨h1, -⟩ | ⟨h1, -⟩ <;> cases h1
    | ok u => exact .inr rfl

theorem ends_inject {k own : UInt32} {v : Version} {r : EncodedMessageType} {rnd : Rand} {g : Unit → InstM UserMessage}
    (hg : ∀ w, (g () w).1 = .panic ∨ (g () w).1 = .ok (.sessionStarted own)) (w : World Instance) :
    ((inject A c rnd v k r >>= g) w).1 = .panic ∨ ((inject A c rnd v k r >>= g) w).1 = .ok (.sessionStarted own) := by
  rw [StM.bind_run]
  have hne := (StM.NoErr.inject A c rnd v k r) w
  cases hx : inject A c rnd v k r w with
  | mk r w1 =>
    rw [hx] at hne
    cases r with
    | panic => exact .inl rfl
    | err e => exact absurd rfl (hne e)
    | ok u => exact hg w1

theorem process_stays (m : EncodedMessage) (w : World Instance) :
    Stays E c m w.st (process E A c m w).1 (process E A c m w).2.st := by
  by_cases hd : ∃ d, m.message = .data d ∧ m.version = .v3
  · obtain ⟨d, hd, hv⟩ := hd
    obtain ⟨v, snd, rcv, msg⟩ := m
    simp only at hd hv
    subst hd hv
    intro ha hdec hp
    by_cases hg : Genuine E c ⟨.v3, snd, rcv, .data d⟩ w.st.state
    · exact .inr (.inr hg)
    · left
      simp only [process, StM.bind_run, StM.gets, attempt, onState] at hp ⊢
      rcases forged3 (fresh := c.rnd.bytes [0] 192) ha (hdec d rfl) hg with h | ⟨e, h⟩
      · exfalso
        revert hp h
        cases PState.handle3 E d (authenticatorData 3 snd rcv d) (c.rnd.bytes [0] 192) w.st.state with
        | mk r y => rintro hp rfl; exact hp rfl
      · rw [h]
        exact (same_refused (E := E) (A := A) (c := c) _).1
  · by_cases hd4 : ∃ d, m.message = .data4 d ∧ m.version = .v4
    · obtain ⟨d, hd, hv⟩ := hd4
      obtain ⟨v, snd, rcv, msg⟩ := m
      simp only at hd hv
      subst hd hv
      intro ha hdec hp
      by_cases hg : Genuine E c ⟨.v4, snd, rcv, .data4 d⟩ w.st.state
      · exact .inr (.inr hg)
      · left
        simp only [process, StM.bind_run, StM.gets, StM.lift] at hp ⊢
        cases hval : d.validate E with
        | panic => rfl
        | err e => rfl
        | ok u =>
          rw [hval] at hp
          simp only [attempt, onState] at hp ⊢
          rcases forged4 hval hg with h | ⟨e, h⟩
          · exfalso
            revert hp h
            cases PState.handle4 E d (authenticatorData4 4 snd rcv d) c.now w.st.state with
            | mk r y => rintro hp rfl; exact hp rfl
          · rw [h]
            exact (same_refused (E := E) (A := A) (c := c) _).1
    · have hR := same_pre
      have ho : w.st.receiver = w.st.receiver := rfl
      unfold process
      rw [StM.bind_run]
      simp only [StM.gets]
      obtain ⟨v, snd, rcv, msg⟩ := m
      have hv : ∀ r : Res UserMessage, Stays E c ⟨v, snd, rcv, msg⟩ w.st (StM.lift r w).1 (StM.lift r w).2.st :=
        fun r => Stays.same (.lift hR r) w
      cases v with
      | v3 =>
        cases msg with
        | dhCommit msg => exact Stays.same (.bind hR (same_onAke _) fun _ => .bind hR (keeps_inject hR) fun _ => .pure hR _) w
        | dhKey msg => exact Stays.same (.bind hR (same_onAke _) fun _ => .bind hR (keeps_inject hR) fun _ => .pure hR _) w
        | revealSignature msg =>
          refine Stays.started (same_onAke _) w rfl fun p w' => ?_
          simp only [StM.bind_run]
          cases hx : secure E A c snd p.1 w' with
          | mk r w1 =>
            cases r with
            | panic => exact .inl rfl
            | err e => rcases secure_inv hx with ⟨h1, -⟩ | ⟨h1, -⟩ <;> cases h1
            | ok u => exact ends_inject (g := fun _ => pure _) (fun _ => .inr rfl) w1
        | signature msg => exact Stays.started (same_onAke _) w rfl fun p w' => ends_secure w'
        | data msg => exact absurd ⟨msg, rfl, rfl⟩ hd
        | _ => exact hv _
      | v4 =>
        cases msg with
        | identity msg => exact Stays.same (.bind hR (same_onDake _) fun _ => .bind hR (keeps_inject hR) fun _ => .pure hR _) w
        | authR msg =>
          exact Stays.started (same_onDake _) w rfl fun p w' => ends_inject (fun _ => .inr rfl) w'
        | authI msg => exact Stays.started (same_onDake _) w rfl fun p w' => .inr rfl
        | data4 msg => exact absurd ⟨msg, rfl, rfl⟩ hd4
        | _ => exact hv _
      | none => cases msg <;> exact hv _
      | unsupported v => cases msg <;> exact hv _

theorem handle_stays {f : InstM Unit} (hf : Keeps SameState f) (m : EncodedMessage) (w : World Instance) :
    let x := (do f; Instance.handle E A c m : InstM UserMessage) w
    Stays E c m w.st x.1 x.2.st := by
  intro x
  have hx : x = (do f; Instance.handle E A c m : InstM UserMessage) w := rfl
  have hs := hf w
  rw [StM.bind_run] at hx
  cases hr : f w with
  | mk r w1 =>
    rw [hr] at hx hs
    cases r with
    | err e => rw [hx]; exact fun _ _ _ => .inl hs.1
    | panic => rw [hx]; exact fun _ _ _ => .inl hs.1
    | ok u =>
      simp only [Instance.handle, StM.bind_run] at hx
      have hs2 := same_clearAssembler m.version w1
      cases hr2 : clearAssembler m.version w1 with
      | mk r2 w2 =>
        rw [hr2] at hx hs2
        have hq := same_pre.trans hs hs2
        cases r2 with
        | err e => rw [hx]; exact fun _ _ _ => .inl hq.1
        | panic => rw [hx]; exact fun _ _ _ => .inl hq.1
        | ok u2 =>
          simp only at hx
          rw [hx]
          have := process_stays (E := E) (A := A) (c := c) m w2
          unfold Stays at this ⊢
          have h1 : w2.st.state = w.st.state := hq.1
          have h2 : w2.st.receiver = w.st.receiver := hq.2
          rw [h1, h2] at this
          exact this

/-! ## Calls that depend on the session only -/

/-- For instances with the same protocol state and the same peer the result is the same, and so are what is sent and the new state. -/
def Alike (f : InstM α) : Prop := ∀ w w' : World Instance, SameState w.st w'.st → w'.sent = w.sent →
  (f w').1 = (f w).1 ∧ SameState (f w).2.st (f w').2.st ∧ (f w').2.sent = (f w).2.sent

theorem Alike.bind {f : InstM α} {g : α → InstM β} (hf : Alike f) (hg : ∀ a, Alike (g a)) : Alike (f >>= g) := by
  intro w w' h hs
  obtain ⟨h1, h2, h3⟩ := hf w w' h hs
  rw [StM.bind_run, StM.bind_run]
  revert h1 h2 h3
  cases f w with
  | mk r w1 =>
    cases f w' with
    | mk r' w1' =>
      rintro rfl h2 h3
      cases r' with
      | ok a => exact hg a w1 w1' h2 h3
      | err e => exact ⟨rfl, h2, h3⟩
      | panic => exact ⟨rfl, h2, h3⟩

theorem Alike.lift (r : Res α) : Alike (StM.lift r) := fun _ _ h hs => ⟨rfl, h, hs⟩
theorem Alike.pure (a : α) : Alike (Pure.pure a) := fun _ _ h hs => ⟨rfl, h, hs⟩
theorem Alike.receiver : Alike (StM.gets fun w => w.st.receiver) := fun _ _ h hs => ⟨congrArg Res.ok h.2, h, hs⟩
theorem Alike.state (f : PState → α) : Alike (StM.gets fun w => f w.st.state) :=
  fun _ _ h hs => ⟨congrArg (fun s => Res.ok (f s)) h.1, h, hs⟩
theorem Alike.query (f : PState → Res α) : Alike (StM.query fun w => f w.st.state) :=
  fun w w' h hs => ⟨by show f _ = f _; rw [h.1], h, hs⟩
theorem Alike.onState (f : StM PState α) : Alike (onState f) := by
  intro w w' h hs
  simp only [Instance.onState]
  rw [h.1]
  exact ⟨rfl, ⟨rfl, h.2⟩, hs⟩
theorem Alike.emit (ms : List Bytes) : Alike (emit ms) := fun _ _ h hs => ⟨rfl, h, by simp only [Instance.emit, hs]⟩
theorem Alike.attempt {f : InstM α} (hf : Alike f) : Alike (attempt f) := by
  intro w w' h hs
  obtain ⟨h1, h2, h3⟩ := hf w w' h hs
  simp only [Instance.attempt]
  revert h1 h2 h3
  cases f w with
  | mk r w1 =>
    cases f w' with
    | mk r' w1' =>
      rintro rfl h2 h3
      cases r' <;> exact ⟨rfl, h2, h3⟩
theorem Alike.inject {rnd : Rand} {v : Version} {k : UInt32} {m : EncodedMessageType} : Alike (inject A c rnd v k m) :=
  .bind .receiver fun _ => .bind (.lift _) fun _ => .bind (.lift _) fun _ => .bind (.lift _) fun _ => .emit _
theorem Alike.sendTlv {rnd : Rand} {k : UInt32} {t : TLV} : Alike (sendTlv E A c rnd k t) :=
  .bind (.lift _) fun _ => .bind (.onState _) fun _ => .bind (.state _) fun _ => .inject

theorem Alike.handleSmp {v : Version} {k : UInt32} {tlvs : List TLV} : Alike (handleSmp E A c v k tlvs) := by
  unfold Instance.handleSmp
  split
  · exact .lift _
  · split
    · exact .lift _
    · refine .bind (.onState _) fun o => ?_
      have hrest : Alike (do
          let own ← StM.gets fun w => w.st.receiver
          match ← StM.query fun w => smpStatus v w.st.state with
          | .inProgress => return .none
          | .completed => return .smpSucceeded own
          | .aborted => return .smpFailed own
          | .initial => StM.lift .panic : InstM UserMessage) := by
        refine .bind .receiver fun own => .bind (.query _) fun st => ?_
        cases st with
        | initial => exact .lift _
        | _ => exact .pure _
      cases o with
      | none => exact hrest
      | some reply => exact .bind .sendTlv fun _ => hrest

theorem Alike.handleDecrypted {v : Version} {k : UInt32} {fl : UInt8} {r : Res PMessage} : Alike (handleDecrypted E A c v k fl r) := by
  refine .bind .receiver fun own => ?_
  split
  · split
    · exact .handleSmp
    · exact .pure _
  · exact .pure _
  · refine .bind (.lift _) fun _ => .bind (.emit _) fun _ => ?_
    split
    · exact .pure _
    · exact .lift _
  · exact .lift _
  · exact .lift _

theorem Alike.clearAssembler {v : Version} : Alike (clearAssembler v) := by
  intro w w' h hs
  unfold Instance.clearAssembler
  split
  · exact ⟨rfl, h, hs⟩
  · exact ⟨rfl, h, hs⟩

theorem Alike.process {m : EncodedMessage} (hm : (∃ d, m.message = .data d) ∨ (∃ d, m.message = .data4 d)) : Alike (process E A c m) := by
  obtain ⟨v, snd, rcv, msg⟩ := m
  unfold Instance.process
  refine .bind .receiver fun own => ?_
  rcases hm with ⟨d, rfl⟩ | ⟨d, rfl⟩
  · cases v with
    | v3 => exact .bind (.attempt (.onState _)) fun _ => .handleDecrypted
    | _ => exact .lift _
  · cases v with
    | v4 => exact .bind (.lift _) fun _ => .bind (.attempt (.onState _)) fun _ => .handleDecrypted
    | _ => exact .lift _

theorem Alike.reset : Alike (reset E A c) := by
  refine .bind (.state _) fun p => .bind (.state _) fun v => .bind .receiver fun own => .bind (.onState _) fun a => .bind (.state _) fun n => ?_
  split
  · exact .bind (.lift _) fun _ => .pure _
  · cases a with
    | none => exact .pure _
    | some m => exact .bind .inject fun _ => .pure _

theorem Alike.startSmp {secret question : Bytes} : Alike (startSmp E A c secret question) := by
  refine .bind (.state _) fun v => ?_
  cases v with
  | v3 => exact .bind (.onState _) fun t => .bind .receiver fun _ => .sendTlv
  | v4 => exact .bind (.onState _) fun t => .bind .receiver fun _ => .sendTlv
  | _ => exact .bind (.lift _) fun t => .bind .receiver fun _ => .sendTlv

theorem Alike.abortSmp : Alike (abortSmp E A c) := by
  refine .bind (.state _) fun v => ?_
  cases v with
  | v3 => exact .bind (.onState _) fun t => .bind .receiver fun _ => .sendTlv
  | v4 => exact .bind (.onState _) fun t => .bind .receiver fun _ => .sendTlv
  | _ => exact .bind (.lift _) fun t => .bind .receiver fun _ => .sendTlv

/-- `send` in an encrypted session, without the flag for tags. -/
def sendSealed (E : Env) (A : Account) (c : Call) (content : Bytes) : InstM (List Bytes) := do
  let m ← onState (PState.prepare E 0 (dropByValue content 0) (c.rnd.sub 0) c.now)
  let v ← StM.gets fun w => w.st.state.version
  let own ← StM.gets fun w => w.st.receiver
  let content ← StM.lift (encodeMessage v A.tag own m)
  StM.lift (payloads A c v own (c.rnd.sub 1) content)

theorem Alike.sendSealed {content : Bytes} : Alike (sendSealed E A c content) :=
  .bind (.onState _) fun _ => .bind (.state _) fun _ => .bind .receiver fun _ => .bind (.lift _) fun _ => .lift _

theorem send_sealed {t : Bool} {content : Bytes} {w : World Instance} (h : w.st.state.status = .encrypted) :
    Instance.send E A c t content w = (sendSealed E A c content >>= fun out => pure (out, t)) w := by
  simp only [Instance.send, Instance.sendSealed, StM.bind_run, Instance.onState]
  have := prepare_encrypts (E := E) (c := c) (fl := 0) (content := dropByValue content 0) (rnd := c.rnd.sub 0) h
  rcases this with hp | ⟨m, s', hp, he⟩
  · revert hp
    cases w.st.state.prepare E 0 (dropByValue content 0) (c.rnd.sub 0) c.now with
    | mk r y => rintro rfl; rfl
  · rw [hp]
    simp only
    have hm : (∃ d, m = .data d) ∨ ∃ d, m = .data4 d := by
      rcases he with ⟨_, _, _, d, _, _, h, _⟩ | ⟨_, _, _, d, _, _, _, h, _⟩
      · exact .inl ⟨d, h⟩
      · exact .inr ⟨d, h⟩
    rcases hm with ⟨d, rfl⟩ | ⟨d, rfl⟩ <;> simp only [StM.bind_run, StM.gets, StM.lift]
    · cases encodeMessage s'.version A.tag w.st.receiver (.data d) with
      | ok b => rfl
      | _ => rfl
    · cases encodeMessage s'.version A.tag w.st.receiver (.data4 d) with
      | ok b => rfl
      | _ => rfl

end Instance

namespace Session
open Instance
variable {E : Env} {A : Account} {c : Call}

/-- Two runs with the same result, of which what is sent and the new state of the session with `k` are the same. -/
def AlikeRun (k : UInt32) (x y : Res α × World Session) : Prop :=
  y.1 = x.1 ∧ (y.2.st.inst k).state = (x.2.st.inst k).state ∧ y.2.sent = x.2.sent

theorem alike_entry {f : InstM α} (hf : Alike f) {s s' : Session} {k : UInt32} (h : SameState (s.inst k) (s'.inst k)) :
    AlikeRun k (entry k f ⟨s, []⟩) (entry k f ⟨s', []⟩) := by
  obtain ⟨h1, h2, h3⟩ := hf ⟨s.inst k, []⟩ ⟨s'.inst k, []⟩ h rfl
  refine ⟨h1, ?_, h3⟩
  rw [inst_entry, inst_entry, if_pos rfl, if_pos rfl]
  exact h2.1

theorem alike_existing {f : InstM α} (hf : Alike f) {s s' : Session} {k : UInt32} (h : SameState (s.inst k) (s'.inst k))
    (hl : (lookup s.instances k).isSome) (hl' : (lookup s'.instances k).isSome) :
    AlikeRun k (existing k f ⟨s, []⟩) (existing k f ⟨s', []⟩) := by
  obtain ⟨i, hi⟩ := Option.isSome_iff_exists.mp hl
  obtain ⟨i', hi'⟩ := Option.isSome_iff_exists.mp hl'
  have := alike_entry hf h
  unfold existing
  simp only [hi, hi']
  exact this

theorem inst_tagged {s : Session} {k : UInt32} {t : Bool} : ({ s with tagged := t } : Session).inst k = s.inst k := rfl

theorem alike_send {s s' : Session} {k : UInt32} {content : Bytes} (h : SameState (s.inst k) (s'.inst k))
    (hs : s.status k = some .encrypted) (hs' : s'.status k = some .encrypted) :
    AlikeRun k (Session.send E A c k content ⟨s, []⟩) (Session.send E A c k content ⟨s', []⟩) := by
  by_cases hd : disabled A = true
  · simp only [Session.send, if_pos hd]
    exact ⟨rfl, h.1, rfl⟩
  · have one : ∀ (s : Session), s.status k = some .encrypted →
        Session.send E A c k content ⟨s, []⟩ =
        ((sendSealed E A c content ⟨s.inst k, []⟩).1,
          ⟨{ s with instances := insertKey s.instances k (sendSealed E A c content ⟨s.inst k, []⟩).2.st },
            (sendSealed E A c content ⟨s.inst k, []⟩).2.sent⟩) := by
      intro s hs
      rw [Session.send, if_neg hd]
      simp only [StM.bind_run, StM.gets, hs]
      rw [if_neg (fun h => by cases h.2)]
      obtain ⟨i, hl, hst⟩ := Props.status_lookup hs
      have hin : s.inst k = i := by rw [inst, hl]; rfl
      simp only [sendOn, StM.bind_run, StM.gets, existing, hl, entry, Option.getD_some]
      rw [send_sealed (w := ⟨i, []⟩) hst, StM.bind_run, hin]
      cases sendSealed E A c content ⟨i, []⟩ with
      | mk r w1 => cases r <;> rfl
    rw [one s hs, one s' hs']
    obtain ⟨h1, h2, h3⟩ := Alike.sendSealed (E := E) (A := A) (c := c) (content := content) ⟨s.inst k, []⟩ ⟨s'.inst k, []⟩ h rfl
    refine ⟨h1, ?_, h3⟩
    show ((insertKey _ _ _ : List _) |> fun l => (⟨l, _⟩ : Session).inst k).state = ((insertKey _ _ _ : List _) |> fun l => (⟨l, _⟩ : Session).inst k).state
    simp only [inst, lookup_insertKey, if_true, Option.getD_some]
    exact h2.1

theorem alike_receive {s s' : Session} {k : UInt32} {payload : Bytes} {m : EncodedMessage} (h : SameState (s.inst k) (s'.inst k))
    (hf : matchFragment payload = false) (hp : parse E payload = .ok (.encoded m)) (hk : m.sender = k)
    (hm : (∃ d, m.message = .data d) ∨ (∃ d, m.message = .data4 d)) :
    AlikeRun k (receive E A c payload ⟨s, []⟩) (receive E A c payload ⟨s', []⟩) := by
  have hz : ∀ (r : Res UserMessage), AlikeRun k (StM.lift r (⟨s, []⟩ : World Session)) (StM.lift r (⟨s', []⟩ : World Session)) :=
    fun r => ⟨rfl, h.1, rfl⟩
  unfold receive
  split
  · exact hz (.ok _)
  · rw [hf, if_neg (by decide)]
    unfold receiveWhole
    rw [StM.bind_run, StM.bind_run]
    simp only [StM.lift, hp]
    split
    · exact hz (.ok _)
    · unfold receiveEncoded
      rw [StM.bind_run, StM.bind_run]
      simp only [StM.lift]
      cases verifyHeader A m with
      | panic => exact hz .panic
      | err e => exact hz (.err e)
      | ok u =>
        simp only
        split
        · exact hz (.ok _)
        · have ho : ∀ w, handOver m w = (.ok (.none, .none), w) := by
            intro w
            obtain ⟨v, snd, rcv, msg⟩ := m
            rcases hm with ⟨d, hm⟩ | ⟨d, hm⟩ <;> simp only at hm <;> subst hm <;> cases v <;> rfl
          rw [StM.bind_run, StM.bind_run, ho, ho]
          simp only
          rw [hk]
          exact alike_entry (.bind (.pure _) fun _ => .bind .clearAssembler fun _ => .process hm) h

end Session

namespace Props
open Spec Session

theorem _root_.Otrr.Spec.Genuine.addressed {E : Env} {A : Account} {c : Call} {m : EncodedMessage} {s : PState}
    (h : Genuine E c m s) (hv : verifyHeader A m = .ok ()) : m.receiver = A.tag := by
  refine header_addressed hv (fun d h' => ?_) fun d h' => ?_ <;> cases h with
  | otr3 _ h2 => rw [h'] at h2; cases h2
  | otr4 _ h2 => rw [h'] at h2; cases h2

/-- C95: a received text changes the session with a client, its keys and the state of its SMP included, only if it brings a data
message of that client with an authenticator of that session, or completes a key exchange with that client. -/
theorem C95_forged (E : Env) (A : Account) (h : List Ev) (s : Session) (hh : Hist E A h s) (c : Call) (payload : Bytes) (k : UInt32)
    (hp : ((Op.receive payload).run E A c s).result ≠ .panic)
    (hn : ((Op.receive payload).run E A c s).result ≠ .ok (.user (.sessionStarted k)))
    (hg : ¬ BringsGenuine E A c s payload k) :
    stateOf ((Op.receive payload).run E A c s).after k = stateOf s k := by
  have hi := hist_inv hh
  rw [Op.run] at hp hn ⊢
  rw [perform_after, stateOf_inst, stateOf_inst]
  rw [perform_result] at hp hn
  rcases toldBy_receive (T := Instance.Stays E c) (A := A) (c := c) (fun h m w => Instance.handle_stays (same_adopt h) m w) (fun m i i1 r i' hs ht => by
    unfold Instance.Stays at ht ⊢
    rw [hs.1, hs.2] at ht
    exact ht) (w := ⟨s, []⟩) hi payload with ⟨h1, _⟩ | ⟨m, hd, hv, _, _, h1, h2⟩
  · exact (h1.each k).1
  · by_cases hk : k = m.sender
    · subst hk
      have ⟨t, ht⟩ : ∃ text, parse E text = .ok (.encoded m) := by
        rcases hd with ⟨_, h⟩ | ⟨_, _, _, content, _, _, _, _, _, _, _, h⟩ <;> exact ⟨_, h⟩
      have ha := hist_alive hh m.sender
      rw [stateOf_inst] at ha
      rcases h2 ha (fun d hd => parse_decoded ht hd) (fun h => hp (by rw [h]; rfl)) with h3 | h3 | h3
      · exact h3
      · refine absurd ?_ hn
        rw [h3]
        have : (s.inst m.sender).receiver = m.sender := hi.receiver _
        simp only [this]
        rfl
      · exact absurd ⟨m, hd, rfl, h3.addressed hv, by rw [stateOf_inst]; exact h3⟩ hg
    · exact (h1 k hk).1

theorem hist_noise {E : Env} {A : Account} {k : UInt32} {h : List Ev} {s s' : Session} {l : List (Call × Bytes)} (hh : Hist E A h s)
    (hn : Noise E A k s l s') : ∃ h', Hist E A h' s' := by
  induction hn generalizing h with
  | none => exact ⟨_, hh⟩
  | next he _ hp _ _ ih => exact ih (Hist.step hh he hp)

/-- C95: however many texts are received that bring no genuine message of a client and complete no key exchange with it, the session
with that client is as it was. -/
theorem C95_undisturbed (E : Env) (A : Account) (k : UInt32) (h : List Ev) (s s' : Session) (l : List (Call × Bytes)) (hh : Hist E A h s)
    (hn : Noise E A k s l s') : stateOf s' k = stateOf s k := by
  induction hn generalizing h with
  | none => rfl
  | next he hg hp hs _ ih =>
    subst he
    exact (ih _ (Hist.step hh rfl hp)).trans (C95_forged E A h _ hh _ _ k hp hs hg)

theorem about_alike {E : Env} {A : Account} {k : UInt32} {s s' : Session} (hi : Inv E s) (hi' : Inv E s') (hst : stateOf s' k = stateOf s k)
    (hs : s.status k = some .encrypted) {op : Op} (ho : About E k op) (c : Call) :
    (op.run E A c s').result = (op.run E A c s).result ∧ (op.run E A c s').sent = (op.run E A c s).sent ∧
      stateOf (op.run E A c s').after k = stateOf (op.run E A c s).after k := by
  have hsame : Instance.SameState (s.inst k) (s'.inst k) := by
    rw [stateOf_inst, stateOf_inst] at hst
    exact ⟨hst, (hi'.receiver k).trans (hi.receiver k).symm⟩
  have hs' : s'.status k = some .encrypted := by
    have h1 := status_inst hs
    rw [Instance.status] at h1
    exact status_of_inst (by rw [hsame.1]; exact h1) (by decide)
  have hl : (lookup s.instances k).isSome := by
    cases hx : lookup s.instances k with
    | none => rw [status, hx] at hs; cases hs
    | some i => rfl
  have hl' : (lookup s'.instances k).isSome := by
    cases hx : lookup s'.instances k with
    | none => rw [status, hx] at hs'; cases hs'
    | some i => rfl
  have key : ∀ {α : Type} (f : SessM α) (g : α → Answer), AlikeRun k (f ⟨s, []⟩) (f ⟨s', []⟩) →
      (perform f g s').result = (perform f g s).result ∧ (perform f g s').sent = (perform f g s).sent ∧
        stateOf (perform f g s').after k = stateOf (perform f g s).after k := by
    intro α f g hr
    rw [perform_result, perform_result, perform_sent, perform_sent, perform_after, perform_after, stateOf_inst, stateOf_inst, hr.1]
    exact ⟨rfl, hr.2.2, hr.2.1⟩
  cases ho with
  | send => exact key _ _ (alike_send hsame hs hs')
  | close => exact key _ _ (alike_existing .reset hsame hl hl')
  | startSmp => exact key _ _ (alike_existing .startSmp hsame hl hl')
  | abortSmp => exact key _ _ (alike_existing .abortSmp hsame hl hl')
  | receive hf hp hk hm => exact key _ _ (alike_receive hsame hf hp hk hm)

/-- C95: the calls about an encrypted session with a client have the same results, and send the same, as they would without the
noise between them. -/
theorem C95_amid (E : Env) (A : Account) (k : UInt32) (h : List Ev) (s s' : Session) (l : List Ev) (hh : Hist E A h s)
    (hn : AmidNoise E A k s l s') : ∃ s'', Hist E A (h ++ l) s'' ∧ stateOf s'' k = stateOf s' k := by
  suffices ∀ (h1 : List Ev) (t : Session), Hist E A h1 t → stateOf t k = stateOf s k →
      ∃ s'', Hist E A (h1 ++ l) s'' ∧ stateOf s'' k = stateOf s' k from this h s hh rfl
  induction hn generalizing h with
  | done => exact fun h1 t ht he => ⟨t, by rwa [List.append_nil], he⟩
  | noise hn _ ih =>
    intro h1 t ht he
    obtain ⟨h', hh'⟩ := hist_noise hh hn
    exact ih _ hh' h1 t ht (he.trans (C95_undisturbed E A k h _ _ _ hh hn).symm)
  | @call s op c e l s' hs ho he hp _ ih =>
    intro h1 t ht hst
    subst he
    obtain ⟨a1, a2, a3⟩ := about_alike (A := A) (hist_inv hh) (hist_inv ht) hst hs ho c
    have h2 := Hist.step ht (op := op) (c := c) rfl (by rw [a1]; exact hp)
    obtain ⟨s'', h3, h4⟩ := ih _ (Hist.step hh rfl hp) _ _ h2 a3
    refine ⟨s'', ?_, h4⟩
    rw [a1, a2, List.append_assoc] at h3
    exact h3

/-- The message of Alice with another content, but with the authenticator of the message that she sent. -/
@[irreducible] def _root_.Otrr.Spec.ToySession.forgery : Option (EncodedMessage × DataMessage × Bytes) :=
  match parse ToySession.tinyEnv (ToySession.text ToySession.a6) with
  | .ok (.encoded ⟨.v3, snd, rcv, .data d⟩) =>
    let d := { d with encrypted := d.encrypted.map (· + 1) }
    match serialize (.encoded ⟨.v3, snd, rcv, .data d⟩) with
    | .ok text => some (⟨.v3, snd, rcv, .data d⟩, d, text)
    | _ => .none
  | _ => .none

/-- Bob gets the forged message, and then the message of Alice. -/
@[irreducible] def _root_.Otrr.Spec.ToySession.b6f (text : Bytes) : Effect :=
  (Op.receive text).run ToySession.tinyEnv ToySession.acB (ToySession.callB 1000 7) ToySession.b5.after
@[irreducible] def _root_.Otrr.Spec.ToySession.b7f (text : Bytes) : Effect :=
  (Op.receive (ToySession.text ToySession.a6)).run ToySession.tinyEnv ToySession.acB (ToySession.callB 1000 7) (ToySession.b6f text).after

theorem _root_.Otrr.Spec.ToySession.forgery_runs : (match ToySession.forgery, stateOf ToySession.b5.after 0x100 with
    | some (m, d, text), .encrypted3 x _ => decide (matchFragment text = false ∧ parse ToySession.tinyEnv text = .ok (.encoded m) ∧ m.version = .v3 ∧
      m.message = .data d ∧ (match dataSecrets ToySession.tinyEnv (x.keys.ours.keys.get d.receiverKeyid) (x.keys.theirs.keys.get d.senderKeyid) with
        | .ok sec => decide (d.authenticator ≠ ToySession.tinyEnv.hmacSha1 (sec.receiverMac ToySession.tinyEnv) (authenticatorData 3 m.sender m.receiver d))
        | _ => true) = true ∧
      (ToySession.b6f text).result = .err (.unreadableMessage 0x100) ∧ (ToySession.b6f text).after.status 0x100 = some .encrypted ∧
      (ToySession.b7f text).result = .ok (.user (.confidential 0x100 [104, 105] [])) ∧ (ToySession.b7f text).sent = [] ∧
      matchFragment (ToySession.text ToySession.a6) = false ∧
      (match parse ToySession.tinyEnv (ToySession.text ToySession.a6) with
        | .ok (.encoded ⟨_, snd, _, .data _⟩) => decide (snd = 0x100)
        | _ => false) = true)
    | _, _ => false) = true := by decide +kernel

/-- Non-vacuity: Bob gets a forged message, which is refused, and then the message of Alice, which is reported. -/
example : ∃ h payload c1 s1 c2 s2, Hist ToySession.tinyEnv ToySession.acB h ToySession.b5.after ∧
    Noise ToySession.tinyEnv ToySession.acB 0x100 ToySession.b5.after [(c1, payload)] s1 ∧
    (∃ m d, Delivers ToySession.tinyEnv ToySession.acB ToySession.b5.after payload m ∧ m.message = .data d) ∧
    AmidNoise ToySession.tinyEnv ToySession.acB 0x100 ToySession.b5.after
      [⟨.receive (ToySession.text ToySession.a6), c2, .ok (.user (.confidential 0x100 [104, 105] [])), []⟩] s2 := by
  obtain ⟨h, hh⟩ := ToySession.hist_b5
  have hr := ToySession.forgery_runs
  split at hr
  · rename_i m d text x smp he hs
    obtain ⟨h1, h2, h3, h4, h5, h6, h7, h8, h8', h9, h10⟩ := of_decide_eq_true hr
    have hno : Noise ToySession.tinyEnv ToySession.acB 0x100 ToySession.b5.after [(ToySession.callB 1000 7, text)] (ToySession.b6f text).after := by
      refine .next (e := ToySession.b6f text) (by unfold ToySession.b6f; rfl) ?_ (by rw [h6]; nofun) (by rw [h6]; nofun) .none
      rintro ⟨m', hd, hk, _, hg⟩
      have hm : m' = m := by
        rcases hd with ⟨_, hd⟩ | ⟨hd, _⟩
        · rw [h2] at hd; cases hd; rfl
        · rw [h1] at hd; cases hd
      subst hm
      rw [hs] at hg
      cases hg with
      | otr3 _ hm' _ _ hsec hmac =>
        rw [h4] at hm'
        cases hm'
        rw [hsec] at h5
        exact of_decide_eq_true h5 hmac
    refine ⟨h, text, _, _, ToySession.callB 1000 7, (ToySession.b7f text).after, hh, hno, ⟨m, d, .inl ⟨h1, h2⟩, h4⟩, .noise hno ?_⟩
    rw [← h8, ← h8']
    refine .call (e := ToySession.b7f text) h7 ?_ (by unfold ToySession.b7f; rfl) (by rw [h8]; nofun) .done
    split at h10
    · rename_i v snd rcv d' hp
      exact .receive h9 hp (of_decide_eq_true h10) (.inl ⟨d', rfl⟩)
    · cases h10
  · cases hr

end Props
end Otrr
