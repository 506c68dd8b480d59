import Verif.Spec.SessionFragments
import Verif.Props.Fragment
import Verif.Lemmas.SessionHist
/-!
Fragments do not change what happens to a message.
-/

namespace Otrr
open Spec

/-- A method that neither uses nor changes the assembler. -/
def Frames (f : InstM α) : Prop := ∀ i a sent, f ⟨{ i with assembler := a }, sent⟩ =
  ((f ⟨i, sent⟩).1, ⟨{ (f ⟨i, sent⟩).2.st with assembler := a }, (f ⟨i, sent⟩).2.sent⟩)

namespace Frames

theorem bind {x : InstM α} {f : α → InstM β} (hx : Frames x) (hf : ∀ a, Frames (f a)) : Frames (x >>= f) := by
  intro i a sent
  rw [StM.bind_run, StM.bind_run, hx]
  cases h : x ⟨i, sent⟩ with
  | mk r w =>
    cases r with
    | ok v => exact hf v w.st a w.sent
    | err e => rfl
    | panic => rfl

theorem pure (v : α) : Frames (Pure.pure v : InstM α) := fun _ _ _ => rfl
theorem lift (r : Res α) : Frames (StM.lift r : InstM α) := fun _ _ _ => rfl
theorem emit (ms : List Bytes) : Frames (Instance.emit ms : InstM Unit) := fun _ _ _ => rfl
theorem state (f : StM PState α) : Frames (Instance.onState f) := fun _ _ _ => rfl
theorem ake (f : StM AKEState α) : Frames (Instance.onAke f) := fun _ _ _ => rfl
theorem dake (f : StM DAKEState α) : Frames (Instance.onDake f) := fun _ _ _ => rfl
theorem receiver : Frames (StM.gets fun w => w.st.receiver) := fun _ _ _ => rfl
theorem version : Frames (StM.gets fun w => w.st.state.version) := fun _ _ _ => rfl
theorem status : Frames (StM.gets fun w => w.st.status) := fun _ _ _ => rfl
theorem smpStatus (v : Version) : Frames (StM.query fun w => Instance.smpStatus v w.st.state) := fun _ _ _ => rfl

theorem ite {p : Prop} [Decidable p] {x y : InstM α} (hx : Frames x) (hy : Frames y) :
    Frames (if p then x else y) := by split <;> assumption

theorem attempt {x : InstM α} (hx : Frames x) : Frames (Instance.attempt x) := by
  intro i a sent
  unfold Instance.attempt
  rw [hx]
  cases h : x ⟨i, sent⟩ with
  | mk r w => cases r <;> rfl

/-- The assembler is as before. -/
theorem same {x : InstM α} (h : Frames x) (w : World Instance) : (x w).2.st.assembler = w.st.assembler :=
  congrArg (fun p => p.2.st.assembler) (h w.st w.st.assembler w.sent)

end Frames

namespace Instance
variable {E : Env} {A : Account} {c : Call}

theorem frames_inject {rnd : Rand} {v : Version} {k : UInt32} {m : EncodedMessageType} : Frames (inject A c rnd v k m) :=
  .bind .receiver fun _ => .bind (.lift _) fun _ => .bind (.lift _) fun _ => .bind (.lift _) fun _ => .emit _

theorem frames_expire (rnd : Rand) (t : Nat) : Frames (expire E A c rnd t) := by
  refine .bind .version fun v => .bind (.state _) fun m => ?_
  cases m with
  | some m => exact .bind .receiver fun _ => frames_inject
  | none => exact .pure _

theorem frames_initiate (v : Version) : Frames (initiate E A c v) := by
  unfold initiate
  have k : ∀ m : EncodedMessageType, Frames (do
      inject A c (c.rnd.sub 1) v (← StM.gets fun w => w.st.receiver) m
      return UserMessage.none) := fun m => .bind .receiver fun _ => .bind frames_inject fun _ => .pure _
  cases v with
  | v3 => exact .bind (.ake _) k
  | v4 => exact .bind (.dake _) k
  | none => exact .bind (.lift _) k
  | unsupported v => exact .bind (.lift _) k

theorem frames_sendTlv {rnd : Rand} {k : UInt32} {t : TLV} : Frames (sendTlv E A c rnd k t) :=
  .bind (.lift _) fun _ => .bind (.state _) fun _ => .bind .version fun _ => frames_inject

theorem frames_handleSmp {v : Version} {k : UInt32} {ts : List TLV} : Frames (handleSmp E A c v k ts) := by
  unfold handleSmp
  refine .ite (.lift _) ?_
  split
  · exact .lift _
  · refine .bind (.state _) fun r => ?_
    have k : ∀ x : PUnit, Frames (do
      let own ← StM.gets fun w => w.st.receiver
      match ← StM.query fun w => smpStatus v w.st.state with
      | .inProgress => return UserMessage.none
      | .completed => return .smpSucceeded own
      | .aborted => return .smpFailed own
      | .initial => StM.lift .panic) := by
      intro _
      refine .bind .receiver fun _ => .bind (.smpStatus _) fun st => ?_
      cases st
      · exact .lift _
      all_goals exact .pure _
    cases r with
    | some r => exact .bind frames_sendTlv k
    | none => exact k ⟨⟩

theorem frames_handleDecrypted {v : Version} {k : UInt32} {fl : UInt8} {r : Res PMessage} :
    Frames (handleDecrypted E A c v k fl r) := by
  refine .bind .receiver fun own => ?_
  split
  · exact .ite frames_handleSmp (.pure _)
  · exact .pure _
  · exact .bind (.lift _) fun _ => .bind (.emit _) fun _ => .ite (.pure _) (.lift _)
  · exact .lift _
  · exact .lift _

theorem frames_send (t : Bool) (content : Bytes) : Frames (send E A c t content) := by
  refine .bind (.state _) fun m => ?_
  split
  · refine .bind .status fun _ => .bind (.lift _) fun _ => .ite ?_ ?_
    · exact .bind (.lift _) fun _ => .pure _
    · exact .bind (.lift _) fun _ => .pure _
  · exact .bind .version fun _ => .bind .receiver fun _ => .bind (.lift _) fun _ => .bind (.lift _) fun _ => .pure _

theorem frames_reset : Frames (reset E A c) := by
  refine .bind .status fun _ => .bind .version fun _ => .bind .receiver fun _ => .bind (.state _) fun m =>
    .bind .status fun _ => .ite ?_ ?_
  · exact .bind (.lift _) fun _ => .pure _
  · cases m with
    | some m => exact .bind frames_inject fun _ => .pure _
    | none => exact .pure _

theorem frames_startSmp (secret q : Bytes) : Frames (startSmp E A c secret q) := by
  have k : ∀ t : TLV, Frames (do sendTlv E A c (c.rnd.sub 1) (← StM.gets fun w => w.st.receiver) t) := fun t =>
    .bind .receiver fun _ => frames_sendTlv
  refine .bind .version fun v => ?_
  cases v with
  | v3 => exact .bind (.state _) k
  | v4 => exact .bind (.state _) k
  | none => exact .bind (.lift _) k
  | unsupported v => exact .bind (.lift _) k

theorem frames_abortSmp : Frames (abortSmp E A c) := by
  have k : ∀ t : TLV, Frames (do sendTlv E A c (c.rnd.sub 1) (← StM.gets fun w => w.st.receiver) t) := fun t =>
    .bind .receiver fun _ => frames_sendTlv
  refine .bind .version fun v => ?_
  cases v with
  | v3 => exact .bind (.state _) k
  | v4 => exact .bind (.state _) k
  | none => exact .bind (.lift _) k
  | unsupported v => exact .bind (.lift _) k

theorem frames_process (m : EncodedMessage) : Frames (process E A c m) := by
  refine .bind .receiver fun own => ?_
  obtain ⟨v, snd, rcv, msg⟩ := m
  cases v with
  | v3 =>
    cases msg with
    | dhCommit msg => exact .bind (.ake _) fun _ => .bind frames_inject fun _ => .pure _
    | dhKey msg => exact .bind (.ake _) fun _ => .bind frames_inject fun _ => .pure _
    | revealSignature msg =>
      exact .bind (.ake _) fun _ => .bind (.state _) fun _ => .bind frames_inject fun _ => .pure _
    | signature msg => exact .bind (.ake _) fun _ => .bind (.state _) fun _ => .pure _
    | data msg => exact .bind (.attempt (.state _)) fun _ => frames_handleDecrypted
    | _ => exact .lift _
  | v4 =>
    cases msg with
    | identity msg => exact .bind (.dake _) fun _ => .bind frames_inject fun _ => .pure _
    | authR msg => exact .bind (.dake _) fun _ => .bind frames_inject fun _ => .bind (.state _) fun _ => .pure _
    | authI msg => exact .bind (.dake _) fun _ => .bind (.state _) fun _ => .pure _
    | data4 msg => exact .bind (.lift _) fun _ => .bind (.attempt (.state _)) fun _ => frames_handleDecrypted
    | _ => exact .lift _
  | none => cases msg <;> exact .lift _
  | unsupported v => cases msg <;> exact .lift _

theorem frames_adopt (h : Option AKEState × Option DAKEState) : Frames (Session.adopt h) := by
  unfold Session.adopt
  split
  · exact .pure _
  · exact .bind .receiver fun _ => .bind (.lift _) fun _ => fun _ _ _ => rfl

/-- `f` gives the same whatever the assembler holds, and the same instance but for the assembler. -/
def Blind (f : InstM α) : Prop := ∀ i a sent, ∃ b, f ⟨{ i with assembler := a }, sent⟩ =
  ((f ⟨i, sent⟩).1, ⟨{ (f ⟨i, sent⟩).2.st with assembler := b }, (f ⟨i, sent⟩).2.sent⟩)

theorem Blind.bind {x : InstM α} {f : α → InstM β} (hx : Blind x) (hf : ∀ a, Blind (f a)) : Blind (x >>= f) := by
  intro i a sent
  obtain ⟨b, hb⟩ := hx i a sent
  rw [StM.bind_run, StM.bind_run, hb]
  cases h : x ⟨i, sent⟩ with
  | mk r w =>
    cases r with
    | ok v => exact hf v w.st b w.sent
    | err e => exact ⟨b, rfl⟩
    | panic => exact ⟨b, rfl⟩

theorem blind_clear (v : Version) : Blind (clearAssembler v) := by
  intro i a sent
  unfold clearAssembler
  split
  · exact ⟨_, rfl⟩
  · exact ⟨_, rfl⟩

theorem blind_of {f : InstM α} (h : Frames f) : Blind f := fun i a sent => ⟨a, h i a sent⟩

theorem blind_handle (m : EncodedMessage) : Blind (handle E A c m) :=
  (blind_clear _).bind fun _ => blind_of (frames_process m)

end Instance

namespace Session
variable {E : Env} {A : Account} {c : Call}

/-- The session `s` after it took up fragments from instance `k`. -/
structure Took (k : UInt32) (a : Assembler) (s s' : Session) : Prop where
  tagged : s'.tagged = s.tagged
  other : ∀ j, j ≠ k → lookup s'.instances j = lookup s.instances j
  own : lookup s'.instances k = some { s.inst k with assembler := a }

theorem same_of {s s' : Session} (ht : s'.tagged = s.tagged)
    (h : ∀ k, ∃ a, s'.inst k = { s.inst k with assembler := a }) : SameConversations s s' := by
  have e1 : ∀ s k, stateOf s k = (s.inst k).state := fun s k => by
    unfold stateOf inst; cases lookup s.instances k <;> rfl
  have e2 : ∀ s k, akeOf s k = (s.inst k).ake := fun s k => by
    unfold akeOf inst; cases lookup s.instances k <;> rfl
  have e3 : ∀ s k, dakeOf s k = (s.inst k).dake := fun s k => by
    unfold dakeOf inst; cases lookup s.instances k <;> rfl
  refine ⟨ht, fun k => ?_, fun k => ?_, fun k => ?_⟩ <;> obtain ⟨a, ha⟩ := h k
  · rw [e1, e1, ha]
  · rw [e2, e2, ha]
  · rw [e3, e3, ha]

theorem Took.inst {k : UInt32} {a : Assembler} {s s' : Session} (h : Took k a s s') (j : UInt32) :
    ∃ a, s'.inst j = { s.inst j with assembler := a } := by
  by_cases hj : j = k
  · subst hj; exact ⟨a, inst_of_lookup h.own⟩
  · exact ⟨(s.inst j).assembler, by unfold Session.inst; rw [h.other j hj]⟩

/-- An encoded message has the same effect. -/
theorem took_encoded {k : UInt32} {a : Assembler} {s s' : Session} (ht : Took k a s s') {m : EncodedMessage} (hk : m.sender = k)
    (h0 : k ≠ 0) (sent : List Bytes) :
    (receiveEncoded E A c m ⟨s', sent⟩).1 = (receiveEncoded E A c m ⟨s, sent⟩).1 ∧
    (receiveEncoded E A c m ⟨s', sent⟩).2.sent = (receiveEncoded E A c m ⟨s, sent⟩).2.sent ∧
    SameConversations (receiveEncoded E A c m ⟨s, sent⟩).2.st (receiveEncoded E A c m ⟨s', sent⟩).2.st := by
  have hsame : SameConversations s s' := same_of ht.tagged ht.inst
  unfold receiveEncoded
  simp only [StM.bind_run, StM.lift]
  cases verifyHeader A m with
  | err e => exact ⟨rfl, rfl, hsame⟩
  | panic => exact ⟨rfl, rfl, hsame⟩
  | ok u =>
    dsimp only
    by_cases hal : allowed A m.version = true
    · rw [if_neg (by simp [hal]), StM.bind_run, StM.bind_run]
      have hh : ∀ s : Session, handOver m ⟨s, sent⟩ = ((handOver m ⟨s, sent⟩).1, ⟨s, sent⟩) := fun _ => rfl
      have he : (handOver m ⟨s', sent⟩).1 = (handOver m ⟨s, sent⟩).1 := by
        unfold handOver StM.query
        dsimp only
        rw [ht.other INSTANCE_ZERO (fun hc => h0 hc.symm)]
      rw [hh s, hh s', he]
      cases (handOver m ⟨s, sent⟩).1 with
      | err e => exact ⟨rfl, rfl, hsame⟩
      | panic => exact ⟨rfl, rfl, hsame⟩
      | ok h =>
        dsimp only
        have hb : Instance.Blind (do adopt h; Instance.handle E A c m) :=
          (Instance.blind_of (Instance.frames_adopt h)).bind fun _ => Instance.blind_handle m
        generalize (do adopt h; Instance.handle E A c m : InstM UserMessage) = f at hb
        obtain ⟨b, hb⟩ := hb (s.inst k) a sent
        have hi : s'.inst k = { s.inst k with assembler := a } := inst_of_lookup ht.own
        rw [hk]
        refine ⟨?_, ?_, ?_⟩
        · rw [entry_fst, entry_fst, hi, hb]
        · show (f ⟨s'.inst k, sent⟩).2.sent = (f ⟨s.inst k, sent⟩).2.sent
          rw [hi, hb]
        · refine same_of ht.tagged fun j => ?_
          rw [inst_entry, inst_entry]
          by_cases hj : k = j
          · rw [if_pos hj, if_pos hj]
            refine ⟨b, ?_⟩
            dsimp only
            rw [hi, hb]
          · rw [if_neg hj, if_neg hj]
            exact ht.inst j
    · rw [if_pos (by simpa using hal)]
      exact ⟨rfl, rfl, hsame⟩

/-- The texts that are fragments for this client, from instance `k`. -/
structure Carries (E : Env) (A : Account) (k : UInt32) (text : Bytes) (f : Fragment) : Prop where
  frag : matchFragment text = true
  parsed : parseFragment E.nd text = .ok (some f)
  sound : verifyFragment f = true
  toUs : f.receiver = 0 ∨ f.receiver = A.tag
  sender : f.sender = k

theorem took_refl {k : UInt32} {s : Session} : ∀ {f : Fragment} {r : AsmRes} {a : Assembler}, (s.inst k).assembler.assemble f = (r, a) →
    Took k a s { s with instances := insertKey s.instances k { s.inst k with assembler := a } } := by
  intro f r a _
  refine ⟨rfl, fun j hj => ?_, ?_⟩
  · rw [lookup_insertKey, if_neg (Ne.symm hj)]
  · rw [lookup_insertKey, if_pos rfl]

theorem Took.trans {k : UInt32} {a b : Assembler} {s s1 s2 : Session} (h : Took k a s s1) (h' : Took k b s1 s2) : Took k b s s2 := by
  refine ⟨h'.tagged.trans h.tagged, fun j hj => (h'.other j hj).trans (h.other j hj), ?_⟩
  rw [h'.own, inst_of_lookup h.own]

/-- A fragment is taken up. -/
theorem fragment_run {k : UInt32} {s : Session} {text : Bytes} {f : Fragment} (hd : disabled A = false) (h : Carries E A k text f) {r : AsmRes} {a : Assembler}
    (hf : (s.inst k).assembler.assemble f = (r, a)) (sent : List Bytes) :
    ∃ s', Took k a s s' ∧ receive E A c text ⟨s, sent⟩ = (match r with
      | .ok content => if matchFragment content then (StM.lift (.err .protocolViolation) : SessM UserMessage) else receiveWhole E A c content
      | .err .invalidData => StM.lift (.err .protocolViolation)
      | .err _ => pure .none
      | .panic => StM.lift .panic) ⟨s', sent⟩ := by
  refine ⟨{ s with instances := insertKey s.instances k { s.inst k with assembler := a } }, took_refl hf, ?_⟩
  unfold receive
  rw [hd, if_neg (by simp), if_pos h.frag]
  unfold receiveFragment
  have hr : (f.receiver == INSTANCE_ZERO || f.receiver == A.tag) = true := by
    rcases h.toUs with h | h <;> simp [h, INSTANCE_ZERO]
  simp only [StM.bind_run, StM.lift, h.parsed, h.sound, hr, Res.guard, if_true]
  have he : entry f.sender (assemble f) ⟨s, sent⟩ =
      (.ok r, ⟨{ s with instances := insertKey s.instances k { s.inst k with assembler := a } }, sent⟩) := by
    have e : ∀ g : InstM AsmRes, entry k g ⟨s, sent⟩ = ((g ⟨s.inst k, sent⟩).1,
        ⟨{ s with instances := insertKey s.instances k (g ⟨s.inst k, sent⟩).2.st }, (g ⟨s.inst k, sent⟩).2.sent⟩) := fun _ => rfl
    have : assemble f ⟨s.inst k, sent⟩ = (.ok r, ⟨{ s.inst k with assembler := a }, sent⟩) := by
      unfold assemble; rw [hf]
    rw [h.sender, e, this]
  rw [he]
  rcases r with c | e | _
  · rfl
  · cases e <;> rfl
  · rfl

theorem sameConversations_trans {a b d : Session} (h : SameConversations a b) (h' : SameConversations b d) : SameConversations a d :=
  ⟨h'.tagged.trans h.tagged, fun k => (h'.state k).trans (h.state k), fun k => (h'.ake k).trans (h.ake k),
    fun k => (h'.dake k).trans (h.dake k)⟩

/-- A whole message has the same effect after fragments were taken up. -/
theorem took_whole {k : UInt32} {a : Assembler} {s s' : Session} (ht : Took k a s s') {text : Bytes} {m : EncodedMessage}
    (hp : parse E text = .ok (.encoded m)) (hk : m.sender = k) (h0 : k ≠ 0) (sent : List Bytes) :
    (receiveWhole E A c text ⟨s', sent⟩).1 = (receiveWhole E A c text ⟨s, sent⟩).1 ∧
    (receiveWhole E A c text ⟨s', sent⟩).2.sent = (receiveWhole E A c text ⟨s, sent⟩).2.sent ∧
    SameConversations (receiveWhole E A c text ⟨s, sent⟩).2.st (receiveWhole E A c text ⟨s', sent⟩).2.st := by
  have e : ∀ s : Session, receiveWhole E A c text ⟨s, sent⟩ = receiveEncoded E A c m ⟨s, sent⟩ := by
    intro s
    unfold receiveWhole
    rw [StM.bind_run, hp]
    show (if m.sender = 0 then (pure .none : SessM UserMessage) else receiveEncoded E A c m) ⟨s, sent⟩ = _
    rw [if_neg (by rw [hk]; exact h0)]
  rw [e, e]
  exact took_encoded ht hk h0 sent

/-- What the calls do that deliver the fragments of one message. -/
theorem fragments_run {k : UInt32} (h0 : k ≠ 0) (hd : disabled A = false) {text : Bytes} {m : EncodedMessage} (hm : matchFragment text = false)
    (hp : parse E text = .ok (.encoded m)) (hk : m.sender = k) {cl : Call} {tl : Bytes} :
    ∀ (items : List (Call × Bytes)) (fs : List Fragment) (s : Session),
      List.Forall₂ (fun it f => Carries E A k it.2 f) (items ++ [(cl, tl)]) fs →
      (feed Assembler.assemble (s.inst k).assembler fs).1 =
        List.replicate items.length (.err .incompleteResult) ++ [.ok text] →
      AsOne ((Op.receive text).run E A cl s) (receiveAll E A (items ++ [(cl, tl)]) s) := by
  intro items
  induction items with
  | nil =>
    intro fs s h2 hf
    cases h2 with
    | cons hc hn =>
      cases hn
      rename_i f
      cases ha : (s.inst k).assembler.assemble f with
      | mk r a =>
        simp only [feed, ha, List.length_nil, List.replicate_zero, List.nil_append, List.cons.injEq, and_true] at hf
        subst hf
        obtain ⟨s', ht, hr⟩ := fragment_run (c := cl) hd hc ha []
        simp only [hm, Bool.false_eq_true, if_false] at hr
        obtain ⟨w1, w2, w3⟩ := took_whole (A := A) (c := cl) ht hp hk h0 []
        have hw : receive E A cl text ⟨s, []⟩ = receiveWhole E A cl text ⟨s, []⟩ := by
          unfold receive; rw [hd, hm]; rfl
        refine ⟨by simp [receiveAll], (Op.receive tl).run E A cl s, rfl, ?_, ?_, ?_⟩
        · rw [Op.run, Op.run, perform_result, perform_result, hr, hw, w1]
        · rw [Op.run, Op.run, perform_sent, perform_sent, hr, hw, w2]
        · rw [Op.run, Op.run, perform_after, perform_after, hr, hw]; exact w3
  | cons it items ih =>
    intro fs s h2 hf
    cases h2 with
    | cons hc h2 =>
      rename_i f fs
      cases ha : (s.inst k).assembler.assemble f with
      | mk r a =>
        simp only [feed, ha, List.length_cons, List.replicate_succ, List.cons_append, List.cons.injEq] at hf
        obtain ⟨rfl, hf⟩ := hf
        obtain ⟨s', ht, hr⟩ := fragment_run (c := it.1) hd hc ha []
        have hi : (s'.inst k).assembler = a := by rw [inst_of_lookup ht.own]
        have := ih fs s' h2 (by rw [hi]; exact hf)
        have haft : ((Op.receive it.2).run E A it.1 s).after = s' := by rw [Op.run, perform_after, hr]; rfl
        have hres : ((Op.receive it.2).run E A it.1 s).result = .ok (.user .none) := by
          rw [Op.run, perform_result, hr]; rfl
        have hsent : ((Op.receive it.2).run E A it.1 s).sent = [] := by rw [Op.run, perform_sent, hr]; rfl
        have hall : receiveAll E A (it :: items ++ [(cl, tl)]) s =
            (Op.receive it.2).run E A it.1 s :: receiveAll E A (items ++ [(cl, tl)]) s' := by
          rw [List.cons_append]
          show _ :: receiveAll E A _ ((Op.receive it.2).run E A it.1 s).after = _
          rw [haft]
        have hne : receiveAll E A (items ++ [(cl, tl)]) s' ≠ [] := by
          obtain ⟨e, he, _⟩ := this.last
          intro hc
          rw [hc] at he
          simp at he
        obtain ⟨w1, w2, w3⟩ := took_whole (A := A) (c := cl) ht hp hk h0 []
        have hw : ∀ s, receive E A cl text ⟨s, []⟩ = receiveWhole E A cl text ⟨s, []⟩ := by
          intro s; unfold receive; rw [hd, hm]; rfl
        rw [hall]
        refine ⟨?_, ?_⟩
        · rw [List.dropLast_cons_of_ne_nil hne]
          intro e he
          rcases List.mem_cons.mp he with rfl | he
          · exact ⟨hres, hsent⟩
          · exact this.waits e he
        · obtain ⟨e, he, e1, e2, e3⟩ := this.last
          refine ⟨e, ?_, ?_, ?_, ?_⟩
          · rw [List.getLast?_cons, he]; rfl
          · rw [e1, Op.run, Op.run, perform_result, perform_result, hw, hw, w1]
          · rw [e2, Op.run, Op.run, perform_sent, perform_sent, hw, hw, w2]
          · refine sameConversations_trans ?_ e3
            rw [Op.run, Op.run, perform_after, perform_after, hw, hw]; exact w3

/-! ### Which fragments a session holds -/

/-- The store is the result of some fragments. -/
def Fed (u : Unordered) : Prop := ∃ before, u = (feed Unordered.assemble Unordered.new before).2

theorem fed_step {u : Unordered} (h : Fed u) (f : Fragment) : Fed (u.assemble f).2 := by
  obtain ⟨b, rfl⟩ := h
  refine ⟨b ++ [f], ?_⟩
  rw [feed_append]
  rfl

/-- Stores stay results of fragments. -/
def FedRel (i i' : Instance) : Prop := Fed i.assembler.unordered → Fed i'.assembler.unordered

theorem fed_pre : Pre FedRel := ⟨fun _ => id, fun h h' => h' ∘ h⟩

theorem fed_of {f : InstM α} (h : Frames f) : Keeps FedRel f := fun w hw => by rw [h.same]; exact hw

theorem fed_assemble (f : Fragment) : Keeps FedRel (assemble f) := by
  intro w hw
  show Fed (w.st.assembler.assemble f).2.unordered
  unfold Assembler.assemble
  split
  · exact hw
  · exact fed_step hw f
  all_goals exact hw

theorem fed_handle (m : EncodedMessage) : Keeps FedRel (Instance.handle E A c m) := by
  refine .bind fed_pre ?_ fun _ => fed_of (Instance.frames_process m)
  intro w hw
  unfold Instance.clearAssembler
  split
  · exact hw
  · exact hw

theorem fed_query : Keeps (Rel FedRel) (query A) := by
  have hR := rel_pre fed_pre
  unfold query
  exact .ite (.lift hR _) (.bind hR (.lift hR _) fun _ => .emit hR _)

theorem fed_initiate (v : Version) (k : UInt32) : Keeps (Rel FedRel) (initiate E A c v k) :=
  keeps_entry fed_pre (fed_of (Instance.frames_initiate v)) k

theorem fed_reportPlain (content : Bytes) : Keeps (Rel FedRel) (reportPlain A content) := by
  have hR := rel_pre fed_pre
  exact .bind hR (.query hR _) fun _ => .ite (.pure hR _) (.pure hR _)

theorem fed_answerOffer (vs : List Version) : Keeps (Rel FedRel) (answerOffer E A c vs) := by
  have hR := rel_pre fed_pre
  unfold answerOffer
  split
  · exact .bind hR (fed_initiate _ _) fun _ => .pure hR _
  · exact .pure hR _

theorem fed_receiveWhole (payload : Bytes) : Keeps (Rel FedRel) (receiveWhole E A c payload) := by
  have hR := rel_pre fed_pre
  refine .bind hR (.lift hR _) fun x => ?_
  cases x with
  | error e => exact .ite (.bind hR fed_query fun _ => .pure hR _) (.pure hR _)
  | plaintext t => exact fed_reportPlain t
  | tagged vs t => exact .ite (.bind hR (fed_answerOffer vs) fun _ => fed_reportPlain t) (fed_reportPlain t)
  | query vs => exact .bind hR (fed_answerOffer vs) fun _ => .pure hR _
  | encoded m =>
    refine .ite (.pure hR _) (.bind hR (.lift hR _) fun _ => .ite (.pure hR _) (.bind hR (.query hR _) fun h => ?_))
    exact keeps_entry fed_pre (.bind fed_pre (fed_of (Instance.frames_adopt h)) fun _ => fed_handle m) _

theorem fed_receive (payload : Bytes) : Keeps (Rel FedRel) (receive E A c payload) := by
  have hR := rel_pre fed_pre
  refine .ite (.pure hR _) (.ite (.bind hR (.lift hR _) fun o => ?_) (fed_receiveWhole payload))
  cases o with
  | none => exact .pure hR _
  | some f =>
    refine .bind hR (.lift hR _) fun _ => .bind hR (.lift hR _) fun _ => .bind hR (keeps_entry fed_pre (fed_assemble f) f.sender) fun r => ?_
    cases r with
    | ok t => exact .ite (.lift hR _) (fed_receiveWhole t)
    | err e => cases e <;> exact .lift hR _
    | panic => exact .lift hR _

theorem fed_send (k : UInt32) (content : Bytes) : Keeps (Rel FedRel) (send E A c k content) := by
  have hR := rel_pre fed_pre
  refine .ite (.pure hR _) (.bind hR (.gets hR _) fun st => ?_)
  cases st with
  | none => exact .lift hR _
  | some st =>
    refine .ite (.bind hR fed_query fun _ => .lift hR _) ?_
    refine .bind hR (.gets hR _) fun t => .bind hR (keeps_existing fed_pre (fed_of (Instance.frames_send t content)) k) fun x => ?_
    refine .bind hR (fun w => ?_) fun _ => .pure hR _
    exact ⟨fun _ h => h, id, fun _ => fed_pre.refl _⟩

theorem fed_expireAll (t n : Nat) (ks : List UInt32) : Keeps (Rel FedRel) (expireAll E A c t n ks) := by
  induction ks generalizing n with
  | nil => exact .pure (rel_pre fed_pre) _
  | cons k ks ih => exact .bind (rel_pre fed_pre) (keeps_existing fed_pre (fed_of (Instance.frames_expire _ t)) k) fun _ => ih _

theorem fed_run (op : Op) (s : Session) : Rel FedRel s (op.run E A c s).after := by
  have key : ∀ {α : Type} {f : SessM α} {g : α → Answer}, Keeps (Rel FedRel) f → Rel FedRel s (perform f g s).after := by
    intro α f g h
    rw [perform_after]
    exact h ⟨s, []⟩
  cases op with
  | receive p => exact key (fed_receive p)
  | send k t => exact key (fed_send k t)
  | initiate v k => exact key (fed_initiate v k)
  | close k => exact key (keeps_existing fed_pre (fed_of Instance.frames_reset) k)
  | query => exact key fed_query
  | startSmp k a b => exact key (keeps_existing fed_pre (fed_of (Instance.frames_startSmp a b)) k)
  | abortSmp k => exact key (keeps_existing fed_pre (fed_of Instance.frames_abortSmp) k)
  | expire t => exact key (.bind (rel_pre fed_pre) (.gets (rel_pre fed_pre) _) fun _ => fed_expireAll _ _ _)

/-- What an assembler of a session holds comes from fragments. -/
theorem hist_fed {h : List Ev} {s : Session} (hh : Hist E A h s) (k : UInt32) : Fed (s.inst k).assembler.unordered := by
  induction hh with
  | new =>
    refine ⟨[], ?_⟩
    unfold inst new
    simp only [lookup]
    split <;> rfl
  | step _ hr _ ih => subst hr; exact (fed_run _ _).each k ih

end Session
end Otrr
