import Verif.Props.SessionData
import Verif.Props.Data3
import Verif.Props.Data4
import Verif.Spec.SessionLife
import Verif.Lemmas.SessionLife
/-! C75 to C77: what holds in the course of a session, whatever calls are made. -/

namespace Otrr.Props
open Otrr Otrr.Spec Otrr.Session

/-- Every session has a past that goes back to a key exchange. -/
def Alive (E : Env) (b : PState) : Prop :=
  (∀ x smp, b = .encrypted3 x smp → ∃ x0 l l', Fresh3 E x0 ∧ Life3 E x0 l x ∧ SmpLife E l' smp ∧ Tied3 E smp) ∧
  (∀ x smp, b = .encrypted4 x smp → ∃ x0 l l', Fresh4 E x0 ∧ Life4 E x0 l x ∧ SmpLife4 E l' smp ∧ Tied4 E smp)

theorem Alive.goes {E : Env} {a b : PState} (h : Alive E a) (hg : GoesOn E a b) : Alive E b := by
  constructor
  · intro x smp hb
    obtain ⟨x1, smp1, l, ha, h1, ⟨e1, e2⟩, l', h2⟩ := hg.1 x smp hb
    obtain ⟨x0, l0, l0', hf, h3, h4, t⟩ := h.1 x1 smp1 ha
    exact ⟨x0, _, _, hf, h3.append h1, h2 _ h4, by simpa only [Tied3, e1, e2] using t⟩
  · intro x smp hb
    obtain ⟨x1, smp1, l, ha, h1, ⟨e1, e2, e3⟩, l', h2⟩ := hg.2 x smp hb
    obtain ⟨x0, l0, l0', hf, h3, h4, t⟩ := h.2 x1 smp1 ha
    exact ⟨x0, _, _, hf, h3.append h1, h2 _ h4, by simpa only [Tied4, e1, e2, e3] using t⟩

theorem Alive.begins {E : Env} {b : PState} (h : Begins E b) : Alive E b := by
  constructor
  · intro x smp hb
    obtain ⟨h1, t, l, h2⟩ := h.1 x smp hb
    exact ⟨x, [], l, h1, .start, h2, t⟩
  · intro x smp hb
    obtain ⟨h1, t, l, h2⟩ := h.2 x smp hb
    exact ⟨x, [], l, h1, .start, h2, t⟩

theorem hist_alive {E : Env} {A : Account} {h : List Ev} {s : Session} (hh : Hist E A h s) (k : UInt32) : Alive E (stateOf s k) := by
  induction hh with
  | new =>
    have : stateOf .new k = .plaintext := by
      simp only [stateOf, Session.new, lookup]
      split
      · rename_i i hi
        split at hi
        · cases hi; rfl
        · cases hi
      · rfl
    rw [this]
    exact ⟨fun x smp hb => (by cases hb), fun x smp hb => (by cases hb)⟩
  | step hh he hp ih =>
    subst he
    rw [stateOf_inst] at *
    rcases run_turn (hist_inv hh) hp k with h1 | ⟨_, h1⟩
    · exact ih.goes h1
    · exact .begins h1

theorem later_hist {E : Env} {A : Account} {h h' : List Ev} {s s' : Session} (hh : Hist E A h s) (hl : Later E A s h' s') :
    Hist E A (h ++ h') s' := by
  induction hl with
  | here => rw [List.append_nil]; exact hh
  | step _ he hp ih => rw [← List.append_assoc]; exact .step ih he hp

theorem later_goes {E : Env} {A : Account} {h h' : List Ev} {s s' : Session} {k : UInt32} (hh : Hist E A h s) (hl : Later E A s h' s')
    (hn : SameSession k h') : GoesOn E (stateOf s k) (stateOf s' k) := by
  induction hl with
  | here => exact .refl _
  | @step h1 s1 op c e hl he hp ih =>
    subst he
    refine (ih fun e he => hn e (by simp [he])).trans ?_
    rw [stateOf_inst, stateOf_inst]
    rcases run_turn (hist_inv (later_hist hh hl)) hp k with h1 | ⟨h1, _⟩
    · exact h1
    · exact absurd h1 (hn _ (List.mem_append_right _ (List.mem_singleton.mpr rfl)))

/-! ## C75 -/

theorem insert_state {s : Session} {k : UInt32} {i : Instance} :
    stateOf { s with instances := insertKey s.instances k i } k = i.state := by
  simp only [stateOf, lookup_insertKey, if_true]

/-- A sent message, and the state after it. -/
theorem sent_encrypts {E : Env} {A : Account} {h : List Ev} {s : Session} (hh : Hist E A h s) {c : Call} {k : UInt32} {content : Bytes}
    {out : List Bytes} (hv : SomeVersion A) (hs : s.status k = some .encrypted)
    (hr : ((Op.send k content).run E A c s).result = .ok (.texts out)) :
    ∃ m, Encrypts E c 0 (noNul content) (stateOf s k) (stateOf ((Op.send k content).run E A c s).after k) m ∧
      InTransit A c ⟨(stateOf s k).version, A.tag, k, m⟩ out := by
  rcases C16_encrypted E A h s hh c k content hv hs with h1 | ⟨i, s', m, out', hl, h1, h2, -, h3, h4⟩
  · rw [h1] at hr; cases hr
  · rw [h1] at hr
    cases hr
    have : stateOf s k = i.state := by unfold stateOf; rw [hl]
    rw [this, h2, insert_state]
    exact ⟨m, h3, h4⟩

/-- C75 (OTRv4): two data messages that a client sends to the same instance in the same session never carry the same ids, whatever
happens in between: the ids of the later message are larger. -/
theorem C75_otr4 (E : Env) (A : Account) (h h' : List Ev) (s s' : Session) (hh : Hist E A h s) (c c' : Call) (k : UInt32)
    (content content' : Bytes) (out out' : List Bytes) (hv : SomeVersion A) (hs : s.status k = some .encrypted)
    (hr : ((Op.send k content).run E A c s).result = .ok (.texts out))
    (hl : Later E A ((Op.send k content).run E A c s).after h' s') (hn : SameSession k h')
    (hs' : s'.status k = some .encrypted) (h4 : (stateOf s' k).version = .v4)
    (hr' : ((Op.send k content').run E A c' s').result = .ok (.texts out')) :
    ∃ m m', InTransit A c ⟨.v4, A.tag, k, .data4 m⟩ out ∧ InTransit A c' ⟨.v4, A.tag, k, .data4 m'⟩ out' ∧
      idLt (id4 m) (id4 m') := by
  obtain ⟨m1, he, ht⟩ := sent_encrypts hh hv hs hr
  have hh1 : Hist E A _ ((Op.send k content).run E A c s).after := .step hh rfl (by rw [hr]; nofun)
  obtain ⟨m2, he', ht'⟩ := sent_encrypts (later_hist hh1 hl) hv hs' hr'
  have hg := later_goes hh1 hl hn
  rcases he' with ⟨y, y', smp2, d2, h5, _, _, _⟩ | ⟨y, y', smp2, d2, rnd2, h5, h6, rfl, h7⟩
  · rw [h5] at h4; cases h4
  · obtain ⟨x', smp1, l, h8, h9, _⟩ := hg.2 _ _ h5
    rcases he with ⟨x, x1, smp, d1, h10, h11, _, _⟩ | ⟨x, x1, smp, d1, rnd1, h10, h11, rfl, h12⟩
    · rw [h11] at h8; cases h8
    · rw [h11] at h8
      cases h8
      obtain ⟨x0, l0, _, hf, hlife, _⟩ := (hist_alive hh k).2 _ _ h10
      rw [h10] at ht
      rw [h5] at ht'
      refine ⟨d1, d2, ht, ht', ?_⟩
      have hall := Life4.send ((Life4.send hlife h12).append h9) h7
      have := C44_ids E x0 _ _ hf hall
      simp only [sent4, List.filterMap_append, List.map_append, List.filterMap_cons, List.filterMap_nil, List.map_cons, List.map_nil] at this
      exact (List.pairwise_append.mp this).2.2 _ (by simp) _ (by simp)

/-- C75 (OTRv3): two data messages that a client sends to the same instance in the same session never use the same counter with the
same pair of keys, whatever happens in between. -/
theorem C75_otr3 (E : Env) (A : Account) (h h' : List Ev) (s s' : Session) (hh : Hist E A h s) (c c' : Call) (k : UInt32)
    (content content' : Bytes) (out out' : List Bytes) (hv : SomeVersion A) (hs : s.status k = some .encrypted)
    (hr : ((Op.send k content).run E A c s).result = .ok (.texts out))
    (hl : Later E A ((Op.send k content).run E A c s).after h' s') (hn : SameSession k h')
    (hs' : s'.status k = some .encrypted) (h3 : (stateOf s' k).version = .v3)
    (hr' : ((Op.send k content').run E A c' s').result = .ok (.texts out')) :
    ∃ m m', InTransit A c ⟨.v3, A.tag, k, .data m⟩ out ∧ InTransit A c' ⟨.v3, A.tag, k, .data m'⟩ out' ∧
      (m.senderKeyid, m.receiverKeyid, m.ctr) ≠ (m'.senderKeyid, m'.receiverKeyid, m'.ctr) := by
  obtain ⟨m1, he, ht⟩ := sent_encrypts hh hv hs hr
  have hh1 : Hist E A _ ((Op.send k content).run E A c s).after := .step hh rfl (by rw [hr]; nofun)
  obtain ⟨m2, he', ht'⟩ := sent_encrypts (later_hist hh1 hl) hv hs' hr'
  have hg := later_goes hh1 hl hn
  rcases he' with ⟨y, y', smp2, d2, h5, h6, rfl, h7⟩ | ⟨y, y', smp2, d2, rnd2, h5, _, _, _⟩
  · obtain ⟨x', smp1, l, h8, h9, _⟩ := hg.1 _ _ h5
    rcases he with ⟨x, x1, smp, d1, h10, h11, rfl, h12⟩ | ⟨x, x1, smp, d1, rnd1, h10, h11, _, _⟩
    · rw [h11] at h8
      cases h8
      obtain ⟨x0, l0, _, hf, hlife, _⟩ := (hist_alive hh k).1 _ _ h10
      rw [h10] at ht
      rw [h5] at ht'
      refine ⟨d1, d2, ht, ht', ?_⟩
      have hall := Life3.send ((Life3.send hlife h12).append h9) h7
      have := C38_counters E x0 _ _ hf hall
      simp only [sentCounters, List.filterMap_append, List.filterMap_cons, List.filterMap_nil, List.Nodup] at this
      exact (List.pairwise_append.mp this).2.2 _ (by simp) _ (by simp)
    · rw [h11] at h8; cases h8
  · rw [h5] at h3; cases h3

/-! ## C76 -/

/-- C76: an OTRv4 data message that was authenticated once is never read again in the same session, however often and in whatever
form the network delivers a message with these ids: it is reported as unreadable (or ignored, if it is flagged so). -/
theorem C76_replay (E : Env) (A : Account) (h h' : List Ev) (s s' : Session) (hh : Hist E A h s) (c c' : Call) (payload payload' : Bytes)
    (m m' : EncodedMessage) (d d' : DataMessage4) (hm : m.message = .data4 d) (hm' : m'.message = .data4 d')
    (hd : Delivers E A s payload m) (h4 : m.version = .v4) (hv : AllowsV4 A) (h0 : m.sender ≠ 0) (hr : m.receiver = A.tag) (ht : A.tag ≠ 0)
    (msg : PMessage) (hdec : Decrypts E c m (stateOf s m.sender) msg)
    (hp : ((Op.receive payload).run E A c s).result ≠ .panic)
    (hl : Later E A ((Op.receive payload).run E A c s).after h' s') (hn : SameSession m.sender h')
    (hd' : Delivers E A s' payload' m') (h4' : m'.version = .v4) (hs' : m'.sender = m.sender) (hr' : m'.receiver = A.tag)
    (hi : d'.i = d.i) (hj : d'.j = d.j) (hval : d'.validate E = .ok ()) :
    let e' := (Op.receive payload').run E A c' s'
    e'.result = (if d'.flags.toNat.testBit 0 then .ok (.user .none) else .err (.unreadableMessage m.sender)) ∧
      e'.sent = [unreadableText] := by
  have hh1 : Hist E A _ ((Op.receive payload).run E A c s).after := .step hh rfl hp
  obtain ⟨s1, hto⟩ := Spec.Decrypts.to hdec
  obtain ⟨i, fl, sx, y, hi', hrc, rfl, hk, hrun⟩ := data_runTo (hist_inv hh) hd (.inr ⟨h4, hv⟩) h0 hr ht hto
  have hafter : stateOf ((Op.receive payload).run E A c s).after m.sender =
      (Instance.handleDecrypted E A c m.version m.sender fl (.ok msg) ⟨i, []⟩).2.st.state := by
    rw [Op.run, perform_after, hrun]
    exact insert_state
  have hne : (Instance.handleDecrypted E A c m.version m.sender fl (.ok msg) ⟨i, []⟩).1 ≠ .panic := by
    intro hx
    refine hp ?_
    rw [Op.run, perform_result, hrun, hx]
    rfl
  have hg := (Instance.lives_handleDecrypted (E := E) (A := A) (c := c) (v := m.version) (k := m.sender) (fl := fl) (r := .ok msg)
    ⟨i, []⟩ hne).1
  rw [← hafter] at hg
  have hg2 := hg.trans (later_goes hh1 hl hn)
  have hu : Unreadable E c' m' (stateOf s' m'.sender) := by
    refine .inr ⟨d', h4', hm', hval, fun x2 smp2 hx2 => ?_⟩
    rw [hs'] at hx2
    obtain ⟨x1, smp1, l, h5, h6, _⟩ := hg2.2 _ _ hx2
    rw [show (⟨i, []⟩ : World Instance).st.state = s1 from hi'] at h5
    rcases hto with ⟨_, _, _, _, _, _, h7, _⟩ | ⟨x, smp, d0, x', last, hx, _, hm0, _, hdo, hs1⟩
    · rw [h4] at h7; cases h7
    · rw [hm] at hm0
      cases hm0
      cases last with
      | true => rw [hs1] at h5; cases h5
      | false =>
        rw [hs1] at h5
        cases h5
        obtain ⟨x0, l0, _, hf, hlife, _⟩ := (hist_alive hh m.sender).2 _ _ hx
        have hall := (Life4.recv hlife hdo (by nofun)).append h6
        have := C46_replay E x0 x2 _ hf hall d d' (authenticatorData4 4 m.sender m.receiver d)
          (authenticatorData4 4 m'.sender m'.receiver d') (by simp [accepted4]) hi hj c'.now
        exact ⟨x2.their, by rw [this]⟩
  have := C71_unreadable E A _ s' (later_hist hh1 hl) c' payload' m' hd' (.inr ⟨h4', hv⟩) (by rw [hs']; exact h0) hr' ht hu
  rw [hm', hs'] at this
  exact ⟨this.1, this.2.1⟩

/-! The examples: in both versions a client sends two messages; in OTRv4 the other sends one too, and then gets the first again. -/
namespace ToyLife
open ToySession

@[irreducible] def a7 : Effect := (Op.send 0x102 [104]).run tinyEnv acA (callA 1000 7) a6.after
@[irreducible] def d7 : Effect := (Op.send 0x100 [104]).run tinyEnv acB (callB 1000 7) d6.after
@[irreducible] def c8 : Effect := (Op.send 0x102 [105]).run tinyEnv acA (callA 1000 8) c7.after
@[irreducible] def c9 : Effect := (Op.receive (text d6)).run tinyEnv acA (callA 1000 9) c8.after

def texts (e : Effect) : Option (List Bytes) :=
  match e.result with
  | .ok (.texts l) => some l
  | _ => .none

theorem texts_some {e : Effect} (h : (texts e).isSome) : ∃ l, e.result = .ok (.texts l) := by
  unfold texts at h
  split at h
  · rename_i l hl; exact ⟨l, hl⟩
  · cases h

/-- A data message of OTRv4 that can be read. -/
def opened4 (E : Env) (c : Call) (t : Bytes) (s : PState) (k r : UInt32) : Bool :=
  match s, parse E t with
  | .encrypted4 x _, .ok (.encoded ⟨.v4, k', r', .data4 d⟩) => k' == k && r' == r &&
    match d.validate E, (Enc4.handle E d (authenticatorData4 4 k r d) c.now x).1 with
    | .ok (), .ok _ => true
    | _, _ => false
  | _, _ => false

theorem opened4_true {E : Env} {c : Call} {t : Bytes} {s : PState} {k r : UInt32} (h : opened4 E c t s k r = true) :
    ∃ d msg, parse E t = .ok (.encoded ⟨.v4, k, r, .data4 d⟩) ∧ d.validate E = .ok () ∧ Decrypts E c ⟨.v4, k, r, .data4 d⟩ s msg := by
  unfold opened4 at h
  split at h
  · rename_i x smp k' r' d hp
    simp only [Bool.and_eq_true, beq_iff_eq] at h
    obtain ⟨⟨rfl, rfl⟩, h⟩ := h
    split at h
    · rename_i p hv hx
      obtain ⟨msg, last⟩ := p
      exact ⟨d, msg, hp, hv, .inr ⟨x, smp, d, _, last, rfl, rfl, rfl, hv, Prod.ext hx rfl⟩⟩
    · cases h
  · cases h

theorem run : (texts a6).isSome ∧ (texts a7).isSome ∧ (texts d6).isSome ∧ (texts d7).isSome ∧
    a6.after.status 0x102 = some .encrypted ∧ d6.after.status 0x100 = some .encrypted ∧
    (stateOf a6.after 0x102).version = .v3 ∧ (stateOf d6.after 0x100).version = .v4 := by decide +kernel
theorem run' : (texts c8).isSome ∧ matchFragment (text d6) = false ∧
    opened4 tinyEnv (callA 1000 7) (text d6) (stateOf c4.after 0x102) 0x102 0x100 = true ∧
    c9.result = .err (.unreadableMessage 0x102) := by decide +kernel

end ToyLife

/-- C75: Bob sends two messages in the OTRv4 session. -/
example : ∃ h out out', Hist ToySession.tinyEnv ToySession.acB h ToySession.d3.after ∧ SomeVersion ToySession.acB ∧
    ToySession.d3.after.status 0x100 = some .encrypted ∧
    ToySession.d6 = (Op.send 0x100 [104, 105]).run ToySession.tinyEnv ToySession.acB (ToySession.callB 1000 6) ToySession.d3.after ∧
    ToySession.d6.result = .ok (.texts out) ∧
    Later ToySession.tinyEnv ToySession.acB ToySession.d6.after [] ToySession.d6.after ∧ SameSession 0x100 [] ∧
    ToySession.d6.after.status 0x100 = some .encrypted ∧ (stateOf ToySession.d6.after 0x100).version = .v4 ∧
    ToyLife.d7 = (Op.send 0x100 [104]).run ToySession.tinyEnv ToySession.acB (ToySession.callB 1000 7) ToySession.d6.after ∧
    ToyLife.d7.result = .ok (.texts out') := by
  obtain ⟨h, hh⟩ := ToySession.hist_d3
  obtain ⟨_, _, h1, h2, _, h3, _, h4⟩ := ToyLife.run
  obtain ⟨o, h1⟩ := ToyLife.texts_some h1
  obtain ⟨o', h2⟩ := ToyLife.texts_some h2
  exact ⟨h, o, o', hh, by simp only [SomeVersion, AllowsV3, AllowsV4, PolicyBit]; decide, ToySession.status_d3, by unfold ToySession.d6; rfl, h1,
    .here, nofun, h3, h4, by unfold ToyLife.d7; rfl, h2⟩

/-- C75: Alice sends two messages in the OTRv3 session. -/
example : ∃ h out out', Hist ToySession.tinyEnv ToySession.acA h ToySession.a4.after ∧ SomeVersion ToySession.acA ∧
    ToySession.a4.after.status 0x102 = some .encrypted ∧
    ToySession.a6 = (Op.send 0x102 [104, 105]).run ToySession.tinyEnv ToySession.acA (ToySession.callA 1000 6) ToySession.a4.after ∧
    ToySession.a6.result = .ok (.texts out) ∧
    Later ToySession.tinyEnv ToySession.acA ToySession.a6.after [] ToySession.a6.after ∧ SameSession 0x102 [] ∧
    ToySession.a6.after.status 0x102 = some .encrypted ∧ (stateOf ToySession.a6.after 0x102).version = .v3 ∧
    ToyLife.a7 = (Op.send 0x102 [104]).run ToySession.tinyEnv ToySession.acA (ToySession.callA 1000 7) ToySession.a6.after ∧
    ToyLife.a7.result = .ok (.texts out') := by
  obtain ⟨h, hh⟩ := ToySession.hist_a4
  obtain ⟨h1, h2, _, _, h3, _, h4, _⟩ := ToyLife.run
  obtain ⟨o, h1⟩ := ToyLife.texts_some h1
  obtain ⟨o', h2⟩ := ToyLife.texts_some h2
  exact ⟨h, o, o', hh, by simp only [SomeVersion, AllowsV3, AllowsV4, PolicyBit]; decide, ToySession.status_a4, by unfold ToySession.a6; rfl, h1,
    .here, nofun, h3, h4, by unfold ToyLife.a7; rfl, h2⟩

/-- C76: Alice reads the message of Bob, sends one, and then the network delivers the message of Bob again. -/
example : ∃ h h' m d msg, Hist ToySession.tinyEnv ToySession.acA h ToySession.c4.after ∧ m.message = .data4 d ∧
    Delivers ToySession.tinyEnv ToySession.acA ToySession.c4.after (ToySession.text ToySession.d6) m ∧ m.version = .v4 ∧
    AllowsV4 ToySession.acA ∧ m.sender ≠ 0 ∧ m.receiver = ToySession.acA.tag ∧ ToySession.acA.tag ≠ 0 ∧
    Decrypts ToySession.tinyEnv (ToySession.callA 1000 7) m (stateOf ToySession.c4.after m.sender) msg ∧
    ToySession.c7 = (Op.receive (ToySession.text ToySession.d6)).run ToySession.tinyEnv ToySession.acA (ToySession.callA 1000 7) ToySession.c4.after ∧
    ToySession.c7.result ≠ .panic ∧ h' ≠ [] ∧ Later ToySession.tinyEnv ToySession.acA ToySession.c7.after h' ToyLife.c8.after ∧
    SameSession m.sender h' ∧
    Delivers ToySession.tinyEnv ToySession.acA ToyLife.c8.after (ToySession.text ToySession.d6) m ∧ d.validate ToySession.tinyEnv = .ok () ∧
    ToyLife.c9 = (Op.receive (ToySession.text ToySession.d6)).run ToySession.tinyEnv ToySession.acA (ToySession.callA 1000 9) ToyLife.c8.after ∧
    ToyLife.c9.result = .err (.unreadableMessage m.sender) := by
  obtain ⟨h, hh⟩ := ToySession.hist_c4
  obtain ⟨h1, h2, h3, h4⟩ := ToyLife.run'
  obtain ⟨o, h1⟩ := ToyLife.texts_some h1
  obtain ⟨d, msg, hp, hval, hdec⟩ := ToyLife.opened4_true h3
  have h8 : (Op.send 0x102 [105]).run ToySession.tinyEnv ToySession.acA (ToySession.callA 1000 8) ToySession.c7.after = ToyLife.c8 := by
    unfold ToyLife.c8; rfl
  refine ⟨h, _, _, d, msg, hh, rfl, .inl ⟨h2, hp⟩, rfl, by simp only [AllowsV4, PolicyBit]; decide, (by show (0x102 : UInt32) ≠ 0; decide), rfl, by decide,
    hdec, by unfold ToySession.c7; rfl, by rw [ToySession.c7_result]; nofun, ?_, .step .here h8 (by rw [h1]; nofun), ?_, .inl ⟨h2, hp⟩, hval,
    by unfold ToyLife.c9; rfl, h4⟩
  · simp
  · intro e he hx
    simp only [List.nil_append, List.mem_singleton] at he
    rw [he, h1] at hx
    cases hx

end Otrr.Props
