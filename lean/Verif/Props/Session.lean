import Mathlib.Data.Nat.Bitwise
import Verif.Lemmas.SessionReport
import Verif.Lemmas.SessionToy
/-! C14 to C27: sessions. -/

namespace Otrr.Props
open Otrr Otrr.Spec Otrr.Session

/-! ## Policies -/

theorem has_iff (p : Policy) (n : Nat) (b : Policy) (hb : b.toNat = 2 ^ n) : p.has b = true ↔ p.toNat.testBit n = true := by
  unfold Policy.has
  rw [beq_iff_eq, ← UInt32.toNat_inj, UInt32.toNat_and, hb, Nat.and_two_pow]
  cases p.toNat.testBit n with
  | true => simp
  | false => simpa using (Nat.two_pow_pos n).ne

theorem allowsV3_iff (A : Account) : A.policy.has ALLOW_V3 = true ↔ AllowsV3 A := has_iff _ 2 _ rfl
theorem requires_iff (A : Account) : A.policy.has REQUIRE_ENCRYPTION = true ↔ RequiresEncryption A := has_iff _ 3 _ rfl
theorem sendsTags_iff (A : Account) : A.policy.has SEND_WHITESPACE_TAG = true ↔ SendsTags A := has_iff _ 4 _ rfl
theorem answersTags_iff (A : Account) : A.policy.has WHITESPACE_START_AKE = true ↔ AnswersTags A := has_iff _ 5 _ rfl
theorem answersErrors_iff (A : Account) : A.policy.has ERROR_START_AKE = true ↔ AnswersErrors A := has_iff _ 6 _ rfl
theorem allowsV4_iff (A : Account) : A.policy.has ALLOW_V4 = true ↔ AllowsV4 A := has_iff _ 8 _ rfl

theorem disabled_iff (A : Account) : disabled A = true ↔ ¬ SomeVersion A := by
  simp only [disabled, SomeVersion, ← allowsV3_iff, ← allowsV4_iff]
  cases A.policy.has ALLOW_V3 <;> cases A.policy.has ALLOW_V4 <;> simp

theorem not_disabled {A : Account} (h : SomeVersion A) : disabled A = false := by
  cases hd : disabled A with
  | false => rfl
  | true => exact absurd h ((disabled_iff A).mp hd)

theorem effect_ext {e e' : Effect} (h1 : e.result = e'.result) (h2 : e.after = e'.after) (h3 : e.sent = e'.sent) : e = e' := by
  cases e; cases e'; simp_all

/-! ## C14 -/

/-- C14: if the policy allows no version, every received text is reported as it is, and nothing else
happens. -/
theorem C14_receive (E : Env) (A : Account) (c : Call) (s : Session) (payload : Bytes) (h : ¬ SomeVersion A) :
    (Op.receive payload).run E A c s = ⟨.ok (.user (.plaintext payload)), s, []⟩ := by
  simp only [Op.run, perform, receive, (disabled_iff A).mpr h, if_true]
  rfl

/-- C14: if the policy allows no version, every text is sent as it is, and nothing else happens. -/
theorem C14_send (E : Env) (A : Account) (c : Call) (s : Session) (k : UInt32) (content : Bytes) (h : ¬ SomeVersion A) :
    (Op.send k content).run E A c s = ⟨.ok (.texts [content]), s, []⟩ := by
  simp only [Op.run, perform, Session.send, (disabled_iff A).mpr h, if_true]
  rfl

example : ¬ SomeVersion ⟨0x78, 0x100, [], []⟩ := by
  simp only [SomeVersion, AllowsV3, AllowsV4, PolicyBit]; decide

/-! ## C15 -/

theorem insertKey_same {κ α : Type} [DecidableEq κ] {m : List (κ × α)} {k : κ} {a : α} (h : lookup m k = some a) :
    insertKey m k a = m := by
  induction m with
  | nil => simp [lookup] at h
  | cons e m ih =>
    obtain ⟨k0, a0⟩ := e
    simp only [lookup] at h
    simp only [insertKey]
    split at h
    · rename_i e; cases h; simp [e]
    · rename_i e; rw [if_neg e, ih h]

theorem filterVersions_iff (A : Account) : filterVersions A.policy SUPPORTED_VERSIONS ≠ [] ↔ SomeVersion A := by
  simp only [filterVersions, SUPPORTED_VERSIONS, SomeVersion, ← allowsV3_iff, ← allowsV4_iff]
  cases A.policy.has ALLOW_V3 <;> cases A.policy.has ALLOW_V4 <;> simp

theorem filterVersions_legal (p : Policy) (vs : List Version) : (filterVersions p vs).all Version.legal = true := by
  unfold filterVersions
  split
  · rfl
  · split <;> rfl

/-- A query can be made whenever a version is allowed. -/
theorem query_run {A : Account} (h : SomeVersion A) (w : World Session) :
    ∃ t, IsQuery t ∧ query A w = (.ok (), ⟨w.st, w.sent ++ [t]⟩) := by
  have hv := (filterVersions_iff A).mpr h
  have hs : ∃ t, serialize (.query (filterVersions A.policy SUPPORTED_VERSIONS)) = .ok t :=
    ⟨_, if_pos ⟨hv, filterVersions_legal _ _⟩⟩
  obtain ⟨t, ht⟩ := hs
  refine ⟨t, ⟨_, ht⟩, ?_⟩
  unfold query
  simp only [if_neg hv, StM.bind_run, StM.lift, ht]
  rfl

theorem status_lookup {s : Session} {k : UInt32} {st : Status} (h : s.status k = some st) :
    ∃ i, lookup s.instances k = some i ∧ i.status = st := by
  simpa only [status, Option.map_eq_some_iff] using h

theorem state_finished {i : Instance} (h : i.status = .finished) : i.state = .finished := by
  unfold Instance.status at h
  cases hs : i.state <;> simp_all [PState.status]

theorem state_plaintext {i : Instance} (h : i.status = .plaintext) : i.state = .plaintext := by
  unfold Instance.status at h
  cases hs : i.state <;> simp_all [PState.status]

theorem sendOn_finished (E : Env) (A : Account) (c : Call) (k : UInt32) (content : Bytes) {s : Session}
    (h : s.status k = some .finished) (sent : List Bytes) :
    sendOn E A c k content ⟨s, sent⟩ = (.err .incorrectState, ⟨s, sent⟩) := by
  obtain ⟨i, hl, hi⟩ := status_lookup h
  have hst := state_finished hi
  have hsend : ∀ t, Instance.send E A c t content ⟨i, sent⟩ = (.err .incorrectState, ⟨i, sent⟩) := by
    intro t
    simp only [Instance.send, StM.bind_run, Instance.onState, hst, PState.prepare]
    cases i
    simp only at hst
    subst hst
    rfl
  simp only [sendOn, StM.bind_run, StM.gets, existing, hl, entry, Option.getD_some, hsend, insertKey_same hl]

/-- C15: with encryption required, sending on an instance that is not encrypted fails; the session is not
changed, and at most a query is injected. -/
theorem C15_no_leak (E : Env) (A : Account) (c : Call) (s : Session) (k : UInt32) (content : Bytes)
    (hv : SomeVersion A) (hr : RequiresEncryption A) (hs : s.status k ≠ some .encrypted) :
    let e := (Op.send k content).run E A c s
    (∃ err, e.result = .err err) ∧ e.after = s ∧ (e.sent = [] ∨ ∃ t, e.sent = [t] ∧ IsQuery t) := by
  have hreq := (requires_iff A).mpr hr
  simp only [Op.run, perform, Session.send, not_disabled hv, Bool.false_eq_true, if_false, StM.bind_run, StM.gets]
  cases hst : s.status k with
  | none => exact ⟨⟨_, rfl⟩, rfl, .inl rfl⟩
  | some st =>
    cases st with
    | encrypted => exact absurd hst hs
    | plaintext =>
      simp only [hreq, true_and, if_true]
      obtain ⟨t, ht, hq⟩ := query_run hv ⟨s, []⟩
      simp only [StM.bind_run, hq]
      exact ⟨⟨_, rfl⟩, rfl, .inr ⟨t, rfl, ht⟩⟩
    | finished =>
      simp only [reduceCtorEq, and_false, if_false, sendOn_finished E A c k content hst]
      exact ⟨⟨_, rfl⟩, trivial, .inl trivial⟩

example : SomeVersion ⟨0xc, 0x100, [], []⟩ ∧ RequiresEncryption ⟨0xc, 0x100, [], []⟩ ∧
    Session.new.status 0 = some .plaintext := by
  simp only [SomeVersion, AllowsV3, AllowsV4, RequiresEncryption, PolicyBit]; decide

/-- The hypothesis that some version is allowed is needed: without it OTR is switched off (C14), and the text
is sent although the policy requires encryption. -/
theorem C15_needs_version : ∃ (A : Account), RequiresEncryption A ∧ ∀ (E : Env) (c : Call) (s : Session) (k : UInt32)
    (content : Bytes), ((Op.send k content).run E A c s).result = .ok (.texts [content]) := by
  have h : ¬ SomeVersion ⟨0x8, 0x100, [], []⟩ := by
    simp only [SomeVersion, AllowsV3, AllowsV4, PolicyBit]; decide
  exact ⟨⟨0x8, 0x100, [], []⟩, by simp only [RequiresEncryption, PolicyBit]; decide,
    fun E c s k content => by rw [C14_send E _ c s k content h]⟩

/-! ## C16 -/

theorem dropByValue_noNul (content : Bytes) : dropByValue content 0 = noNul content := by
  simp only [dropByValue, noNul]
  congr 1
  funext x
  simp [bne, beq_eq_decide]

/-- C16: a finished instance sends nothing. -/
theorem C16_finished (E : Env) (A : Account) (c : Call) (s : Session) (k : UInt32) (content : Bytes)
    (hv : SomeVersion A) (hs : s.status k = some .finished) :
    (Op.send k content).run E A c s = ⟨.err .incorrectState, s, []⟩ := by
  simp only [Op.run, perform, Session.send, not_disabled hv, Bool.false_eq_true, if_false, StM.bind_run, StM.gets, hs,
    reduceCtorEq, and_false, sendOn_finished E A c k content hs]

theorem payloads_inTransit {A : Account} {c : Call} {v : Version} {k : UInt32} {m : EncodedMessageType} {rnd : Rand}
    {content : Bytes} {out : List Bytes} (h1 : encodeMessage v A.tag k m = .ok content)
    (h2 : Instance.payloads A c v k rnd content = .ok out) : InTransit A c ⟨v, A.tag, k, m⟩ out := by
  refine ⟨content, h1, ?_⟩
  unfold Instance.payloads at h2
  split at h2
  · rename_i h; cases h2; exact .inl ⟨h, rfl⟩
  · rename_i h
    rw [Res.bind_eq_ok] at h2
    obtain ⟨fs, h3, h4⟩ := h2
    exact .inr ⟨by omega, _, fs, rnd.length_bytes _ _, h3, h4⟩

/-- The tail of `send` for an encrypted instance. -/
theorem send_tail (A : Account) (c : Call) (t : Bool) (m : EncodedMessageType) (w : World Instance) :
    let f : InstM (List Bytes × Bool) := do
      let v ← StM.gets fun w => w.st.state.version
      let own ← StM.gets fun w => w.st.receiver
      let content ← StM.lift (encodeMessage v A.tag own m)
      return (← StM.lift (Instance.payloads A c v own (c.rnd.sub 1) content), t)
    (f w = (.panic, w)) ∨ ∃ out, f w = (.ok (out, t), w) ∧ InTransit A c ⟨w.st.state.version, A.tag, w.st.receiver, m⟩ out := by
  intro f
  have hf : f w = match encodeMessage w.st.state.version A.tag w.st.receiver m with
      | .ok content => match Instance.payloads A c w.st.state.version w.st.receiver (c.rnd.sub 1) content with
        | .ok out => (.ok (out, t), w)
        | .err e => (.err e, w)
        | .panic => (.panic, w)
      | .err e => (.err e, w)
      | .panic => (.panic, w) := by
    simp only [f, StM.bind_run, StM.gets, StM.lift]
    cases encodeMessage w.st.state.version A.tag w.st.receiver m with
    | ok content =>
      simp only
      cases Instance.payloads A c w.st.state.version w.st.receiver (c.rnd.sub 1) content <;> rfl
    | err e => rfl
    | panic => rfl
  rw [hf]
  have n1 := Res.NoErr.encodeMessage w.st.state.version A.tag w.st.receiver m
  cases h1 : encodeMessage w.st.state.version A.tag w.st.receiver m with
  | err e => exact absurd h1 (n1 e)
  | panic => exact .inl rfl
  | ok content =>
    have n2 := Res.NoErr.payloads A c w.st.state.version w.st.receiver (c.rnd.sub 1) content
    simp only
    cases h2 : Instance.payloads A c w.st.state.version w.st.receiver (c.rnd.sub 1) content with
    | err e => exact absurd h2 (n2 e)
    | panic => exact .inl rfl
    | ok out => exact .inr ⟨out, rfl, payloads_inTransit h1 h2⟩

theorem with3_run (smp : SMPContext) (f : StM Enc3 α) (x : Enc3) : PState.with3 smp (f x) = ((f x).1, .encrypted3 (f x).2 smp) := rfl
theorem with4_run (smp : SMP4Context) (f : StM Enc4 α) (x : Enc4) : PState.with4 smp (f x) = ((f x).1, .encrypted4 (f x).2 smp) := rfl

theorem prepare_encrypts {E : Env} {c : Call} {fl : UInt8} {content : Bytes} {rnd : Rand} {s : PState}
    (h : s.status = .encrypted) :
    (s.prepare E fl content rnd c.now).1 = .panic ∨
      ∃ m s', s.prepare E fl content rnd c.now = (.ok m, s') ∧ Encrypts E c fl content s s' m := by
  cases s with
  | plaintext => simp [PState.status] at h
  | finished => simp [PState.status] at h
  | encrypted3 x smp =>
    have hn := StM.NoErr.enc3 E fl content x
    simp only [PState.prepare, with3_run, StM.bind_run, StM.pure_run]
    cases hx : Enc3.encrypt E fl content x with
    | mk r x' =>
      rw [hx] at hn
      cases r with
      | ok d => exact .inr ⟨_, _, rfl, .inl ⟨x, x', smp, d, rfl, rfl, rfl, hx⟩⟩
      | err e => exact absurd rfl (hn e)
      | panic => exact .inl rfl
  | encrypted4 x smp =>
    have hn := StM.NoErr.enc4 E fl content rnd c.now x
    simp only [PState.prepare, with4_run, StM.bind_run, StM.pure_run]
    cases hx : Enc4.encrypt E fl content rnd c.now x with
    | mk r x' =>
      rw [hx] at hn
      cases r with
      | ok d => exact .inr ⟨_, _, rfl, .inr ⟨x, x', smp, d, rnd, rfl, rfl, rfl, hx⟩⟩
      | err e => exact absurd rfl (hn e)
      | panic => exact .inl rfl

theorem _root_.Otrr.Spec.Encrypts.version {E : Env} {c : Call} {fl : UInt8} {content : Bytes} {s s' : PState} {m : EncodedMessageType}
    (h : Encrypts E c fl content s s' m) : s'.version = s.version := by
  rcases h with ⟨x, x', smp, d, rfl, rfl, _⟩ | ⟨x, x', smp, d, rnd, rfl, rfl, _⟩ <;> rfl

theorem _root_.Otrr.Spec.Encrypts.encoded {E : Env} {c : Call} {fl : UInt8} {content : Bytes} {s s' : PState} {m : EncodedMessageType}
    (h : Encrypts E c fl content s s' m) (y : Bytes) : m ≠ .unencoded y := by
  rcases h with ⟨x, x', smp, d, _, _, rfl, _⟩ | ⟨x, x', smp, d, rnd, _, _, rfl, _⟩ <;> nofun

theorem send_encrypted {E : Env} {A : Account} {c : Call} {t : Bool} {content : Bytes} {i : Instance} {sent : List Bytes}
    (h : i.state.status = .encrypted) :
    (Instance.send E A c t content ⟨i, sent⟩).1 = .panic ∨
      ∃ out m s', Instance.send E A c t content ⟨i, sent⟩ = (.ok (out, t), ⟨{ i with state := s' }, sent⟩) ∧
        Encrypts E c 0 (noNul content) i.state s' m ∧ InTransit A c ⟨i.state.version, A.tag, i.receiver, m⟩ out := by
  simp only [Instance.send, StM.bind_run, Instance.onState, dropByValue_noNul]
  rcases prepare_encrypts (E := E) (c := c) (fl := 0) (content := noNul content) (rnd := c.rnd.sub 0) h with hp | ⟨m, s', hp, he⟩
  · cases hx : i.state.prepare E 0 (noNul content) (c.rnd.sub 0) c.now with
    | mk r x =>
      rw [hx] at hp
      simp only at hp
      subst hp
      exact .inl rfl
  · rw [hp]
    simp only
    split
    · rename_i x; exact absurd rfl (he.encoded x)
    · rename_i hm
      rcases send_tail A c t m ⟨{ i with state := s' }, sent⟩ with h | ⟨out, h, ht⟩
      · left
        exact congrArg Prod.fst h
      · right
        refine ⟨out, m, s', ?_, he, ?_⟩
        · exact h
        · rw [← he.version]; exact ht

/-- C16: what is sent on an encrypted instance is a data message to the peer, whole or in fragments, that carries the
content (without NUL bytes) encrypted with the keys of the session.  Nothing is injected, and nothing else changes.
The alternative is a panic. -/
theorem C16_encrypted (E : Env) (A : Account) (h : List Ev) (s : Session) (hh : Hist E A h s) (c : Call) (k : UInt32)
    (content : Bytes) (hv : SomeVersion A) (hs : s.status k = some .encrypted) :
    let e := (Op.send k content).run E A c s
    e.result = .panic ∨ ∃ i s' m out, lookup s.instances k = some i ∧ e.result = .ok (.texts out) ∧
      e.after = { s with instances := insertKey s.instances k { i with state := s' } } ∧ e.sent = [] ∧
      Encrypts E c 0 (noNul content) i.state s' m ∧ InTransit A c ⟨i.state.version, A.tag, k, m⟩ out := by
  obtain ⟨i, hl, hi⟩ := status_lookup hs
  have hrec : i.receiver = k := by rw [← (hist_inv hh).receiver k, inst_of_lookup hl]
  have hcond : ¬ (A.policy.has REQUIRE_ENCRYPTION = true ∧ Status.encrypted = .plaintext) := by simp
  simp only [Op.run, perform, Session.send, not_disabled hv, Bool.false_eq_true, if_false, StM.bind_run, StM.gets, hs,
    if_neg hcond, sendOn, existing, hl, entry, Option.getD_some]
  rcases send_encrypted (E := E) (A := A) (c := c) (t := s.tagged) (content := content) (sent := []) hi with hp | ⟨out, m, s', hp, he, ht⟩
  · left
    cases hx : Instance.send E A c s.tagged content ⟨i, []⟩ with
    | mk r x =>
      rw [hx] at hp
      simp only at hp
      subst hp
      rfl
  · right
    rw [hp]
    exact ⟨i, s', m, out, rfl, rfl, rfl, rfl, he, hrec ▸ ht⟩

example : (∃ h, Hist ToySession.tinyEnv ToySession.acA h ToySession.a4.after) ∧ SomeVersion ToySession.acA ∧
    ToySession.a4.after.status 0x102 = some .encrypted :=
  ⟨ToySession.hist_a4, by simp only [SomeVersion, AllowsV3, AllowsV4, PolicyBit]; decide, ToySession.status_a4⟩

/-! ## C17 -/

/-- How a text that was not encrypted is to be reported. -/
def ReportOf (A : Account) (s : Session) (content : Bytes) (m : UserMessage) : Prop :=
  (HasSessions s ∨ RequiresEncryption A) ∧ m = .warningUnencrypted content ∨
  ¬ (HasSessions s ∨ RequiresEncryption A) ∧ m = .plaintext content

theorem reportPlain_run {E : Env} {A : Account} {s : Session} (hi : Inv E s) (sent : List Bytes) (content : Bytes) :
    ∃ m, reportPlain A content ⟨s, sent⟩ = (.ok m, ⟨s, sent⟩) ∧ ReportOf A s content m := by
  obtain ⟨b, hb, hiff⟩ := hasSessionsIn_ok hi
  simp only [reportPlain, StM.bind_run, StM.query, hb]
  by_cases h : (b || A.policy.has REQUIRE_ENCRYPTION) = true
  · refine ⟨_, by rw [if_pos h]; rfl, .inl ⟨?_, rfl⟩⟩
    rw [Bool.or_eq_true, hiff, requires_iff] at h
    exact h
  · refine ⟨_, by rw [if_neg h]; rfl, .inr ⟨?_, rfl⟩⟩
    rw [Bool.or_eq_true, hiff, requires_iff] at h
    exact h

/-- C17: a text without a tag is reported as a warning exactly when some instance has an encrypted or finished session
or the policy requires encryption, and nothing else happens. -/
theorem C17_plaintext (E : Env) (A : Account) (h : List Ev) (s : Session) (hh : Hist E A h s) (c : Call)
    (payload content : Bytes) (hv : SomeVersion A) (hf : matchFragment payload = false)
    (hp : parse E payload = .ok (.plaintext content)) :
    ∃ m, ReportOf A s content m ∧ (Op.receive payload).run E A c s = ⟨.ok (.user m), s, []⟩ := by
  obtain ⟨m, h1, h2⟩ := reportPlain_run (A := A) (hist_inv hh) [] content
  refine ⟨m, h2, ?_⟩
  simp only [Op.run, perform, receive, not_disabled hv, Bool.false_eq_true, if_false, hf, receiveWhole, StM.bind_run,
    StM.lift, hp, h1]

/-- Starting an OTRv3 exchange gives no error and leaves the status of every instance as it was. -/
theorem initiate3_run {E : Env} {A : Account} {c : Call} {s : Session} (hi : Inv E s) :
    ∃ w, (initiate E A c .v3 INSTANCE_ZERO ⟨s, []⟩ = (.ok .none, w) ∨ (initiate E A c .v3 INSTANCE_ZERO ⟨s, []⟩).1 = .panic) ∧
      Inv E w.st ∧ ∀ k, w.st.status k = s.status k := by
  obtain ⟨z, hz⟩ := Option.isSome_iff_exists.mp hi.zero
  refine ⟨(initiate E A c .v3 INSTANCE_ZERO ⟨s, []⟩).2, ?_, hi.calm (calm_initiate (A := A) (c := c) .v3 INSTANCE_ZERO ⟨s, []⟩), ?_⟩
  · have hn : (Instance.initiate E A c .v3).NoErr :=
      .bind (fun w => .ok _) fun _ => .bind (.gets _) fun _ => .bind (.inject _ _ _ _ _ _) fun _ => .pure _
    have hr := hn ⟨z, []⟩
    have hu : ∀ w a, (Instance.initiate E A c .v3 w).1 = .ok a → a = .none := by
      intro w a h
      simp only [Instance.initiate, StM.bind_run] at h
      split at h
      · split at h
        · split at h
          · simp only [StM.pure_run, Res.ok.injEq] at h; exact h.symm
          all_goals simp at h
        all_goals simp at h
      all_goals simp at h
    simp only [initiate, entry, hz, Option.getD_some]
    cases hx : Instance.initiate E A c .v3 ⟨z, []⟩ with
    | mk r w' =>
      rw [hx] at hr
      cases r with
      | ok a =>
        left
        rw [hu ⟨z, []⟩ a (by rw [hx])]
      | err e => exact absurd rfl (hr e)
      | panic => exact .inr rfl
  · intro k
    have hst : ∀ w : World Instance, (Instance.initiate E A c .v3 w).2.st.state = w.st.state := by
      have hR : Pre (fun a b : Instance => b.state = a.state) := ⟨fun _ => rfl, fun h h' => h'.trans h⟩
      have : Keeps (fun a b : Instance => b.state = a.state) (Instance.initiate E A c .v3) :=
        .bind hR (fun w => rfl) fun _ => .bind hR (.gets hR _) fun _ => .bind hR (Instance.keeps_inject hR) fun _ => .pure hR _
      exact this
    simp only [initiate, entry, hz, Option.getD_some, status, lookup_insertKey]
    by_cases h : INSTANCE_ZERO = k
    · subst h
      simp only [if_true, hz, Option.map_some, Instance.status, hst]
    · rw [if_neg h]

/-- C17, for a text with a tag, unless the tag makes this client start an OTRv4 exchange: the text is reported as C17
says, or starting the OTRv3 exchange panics.  (Missing: see `C17_violated`.) -/
theorem C17_tagged_partial (E : Env) (A : Account) (h : List Ev) (s : Session) (hh : Hist E A h s) (c : Call)
    (payload content : Bytes) (vs : List Version) (hv : SomeVersion A) (hf : matchFragment payload = false)
    (hp : parse E payload = .ok (.tagged vs content)) (h4 : ¬ (AnswersTags A ∧ AllowsV4 A ∧ .v4 ∈ vs)) :
    let e := (Op.receive payload).run E A c s
    ∃ m, ReportOf A s content m ∧ (e.result = .ok (.user m) ∨ e.result = .panic) := by
  have hi := hist_inv hh
  obtain ⟨m, h1, h2⟩ := reportPlain_run (A := A) hi [] content
  intro e
  have he : e = (Op.receive payload).run E A c s := rfl
  simp only [Op.run, perform, receive, not_disabled hv, Bool.false_eq_true, if_false, hf, receiveWhole, StM.bind_run,
    StM.lift, hp] at he
  by_cases ht : A.policy.has WHITESPACE_START_AKE = true
  · rw [if_pos ht] at he
    have h4' : ¬ (Version.v4 ∈ vs ∧ A.policy.has ALLOW_V4 = true) := by
      rintro ⟨ha, hb⟩
      exact h4 ⟨(answersTags_iff A).mp ht, (allowsV4_iff A).mp hb, ha⟩
    unfold answerOffer selectVersion at he
    rw [if_neg h4'] at he
    by_cases h3 : Version.v3 ∈ vs ∧ A.policy.has ALLOW_V3 = true
    · rw [if_pos h3] at he
      · obtain ⟨w, hw, hi', hst⟩ := initiate3_run (A := A) (c := c) hi
        obtain ⟨m', h1', h2'⟩ := reportPlain_run (A := A) hi' w.sent content
        have hsess : HasSessions w.st ↔ HasSessions s := by simp only [HasSessions, hst]
        refine ⟨m', by simpa only [ReportOf, hsess] using h2', ?_⟩
        rcases hw with hw | hw
        · left
          simp only [StM.bind_run, hw, StM.pure_run, h1'] at he
          rw [he]
        · right
          simp only [StM.bind_run] at he
          cases hx : initiate E A c .v3 INSTANCE_ZERO ⟨s, []⟩ with
          | mk r w' =>
            rw [hx] at hw
            simp only at hw
            subst hw
            simp only [hx] at he
            rw [he]
    · rw [if_neg h3] at he
      refine ⟨m, h2, .inl ?_⟩
      simp only [StM.bind_run, StM.pure_run, h1] at he
      rw [he]
  · refine ⟨m, h2, .inl ?_⟩
    simp only [if_neg ht, h1] at he
    rw [he]

/-- Not so otherwise: the second text with a tag for OTRv4, to which this client answers, is lost. -/
theorem C17_violated : ∃ (E : Env) (A : Account) (h : List Ev) (s : Session) (c : Call) (payload content : Bytes),
    Hist E A h s ∧ SomeVersion A ∧ matchFragment payload = false ∧ parse E payload = .ok (.tagged [.v4] content) ∧
      content ≠ [] ∧ ((Op.receive payload).run E A c s).result = .err .incorrectState :=
  ⟨ToySession.tinyEnv, ToySession.acT, _, ToySession.t1.after, ToySession.callB 1000 4, ToySession.tagged4, [104, 105],
    .step .new (by unfold ToySession.t1; rfl) (by rw [ToySession.runT.2.2.1]; nofun),
    by simp only [SomeVersion, AllowsV3, AllowsV4, PolicyBit]; decide, ToySession.runT.1, ToySession.runT.2.1, nofun,
    by have := ToySession.runT.2.2.2.1; unfold ToySession.t2 at this; exact this⟩

/-- The hypotheses of `C17_plaintext` and of `C17_tagged_partial` hold for the text `hi`, with and without a tag, in an encrypted
session. -/
example : (∃ h, Hist ToySession.tinyEnv ToySession.acA h ToySession.a4.after) ∧ SomeVersion ToySession.acA ∧
    HasSessions ToySession.a4.after ∧ matchFragment [104, 105] = false ∧
    parse ToySession.tinyEnv [104, 105] = .ok (.plaintext [104, 105]) ∧ matchFragment ToySession.tagged4 = false ∧
    parse ToySession.tinyEnv ToySession.tagged4 = .ok (.tagged [.v4] [104, 105]) ∧ ¬ AnswersTags ToySession.acA :=
  ⟨ToySession.hist_a4, by simp only [SomeVersion, AllowsV3, AllowsV4, PolicyBit]; decide, ⟨0x102, .inl ToySession.status_a4⟩,
    by decide +kernel, by decide +kernel, ToySession.runT.1, ToySession.runT.2.1, by simp only [AnswersTags, PolicyBit]; decide⟩

/-! ## C18, C19 -/

theorem verifyTag_valid {t : UInt32} (h : ValidTag t) : verifyTag t = .ok t := by
  refine if_neg ?_
  rintro ⟨h1, h2⟩
  rcases h with h | h
  · subst h; exact absurd h1 (by decide)
  · exact absurd h2 (UInt32.not_lt.mpr h)

/-- The header check never panics. -/
theorem verifyHeader_calm (A : Account) (m : EncodedMessage) :
    verifyHeader A m = .ok () ∨ ∃ e, verifyHeader A m = .err e := by
  cases h : verifyHeader A m with
  | ok a => exact .inl rfl
  | err e => exact .inr ⟨e, rfl⟩
  | panic =>
    exfalso
    unfold verifyHeader verifyTag at h
    revert h
    simp only [Res.guard]
    repeat' split
    all_goals simp [Res.mapErr, Bind.bind, Res.bind]
    all_goals (repeat' split) <;> simp

/-- C18: an encoded message for another instance is refused, and has no effect. -/
theorem C18_message (E : Env) (A : Account) (c : Call) (s : Session) (payload : Bytes) (m : EncodedMessage)
    (hv : SomeVersion A) (hf : matchFragment payload = false) (hp : parse E payload = .ok (.encoded m))
    (hs : m.sender ≠ 0) (h0 : m.receiver ≠ 0) (hr : m.receiver ≠ A.tag) :
    (Op.receive payload).run E A c s = ⟨.err .messageForOtherInstance, s, []⟩ := by
  obtain ⟨h1, _, h3, h4⟩ := C13_header E payload m hp
  have hh : verifyHeader A m = .err .messageForOtherInstance := by
    have hpos : (INSTANCE_ZERO < m.receiver) := by
      rcases h4 with h4 | h4
      · exact absurd h4 h0
      · exact UInt32.lt_of_lt_of_le (by decide) h4
    unfold verifyHeader
    rcases h1 with h1 | h1 <;>
      simp [h1, verifyTag_valid h3, verifyTag_valid h4, Res.mapErr, Res.guard, INSTANCE_ZERO, hs, h0, hr,
        show (0 : UInt32) < m.receiver from hpos]
  simp only [Op.run, perform, receive, not_disabled hv, Bool.false_eq_true, if_false, hf, receiveWhole, StM.bind_run,
    StM.lift, hp, if_neg hs, receiveEncoded, hh]

/-- C18: a fragment for another instance is refused, and has no effect. -/
theorem C18_fragment (E : Env) (A : Account) (c : Call) (s : Session) (payload : Bytes) (f : Fragment)
    (hv : SomeVersion A) (hf : matchFragment payload = true) (hp : parseFragment E.nd payload = .ok (some f))
    (h0 : f.receiver ≠ 0) (hr : f.receiver ≠ A.tag) :
    ∃ e, (Op.receive payload).run E A c s = ⟨.err e, s, []⟩ ∧ (verifyFragment f = true → e = .messageForOtherInstance) := by
  refine ⟨if verifyFragment f then .messageForOtherInstance else .protocolViolation, ?_, fun h => if_pos h⟩
  have : (f.receiver == INSTANCE_ZERO || f.receiver == A.tag) = false := by simp [INSTANCE_ZERO, h0, hr]
  simp only [Op.run, perform, receive, not_disabled hv, Bool.false_eq_true, if_false, hf, receiveFragment, StM.bind_run,
    StM.lift, hp, Res.guard, this, if_true]
  cases verifyFragment f <;> rfl

/-- The hypotheses of `C18_message` and `C18_fragment` hold for a message that Bob sends to Alice, and for a fragment. -/
example : matchFragment (ToySession.msg ToySession.b3) = false ∧
    (∃ m, parse ToySession.tinyEnv (ToySession.msg ToySession.b3) = .ok (.encoded m) ∧ m.sender ≠ 0 ∧ m.receiver ≠ 0 ∧
      m.receiver ≠ ToySession.acB.tag) ∧
    ∃ f, matchFragment ToySession.piece = true ∧ parseFragment ToySession.tinyEnv.nd ToySession.piece = .ok (some f) ∧
      f.receiver ≠ 0 ∧ f.receiver ≠ ToySession.acB.tag ∧ verifyFragment f = true :=
  ToySession.other

/-- C19: an encoded message of a version that the policy does not allow has no effect. -/
theorem C19_version (E : Env) (A : Account) (c : Call) (s : Session) (payload : Bytes) (m : EncodedMessage)
    (hv : SomeVersion A) (hf : matchFragment payload = false) (hp : parse E payload = .ok (.encoded m))
    (hn : m.version = .v3 ∧ ¬ AllowsV3 A ∨ m.version = .v4 ∧ ¬ AllowsV4 A) :
    let e := (Op.receive payload).run E A c s
    e.after = s ∧ e.sent = [] ∧ (e.result = .ok (.user .none) ∨ ∃ x, e.result = .err x) := by
  have ha : allowed A m.version = false := by
    rcases hn with ⟨h1, h2⟩ | ⟨h1, h2⟩
    · rw [h1]; exact Bool.eq_false_iff.mpr fun h => h2 ((allowsV3_iff A).mp h)
    · rw [h1]; exact Bool.eq_false_iff.mpr fun h => h2 ((allowsV4_iff A).mp h)
  intro e
  have he : e = (Op.receive payload).run E A c s := rfl
  simp only [Op.run, perform, receive, not_disabled hv, Bool.false_eq_true, if_false, hf, receiveWhole, StM.bind_run,
    StM.lift, hp] at he
  by_cases hs : m.sender = 0
  · simp only [if_pos hs, StM.pure_run] at he
    rw [he]; exact ⟨rfl, rfl, .inl rfl⟩
  · simp only [if_neg hs, receiveEncoded, StM.bind_run, StM.lift, ha, Bool.not_false, if_true] at he
    rcases verifyHeader_calm A m with h | ⟨x, h⟩
    · rw [h] at he
      rw [he]; exact ⟨rfl, rfl, .inl rfl⟩
    · rw [h] at he
      rw [he]; exact ⟨rfl, rfl, .inr ⟨x, rfl⟩⟩

/-- The hypotheses of `C19_version` hold for a client that allows OTRv4 only, and a message of an exchange for OTRv3. -/
example : SomeVersion ⟨0x100, 0x100, [], []⟩ ∧ ¬ AllowsV3 ⟨0x100, 0x100, [], []⟩ ∧ matchFragment (ToySession.msg ToySession.b3) = false ∧
    ∃ m, parse ToySession.tinyEnv (ToySession.msg ToySession.b3) = .ok (.encoded m) ∧ m.version = .v3 :=
  ⟨by simp only [SomeVersion, AllowsV3, AllowsV4, PolicyBit]; decide, by simp only [AllowsV3, PolicyBit]; decide,
    ToySession.other.1, ToySession.other3⟩

/-! ## C20 -/

/-- C20: instance 0 exists and is in plaintext, every instance is stored under its own tag, and asking for sessions, which
asserts this, never panics. -/
theorem C20_instances (E : Env) (A : Account) (h : List Ev) (s : Session) (hh : Hist E A h s) :
    s.status 0 = some .plaintext ∧ (s.instances.map (·.1)).Nodup ∧
      (∀ k i, lookup s.instances k = some i → i.receiver = k) ∧
      ∃ b, hasSessionsIn s.instances = .ok b ∧ (b = true ↔ HasSessions s) := by
  have hi := hist_inv hh
  refine ⟨?_, hi.nodup, fun k i hl => by rw [← hi.receiver k, inst_of_lookup hl], hasSessionsIn_ok hi⟩
  obtain ⟨z, hz⟩ := Option.isSome_iff_exists.mp hi.zero
  have hp := hi.plain
  rw [inst_of_lookup hz] at hp
  simp only [status]
  rw [show (0 : UInt32) = INSTANCE_ZERO from rfl, hz, Option.map_some, Instance.status, hp]
  rfl

example : (∃ h, Hist ToySession.tinyEnv ToySession.acA h ToySession.a4.after) ∧ ToySession.a4.after.status 0x102 = some .encrypted :=
  ⟨ToySession.hist_a4, ToySession.status_a4⟩

/-! ## C21 -/

theorem ssid_inst {s : Session} {k : UInt32} {x : Bytes} (h : s.ssid k = .ok x) : (s.inst k).state.ssid? = some x := by
  unfold Session.ssid at h
  split at h
  · cases h
  · rename_i i hl
    rw [inst_of_lookup hl]
    unfold Instance.ssid at h
    split at h <;> cases h
    all_goals (rename_i hs; rw [hs]; rfl)

theorem ssid_of_inst {s : Session} {k : UInt32} {x : Bytes} (h : (s.inst k).state.ssid? = some x) : s.ssid k = .ok x := by
  unfold Session.ssid
  unfold inst at h
  cases hl : lookup s.instances k with
  | none => rw [hl] at h; simp [Instance.new, PState.ssid?] at h
  | some i =>
    rw [hl] at h
    simp only [Option.getD_some] at h
    simp only [Instance.ssid]
    cases hs : i.state <;> rw [hs] at h <;> simp_all [PState.ssid?]

theorem status_of_inst {s : Session} {k : UInt32} {st : Status} (h : (s.inst k).state.status = st) (hn : st ≠ .plaintext) :
    s.status k = some st := by
  unfold inst at h
  unfold Session.status
  cases hl : lookup s.instances k with
  | none => rw [hl] at h; exact absurd h.symm hn
  | some i => rw [hl] at h; exact congrArg some h

theorem ssid_iff (s : Session) (k : UInt32) : (∃ x, s.ssid k = .ok x) ↔ s.status k = some .encrypted := by
  unfold Session.ssid Session.status
  cases lookup s.instances k with
  | none => simp
  | some i =>
    simp only [Option.map_some, Option.some.injEq, Instance.ssid, Instance.status]
    cases i.state <;> simp [PState.status]

/-- A message that does not start a key exchange is for this client. -/
theorem header_addressed {A : Account} {m : EncodedMessage} (hv : verifyHeader A m = .ok ())
    (h1 : ∀ d, m.message ≠ .dhCommit d) (h2 : ∀ d, m.message ≠ .identity d) : m.receiver = A.tag := by
  obtain ⟨v, snd, rcv, msg⟩ := m
  have key : Res.guard (rcv != 0) OTRError.protocolViolation = .ok () →
      Res.guard (!(decide (rcv > INSTANCE_ZERO) && rcv != A.tag)) .messageForOtherInstance = .ok () → rcv = A.tag := by
    intro h1 h2
    have h1' := guard_true h1
    have h2' := guard_true h2
    simp only [bne_iff_ne, ne_eq] at h1'
    simp only [Bool.not_eq_true', Bool.and_eq_false_iff, decide_eq_false_iff_not, bne_eq_false_iff_eq] at h2'
    rcases h2' with h2' | h2'
    · exfalso
      apply h1'
      have : rcv ≤ 0 := UInt32.not_lt.mp h2'
      exact UInt32.le_antisymm this (by simp)
    · exact h2'
  simp only [verifyHeader] at hv
  cases v <;> cases msg <;>
    first
      | exact absurd rfl (h1 _)
      | exact absurd rfl (h2 _)
      | (simp only [Res.bind_eq_ok, reduceCtorEq, false_and, exists_false, Bool.or_false] at hv
         try (
          obtain ⟨_, _, _, _, _, _, _, _, _, h1, h2⟩ := hv
          exact key h1 h2))

theorem completes_addressed {E : Env} {A : Account} {m : EncodedMessage} {x : Bytes} (hc : Completes E A m x)
    (hv : verifyHeader A m = .ok ()) : m.receiver = A.tag := by
  obtain ⟨v, snd, rcv, msg⟩ := m
  refine header_addressed hv (fun d h => ?_) fun d h => ?_ <;> (simp only at h; subst h; cases v <;> exact hc)

/-- C21: a new encrypted session (one with another SSID than before) appears only when `receive` gets the last message of a
key exchange, from that peer and for this client, of a version that is allowed, with everything in it verified.  The call
reports that the session started, or panics. -/
theorem C21_started (E : Env) (A : Account) (h : List Ev) (s : Session) (hh : Hist E A h s) (c : Call) (op : Op) (k : UInt32) (x : Bytes)
    (h1 : (op.run E A c s).after.ssid k = .ok x) (h2 : s.ssid k ≠ .ok x) :
    ∃ payload m, op = .receive payload ∧ Delivers E A s payload m ∧ m.sender = k ∧ m.receiver = A.tag ∧
      (m.version = .v3 ∧ AllowsV3 A ∨ m.version = .v4 ∧ AllowsV4 A) ∧ Completes E A m x ∧
      ((op.run E A c s).result = .ok (.user (.sessionStarted k)) ∨ (op.run E A c s).result = .panic) := by
  have hi := hist_inv hh
  have h1 := ssid_inst h1
  have h2 : (s.inst k).state.ssid? ≠ some x := fun h => h2 (ssid_of_inst h)
  have nk : ¬ NoKex (s.inst k).state ((op.run E A c s).after.inst k).state := by
    rintro (⟨y, hy, hz, -⟩ | ⟨hf, -⟩ | hf)
    · rw [h1] at hz; cases hz; exact h2 hy
    · rw [hf] at h1; cases h1
    · rw [hf] at h1; cases h1
  cases op with
  | receive payload =>
    rcases changes_receive (A := A) (c := c) (w := ⟨s, []⟩) hi payload with hc | ⟨m, ssid, hd, hr, ho, he⟩
    · exact absurd (by rw [Op.run, perform_after]; exact (hc.each k).calm) nk
    · have hk : m.sender = k := by
        by_cases hk : k = m.sender
        · exact hk.symm
        · exact absurd (by rw [Op.run, perform_after]; exact ho k hk) nk
      subst hk
      have hx : ssid = x := by
        have := he.has
        rw [Op.run, perform_after] at h1
        rw [h1] at this
        exact (Option.some.inj this).symm
      subst hx
      refine ⟨payload, m, rfl, hd, rfl, completes_addressed he.completes he.header, ?_, he.completes, ?_⟩
      · have ha := he.allowed
        have hv := he.completes
        unfold Completes at hv
        cases hver : m.version with
        | v3 => rw [hver] at ha; exact .inl ⟨rfl, (allowsV3_iff A).mp ha⟩
        | v4 => rw [hver] at ha; exact .inr ⟨rfl, (allowsV4_iff A).mp ha⟩
        | none => rw [hver] at hv; exact hv.elim
        | unsupported v => rw [hver] at hv; exact hv.elim
      · rw [Op.run, perform_result]
        rcases he.result with hr | hr <;> rw [hr]
        · exact .inl rfl
        · exact .inr rfl
  | _ => exact absurd ((calm_run (E := E) (A := A) (c := c) (s := s) (by intro p h; cases h)).each k).calm nk

/-- The other way round: when a call reports that a session started, that instance is encrypted. -/
theorem C21_reported (E : Env) (A : Account) (h : List Ev) (s : Session) (hh : Hist E A h s) (c : Call) (payload : Bytes) (k : UInt32)
    (hr : ((Op.receive payload).run E A c s).result = .ok (.user (.sessionStarted k))) :
    ((Op.receive payload).run E A c s).after.status k = some .encrypted := by
  have hi := hist_inv hh
  rw [Op.run, perform_result] at hr
  simp only [Res.pure_def, Res.bind_eq_ok, Res.ok.injEq, Answer.user.injEq] at hr
  obtain ⟨um, hr, rfl⟩ := hr
  rw [Op.run, perform_after]
  rcases told_receive (A := A) (c := c) (w := ⟨s, []⟩) hi payload with ⟨_, h2⟩ | ⟨m, _, _, _, _, _, h6⟩
  · rcases h2 _ hr with h | ⟨t, h⟩ | ⟨t, h⟩ | ⟨t, h⟩ <;> cases h
  · rw [hr] at h6
    have h7 := h6.1
    rw [hi.receiver] at h7
    subst h7
    exact status_of_inst h6.2 nofun

/-- The hypotheses of `C21_started` hold when the last message of an exchange arrives. -/
example : (∃ h, Hist ToySession.tinyEnv ToySession.acA h ToySession.a2.after) ∧
    ToySession.a4 = (Op.receive (ToySession.msg ToySession.b3)).run ToySession.tinyEnv ToySession.acA (ToySession.callA 1000 4) ToySession.a2.after ∧
    ToySession.a4.result = .ok (.user (.sessionStarted 0x102)) ∧ (∃ x, ToySession.a4.after.ssid 0x102 = .ok x) ∧
    ∀ x, ToySession.a2.after.ssid 0x102 ≠ .ok x := by
  refine ⟨ToySession.hist_a2, by unfold ToySession.a4; rfl, ToySession.a4_result, (ssid_iff _ _).mpr ToySession.status_a4, fun x h => ?_⟩
  have := (ssid_iff _ _).mp ⟨x, h⟩
  rw [ToySession.status_a2] at this
  cases this

/-! ## C22 -/

theorem inject_run {A : Account} {c : Call} {rnd : Rand} {v : Version} {k : UInt32} {m : EncodedMessageType} {i : Instance}
    {sent : List Bytes} (hk : i.receiver = k) :
    (Instance.inject A c rnd v k m ⟨i, sent⟩).1 = .panic ∨
      ∃ out, Instance.inject A c rnd v k m ⟨i, sent⟩ = (.ok (), ⟨i, sent ++ out⟩) ∧ InTransit A c ⟨v, A.tag, k, m⟩ out := by
  subst hk
  have ha : (i.receiver != 0 && i.receiver == 0 || i.receiver == i.receiver) = true := by simp
  have h0 : Instance.inject A c rnd v i.receiver m ⟨i, sent⟩ = match encodeMessage v A.tag i.receiver m with
      | .ok content => match Instance.payloads A c v i.receiver rnd content with
        | .ok out => (.ok (), ⟨i, sent ++ out⟩)
        | .err e => (.err e, ⟨i, sent⟩)
        | .panic => (.panic, ⟨i, sent⟩)
      | .err e => (.err e, ⟨i, sent⟩)
      | .panic => (.panic, ⟨i, sent⟩) := by
    simp only [Instance.inject, StM.bind_run, StM.gets, StM.lift, ha, Res.assert, if_true]
    cases encodeMessage v A.tag i.receiver m with
    | ok content =>
      simp only
      cases Instance.payloads A c v i.receiver rnd content <;> rfl
    | err e => rfl
    | panic => rfl
  rw [h0]
  have n1 := Res.NoErr.encodeMessage v A.tag i.receiver m
  cases h1 : encodeMessage v A.tag i.receiver m with
  | err e => exact absurd h1 (n1 e)
  | panic => exact .inl rfl
  | ok content =>
    have n2 := Res.NoErr.payloads A c v i.receiver rnd content
    simp only
    cases h2 : Instance.payloads A c v i.receiver rnd content with
    | err e => exact absurd h2 (n2 e)
    | panic => exact .inl rfl
    | ok out => exact .inr ⟨out, rfl, payloads_inTransit h1 h2⟩

theorem finish_encrypted {E : Env} {c : Call} {rnd : Rand} {s : PState} (h : s.status = .encrypted) :
    (s.finish E rnd c.now).1 = .panic ∨
      ∃ m, s.finish E rnd c.now = (.ok (some m), .plaintext) ∧ Disconnects E c s m := by
  cases s with
  | plaintext => cases h
  | finished => cases h
  | encrypted3 x smp =>
    have hn := StM.NoErr.enc3 E IGNORE_UNREADABLE disconnectPlain x
    rw [PState.finish]
    cases hx : Enc3.encrypt E IGNORE_UNREADABLE disconnectPlain x with
    | mk r x' =>
      rw [hx] at hn
      cases r with
      | ok d => exact .inr ⟨_, rfl, .inl ⟨x, x', smp, d, rfl, rfl, hx⟩⟩
      | err e => exact absurd rfl (hn e)
      | panic => exact .inl rfl
  | encrypted4 x smp =>
    have hn := StM.NoErr.disconnect E rnd c.now x
    rw [PState.finish]
    cases hx : Enc4.disconnect E rnd c.now x with
    | mk r x' =>
      rw [hx] at hn
      cases r with
      | ok d =>
        refine .inr ⟨_, rfl, .inr ?_⟩
        unfold Enc4.disconnect Enc4.onRatchet at hx
        split at hx
        · rename_i a d' he
          cases hx
          exact ⟨x, smp, d, d', rnd, rfl, rfl, he⟩
        all_goals cases hx
      | err e => exact absurd rfl (hn e)
      | panic => exact .inl rfl

/-- C22: ending an encrypted session injects one disconnect message, whole or in fragments, and leaves the instance in
plaintext.  Nothing else changes.  The alternative is a panic. -/
theorem C22_end_encrypted (E : Env) (A : Account) (h : List Ev) (s : Session) (hh : Hist E A h s) (c : Call) (k : UInt32)
    (hs : s.status k = some .encrypted) :
    let e := (Op.close k).run E A c s
    e.result = .panic ∨ ∃ i m, lookup s.instances k = some i ∧ e.result = .ok (.user (.reset k)) ∧
      e.after = { s with instances := insertKey s.instances k { i with state := .plaintext } } ∧ e.after.status k = some .plaintext ∧
      Disconnects E c i.state m ∧ InTransit A c ⟨i.state.version, A.tag, k, m⟩ e.sent := by
  obtain ⟨i, hl, hi⟩ := status_lookup hs
  have hrec : i.receiver = k := by rw [← (hist_inv hh).receiver k, inst_of_lookup hl]
  simp only [Op.run, perform, close, existing, hl, entry, Option.getD_some, Instance.reset, StM.bind_run, StM.gets, Instance.onState]
  rcases finish_encrypted (E := E) (c := c) (rnd := c.rnd.sub 0) (s := i.state) hi with hp | ⟨m, hp, hd⟩
  · left
    cases hx : i.state.finish E (c.rnd.sub 0) c.now with
    | mk r x =>
      rw [hx] at hp
      simp only at hp
      subst hp
      rfl
  · rw [hp]
    have hne : ¬ (i.status = Instance.status { i with state := .plaintext }) := by rw [hi]; nofun
    simp only [if_neg hne, StM.bind_run]
    rcases inject_run (A := A) (c := c) (rnd := c.rnd.sub 1) (v := i.state.version) (k := k) (m := m)
      (i := { i with state := .plaintext }) (sent := []) hrec with hx | ⟨out, hx, ht⟩
    · left
      cases hy : Instance.inject A c (c.rnd.sub 1) i.state.version i.receiver m ⟨{ i with state := .plaintext }, []⟩ with
      | mk r w =>
        rw [← hrec, hy] at hx
        simp only at hx
        subst hx
        rfl
    · right
      rw [← hrec] at hx
      rw [hx]
      refine ⟨i, m, rfl, ?_, rfl, ?_, hd, ht⟩
      · simp only [StM.pure_run, hrec]
      · simp only [StM.pure_run, Session.status, lookup_insertKey, if_true, Option.map_some]
        rfl

/-- C22: ending a session that is not encrypted sends nothing and leaves the instance in plaintext. -/
theorem C22_end_other (E : Env) (A : Account) (h : List Ev) (s : Session) (hh : Hist E A h s) (c : Call) (k : UInt32) :
    (s.status k = some .plaintext → (Op.close k).run E A c s = ⟨.ok (.user .none), s, []⟩) ∧
    (s.status k = some .finished → ∃ i, lookup s.instances k = some i ∧
      (Op.close k).run E A c s =
        ⟨.ok (.user (.reset k)), { s with instances := insertKey s.instances k { i with state := .plaintext } }, []⟩) ∧
    (s.status k = .none → (Op.close k).run E A c s = ⟨.err (.unknownInstance k), s, []⟩) := by
  refine ⟨fun hs => ?_, fun hs => ?_, fun hs => ?_⟩
  · obtain ⟨i, hl, hi⟩ := status_lookup hs
    have hst := state_plaintext hi
    simp only [Op.run, perform, close, existing, hl, entry, Option.getD_some, Instance.reset, StM.bind_run, StM.gets, Instance.onState,
      hst, PState.finish, Instance.status, if_true, StM.lift, Option.isNone, Res.assert, StM.pure_run]
    rw [show ({ i with state := .plaintext } : Instance) = i by rw [← hst], insertKey_same hl]
  · obtain ⟨i, hl, hi⟩ := status_lookup hs
    have hst := state_finished hi
    have hrec : i.receiver = k := by rw [← (hist_inv hh).receiver k, inst_of_lookup hl]
    refine ⟨i, hl, ?_⟩
    have hne : ¬ (PState.finished.status = PState.plaintext.status) := nofun
    simp only [Op.run, perform, close, existing, hl, entry, Option.getD_some, Instance.reset, StM.bind_run, StM.gets, Instance.onState,
      hst, PState.finish, Instance.status, if_neg hne, StM.pure_run, hrec]
  · have hl : lookup s.instances k = .none := by
      simpa [Session.status] using hs
    simp only [Op.run, perform, close, existing, hl]

theorem _root_.Otrr.Spec.Decrypts.addressed {E : Env} {A : Account} {c : Call} {m : EncodedMessage} {s : PState} {msg : PMessage}
    (hd : Decrypts E c m s msg) (hv : verifyHeader A m = .ok ()) : m.receiver = A.tag := by
  refine header_addressed hv (fun d h => ?_) fun d h => ?_ <;>
    rcases hd with ⟨_, _, _, _, _, _, _, hm, _⟩ | ⟨_, _, _, _, _, _, _, hm, _⟩ <;> rw [hm] at h <;> cases h

theorem _root_.Otrr.Spec.Decrypts.found {E : Env} {c : Call} {m : EncodedMessage} {s : Session} {k : UInt32} {msg : PMessage}
    (hd : Decrypts E c m (s.inst k).state msg) : ∃ i, lookup s.instances k = some i ∧ Decrypts E c m i.state msg := by
  unfold inst at hd
  cases hl : lookup s.instances k with
  | some i => rw [hl] at hd; exact ⟨i, rfl, hd⟩
  | none =>
    rw [hl] at hd
    rcases hd with ⟨_, _, _, _, _, hs, _⟩ | ⟨_, _, _, _, _, hs, _⟩ <;> cases hs

theorem delivers_parse {E : Env} {A : Account} {s : Session} {payload : Bytes} {m : EncodedMessage} (h : Delivers E A s payload m) :
    ∃ text, parse E text = .ok (.encoded m) := by
  rcases h with ⟨_, h⟩ | ⟨_, _, _, content, _, _, _, _, _, _, _, h⟩ <;> exact ⟨_, h⟩

theorem header_ok {E : Env} {A : Account} {text : Bytes} {m : EncodedMessage} (hp : parse E text = .ok (.encoded m))
    (hs : m.sender ≠ 0) (hr : m.receiver = A.tag) (ht : A.tag ≠ 0) : verifyHeader A m = .ok () := by
  obtain ⟨h1, _, h3, h4⟩ := C13_header E text m hp
  unfold verifyHeader
  rcases h1 with h1 | h1 <;>
    simp [h1, verifyTag_valid h3, verifyTag_valid (hr ▸ h4), Res.mapErr, Res.guard, INSTANCE_ZERO, hs, hr, ht]

theorem allowed_iff {A : Account} {m : EncodedMessage} (hv : m.version = .v3 ∧ AllowsV3 A ∨ m.version = .v4 ∧ AllowsV4 A) :
    allowed A m.version = true ∧ disabled A = false ∧ (m.version = .v3 ∨ m.version = .v4) := by
  rcases hv with ⟨h1, h2⟩ | ⟨h1, h2⟩ <;> rw [h1]
  · exact ⟨(allowsV3_iff A).mpr h2, not_disabled (.inl h2), .inl rfl⟩
  · exact ⟨(allowsV4_iff A).mpr h2, not_disabled (.inr h2), .inr rfl⟩

/-- A data message for this client is processed by the instance of its sender. -/
theorem data_run {E : Env} {A : Account} {c : Call} {s : Session} (hi : Inv E s) {payload : Bytes} {m : EncodedMessage} {i : Instance} {msg : PMessage}
    (hd : Delivers E A s payload m) (hv : m.version = .v3 ∧ AllowsV3 A ∨ m.version = .v4 ∧ AllowsV4 A)
    (hs : m.sender ≠ 0) (hr : m.receiver = A.tag) (ht : A.tag ≠ 0) (hl : lookup s.instances m.sender = some i)
    (hdec : Decrypts E c m i.state msg) :
    ∃ (i' : Instance) (fl : UInt8) (s1 : Session) (x : Res UserMessage × World Instance), Instance.Next msg i.state i'.state ∧ i'.receiver = m.sender ∧
      x = Instance.handleDecrypted E A c m.version m.sender fl (.ok msg) ⟨i', []⟩ ∧
      receive E A c payload ⟨s, []⟩ =
        (x.1, ⟨({ s1 with instances := insertKey s1.instances m.sender x.2.st } : Session), x.2.sent⟩) := by
  obtain ⟨h1, h2, h3⟩ := allowed_iff hv
  obtain ⟨text, hp⟩ := delivers_parse hd
  obtain ⟨s1, hk, _, hrun⟩ := deliver_run (c := c) h2 hd hs
  have hmm : (∀ d, m.message ≠ .dhKey d) ∧ ∀ d, m.message ≠ .authR d := by
    constructor <;> intro d h <;>
      rcases hdec with ⟨_, _, _, _, _, _, _, hm, _⟩ | ⟨_, _, _, _, _, _, _, hm, _⟩ <;> rw [hm] at h <;> cases h
  obtain ⟨i1, hi1, hrun1⟩ := encoded_run (E := E) (c := c) (s := s1) (sent := []) (header_ok hp hs hr ht) h1 hmm.1 hmm.2 h3
  have hsame := Instance.same_pre.trans (hk.each m.sender).same hi1.same
  rw [inst_of_lookup hl] at hsame
  obtain ⟨s', fl, hn, hx⟩ := Instance.process_decrypts (A := A) (i := i1) (by rw [hsame.1]; exact hdec) []
  refine ⟨{ i1 with state := s' }, fl, s1, _, by rw [← hsame.1]; exact hn, ?_, rfl, ?_⟩
  · show i1.receiver = _
    rw [hsame.2, ← inst_of_lookup hl, hi.receiver]
  · rw [hrun, hrun1, hx]

/-- C22: an authentic message with a disconnect TLV, from the peer for this client, finishes the session, and that is
reported. -/
theorem C22_disconnect (E : Env) (A : Account) (h : List Ev) (s : Session) (hh : Hist E A h s) (c : Call) (payload : Bytes) (m : EncodedMessage)
    (i : Instance) (content : Bytes) (hd : Delivers E A s payload m)
    (hv : m.version = .v3 ∧ AllowsV3 A ∨ m.version = .v4 ∧ AllowsV4 A) (hs : m.sender ≠ 0) (hr : m.receiver = A.tag) (ht : A.tag ≠ 0)
    (hl : lookup s.instances m.sender = some i) (hdec : Decrypts E c m i.state (.confidentialFinished content)) :
    let e := (Op.receive payload).run E A c s
    e.result = .ok (.user (.sessionFinished m.sender content)) ∧ e.after.status m.sender = some .finished ∧ e.sent = [] := by
  obtain ⟨i', fl, s1, x, hn, hrc, rfl, hx⟩ := data_run (hist_inv hh) hd hv hs hr ht hl hdec
  simp only [Op.run, perform, hx, Instance.handleDecrypted, StM.bind_run, StM.gets, StM.pure_run, hrc, status, lookup_insertKey,
    if_true, Option.map_some, Instance.status, true_and, and_true]
  simp only [Instance.Next] at hn
  rw [hn]
  rfl

/-- C22: an instance becomes finished only in `expire`, or when `receive` gets an authentic data message from that peer, for
this client, with a disconnect TLV; the call reports that the session finished. -/
theorem C22_finished (E : Env) (A : Account) (h : List Ev) (s : Session) (hh : Hist E A h s) (c : Call) (op : Op) (k : UInt32)
    (h1 : (op.run E A c s).after.status k = some .finished) (h2 : s.status k ≠ some .finished) :
    (∃ t, op = .expire t) ∨
    ∃ payload m content, op = .receive payload ∧ Delivers E A s payload m ∧ m.sender = k ∧
      m.receiver = A.tag ∧ (∃ i, lookup s.instances k = some i ∧ Decrypts E c m i.state (.confidentialFinished content)) ∧
      (op.run E A c s).result = .ok (.user (.sessionFinished k content)) := by
  have hi := hist_inv hh
  have f1 : ((op.run E A c s).after.inst k).state = .finished := state_finished (status_inst h1)
  have f2 : (s.inst k).state ≠ .finished := fun h => h2 (status_of_inst (by rw [h]; rfl) nofun)
  have other : (∀ p, op ≠ .receive p) → (∀ t, op ≠ .expire t) → False := fun h h' =>
    f2 (((nf_run (E := E) (A := A) (c := c) h h').each k).1 f1)
  cases op with
  | expire t => exact .inl ⟨t, rfl⟩
  | receive payload =>
    right
    rw [Op.run, perform_after] at f1
    rcases told_receive (A := A) (c := c) (w := ⟨s, []⟩) hi payload with ⟨h3, _⟩ | ⟨m, hd, hver, _, _, h5, h6⟩
    · exact absurd ((h3.each k).1.symm.trans f1) f2
    · have hk : m.sender = k := by
        by_cases hk : k = m.sender
        · exact hk.symm
        · exact absurd ((h5 k hk).1.symm.trans f1) f2
      subst hk
      unfold Instance.Reports at h6
      have fin : ∀ {r : Res UserMessage}, (receive E A c payload ⟨s, []⟩).1 = r →
          ((receive E A c payload ⟨s, []⟩).2.st.inst m.sender).state.status ≠ .encrypted := by
        intro r _ h
        rw [f1] at h
        cases h
      split at h6
      · exact absurd h6.2 (fin rfl)
      · rename_i k content hr
        obtain ⟨hk, hdec, _⟩ := h6
        rw [hi.receiver] at hk
        refine ⟨payload, m, content, rfl, hd, rfl, hdec.addressed hver, hdec.found, ?_⟩
        rw [Op.run, perform_result, hr, hk]
        rfl
      · exact absurd h6.2.2.2 (fin rfl)
      · rename_i hr
        obtain ⟨_, _, _, _, _, h7⟩ := h6
        rw [f1] at h7
        cases hv : m.version <;> rw [hv] at h7 <;> cases h7
      · obtain ⟨_, _, _, _, _, h7⟩ := h6
        rw [f1] at h7
        cases hv : m.version <;> rw [hv] at h7 <;> cases h7
      · exact absurd (h6 f1) f2
      · exact absurd (h6 f1) f2
      · exact absurd (h6 f1) f2
      · exact h6.elim
  | _ => exact absurd (other (by intro p h; cases h) (by intro p h; cases h)) id

/-- C22: a report that a session finished tells the truth. -/
theorem C22_reported (E : Env) (A : Account) (h : List Ev) (s : Session) (hh : Hist E A h s) (c : Call) (payload : Bytes) (k : UInt32)
    (content : Bytes) (hr : ((Op.receive payload).run E A c s).result = .ok (.user (.sessionFinished k content))) :
    ((Op.receive payload).run E A c s).after.status k = some .finished := by
  have hi := hist_inv hh
  rw [Op.run, perform_result] at hr
  simp only [Res.pure_def, Res.bind_eq_ok, Res.ok.injEq, Answer.user.injEq] at hr
  obtain ⟨um, hr, rfl⟩ := hr
  rw [Op.run, perform_after]
  rcases told_receive (A := A) (c := c) (w := ⟨s, []⟩) hi payload with ⟨_, h2⟩ | ⟨m, _, _, _, _, _, h6⟩
  · rcases h2 _ hr with h | ⟨t, h⟩ | ⟨t, h⟩ | ⟨t, h⟩ <;> cases h
  · rw [hr] at h6
    have h7 := h6.1
    rw [hi.receiver] at h7
    subst h7
    exact status_of_inst (by rw [h6.2.2]; rfl) nofun

/-- An encrypted session that is ended (`C22_end_encrypted`), and the disconnect message that arrives at the other client
(`C22_finished`, `C22_reported`). -/
example : (∃ h, Hist ToySession.tinyEnv ToySession.acA h ToySession.a4.after) ∧ ToySession.a4.after.status 0x102 = some .encrypted ∧
    ((Op.close 0x102).run ToySession.tinyEnv ToySession.acA (ToySession.callA 1000 8) ToySession.a4.after).result = .ok (.user (.reset 0x102)) ∧
    ToySession.a8.sent.length = 1 ∧
    (∃ h, Hist ToySession.tinyEnv ToySession.acB h ToySession.b5.after) ∧ ToySession.b5.after.status 0x100 = some .encrypted ∧
    ((Op.receive (ToySession.msg ToySession.a8)).run ToySession.tinyEnv ToySession.acB (ToySession.callB 1000 9) ToySession.b5.after).result =
      .ok (.user (.sessionFinished 0x100 [])) ∧
    ToySession.b9.after.status 0x100 = some .finished := by
  have h := ToySession.runC
  refine ⟨ToySession.hist_a4, ToySession.status_a4, ?_, h.2.1, ToySession.hist_b5, ToySession.status_b5, ?_, h.2.2.2.2.2.1⟩
  · have := h.1; unfold ToySession.a8 at this; exact this
  · have := h.2.2.1; unfold ToySession.b9 at this; exact this

/-- The hypotheses of `C22_disconnect` hold there. -/
example : ∃ m i, Delivers ToySession.tinyEnv ToySession.acB ToySession.b5.after (ToySession.msg ToySession.a8) m ∧ m.sender = 0x100 ∧
    m.receiver = ToySession.acB.tag ∧ lookup ToySession.b5.after.instances 0x100 = some i ∧
    Decrypts ToySession.tinyEnv (ToySession.callB 1000 9) m i.state (.confidentialFinished []) := by
  obtain ⟨h, hh⟩ := ToySession.hist_b5
  have h1 := ToySession.runC.2.2.2.2.2.1
  have h2 := ToySession.runC.2.2.1
  unfold ToySession.b9 at h1 h2
  rcases C22_finished _ _ h _ hh _ _ _ h1 (by rw [ToySession.status_b5]; nofun) with ⟨t, ht⟩ | ⟨p, m, content, ho, hd, hs, hr, ⟨i, hl, hdec⟩, hres⟩
  · cases ht
  · cases ho
    rw [h2] at hres
    cases hres
    exact ⟨m, i, hd, hs, hr, hl, hdec⟩

/-! ## C23 -/

theorem old_iff {t now : Nat} {x : Enc4} : Enc4.expired t now x = true ↔ t * 1000000000 ≤ now - x.ratchet.created := by
  rw [Enc4.expired, Bool.not_eq_true', decide_eq_false_iff_not, Nat.not_lt, Nat.le_div_iff_mul_le (by decide)]

/-- One step of `expire`. -/
theorem expire_step {E : Env} {A : Account} {c : Call} {rnd : Rand} {t : Nat} {k : UInt32} {i : Instance} {sent : List Bytes}
    (hk : i.receiver = k) :
    (¬ Old t c.now i ∧ Instance.expire E A c rnd t ⟨i, sent⟩ = (.ok (), ⟨i, sent⟩)) ∨
    (Old t c.now i ∧ ((Instance.expire E A c rnd t ⟨i, sent⟩).1 = .panic ∨
      ∃ m out, Disconnects E c i.state m ∧ InTransit A c ⟨.v4, A.tag, k, m⟩ out ∧
        Instance.expire E A c rnd t ⟨i, sent⟩ = (.ok (), ⟨{ i with state := .finished }, sent ++ out⟩))) := by
  have young : ∀ {s : PState}, i.state = s → (∀ r, s.expire E t r c.now = (.ok .none, s)) →
      Instance.expire E A c rnd t ⟨i, sent⟩ = (.ok (), ⟨i, sent⟩) := by
    intro s hs h
    simp only [Instance.expire, StM.bind_run, StM.gets, Instance.onState, hs, h, StM.pure_run]
    rw [← hs]
  cases hs : i.state with
  | plaintext => exact .inl ⟨(by rintro ⟨_, _, h, _⟩; rw [hs] at h; cases h), young hs fun _ => rfl⟩
  | finished => exact .inl ⟨(by rintro ⟨_, _, h, _⟩; rw [hs] at h; cases h), young hs fun _ => rfl⟩
  | encrypted3 x smp => exact .inl ⟨(by rintro ⟨_, _, h, _⟩; rw [hs] at h; cases h), young hs fun _ => rfl⟩
  | encrypted4 x smp =>
    by_cases ho : Enc4.expired t c.now x = true
    · refine .inr ⟨⟨x, smp, hs, old_iff.mp ho⟩, ?_⟩
      have hf := finish_encrypted (E := E) (c := c) (rnd := rnd.sub 0) (s := i.state) (by rw [hs]; rfl)
      rw [hs] at hf
      simp only [PState.finish] at hf
      simp only [Instance.expire, StM.bind_run, StM.gets, Instance.onState, hs, PState.expire, ho, if_true]
      cases hd : Enc4.disconnect E (rnd.sub 0) c.now x with
      | mk r x' =>
        rw [hd] at hf
        cases r with
        | panic => exact .inl rfl
        | err e =>
          rcases hf with h | ⟨_, h, _⟩ <;> cases h
        | ok d =>
          rcases hf with h | ⟨m, h, hdis⟩
          · cases h
          · cases h
            simp only
            rcases inject_run (A := A) (c := c) (rnd := rnd.sub 1) (v := .v4) (k := k) (m := .data4 d)
              (i := { i with state := .finished }) (sent := sent) hk with hx | ⟨out, hx, ht⟩
            · exact .inl (by rw [← hk] at hx; exact hx)
            · exact .inr ⟨_, out, hdis, ht, by rw [← hk] at hx; exact hx⟩
    · refine .inl ⟨?_, young hs fun r => if_neg ho⟩
      rintro ⟨y, smp', h, hold⟩
      rw [hs] at h
      cases h
      exact ho (old_iff.mpr hold)

theorem expireAll_run {E : Env} {A : Account} {c : Call} {t : Nat} (l : List (UInt32 × Instance)) :
    ∀ (n : Nat) (s : Session) (sent : List Bytes), (l.map Prod.fst).Nodup →
      (∀ k i, (k, i) ∈ l → lookup s.instances k = some i ∧ i.receiver = k) →
      (expireAll E A c t n (l.map Prod.fst) ⟨s, sent⟩).1 = .panic ∨
      ∃ s' out, expireAll E A c t n (l.map Prod.fst) ⟨s, sent⟩ = (.ok (), ⟨s', sent ++ out⟩) ∧ Farewells E A c t l out ∧
        s'.tagged = s.tagged ∧
        (∀ k i, (k, i) ∈ l → (Old t c.now i → lookup s'.instances k = some { i with state := .finished }) ∧
          (¬ Old t c.now i → lookup s'.instances k = some i)) ∧
        ∀ k, k ∉ l.map Prod.fst → lookup s'.instances k = lookup s.instances k := by
  induction l with
  | nil =>
    intro n s sent _ _
    exact .inr ⟨s, [], by rw [List.append_nil]; rfl, .nil, rfl, nofun, fun _ _ => rfl⟩
  | cons e l ih =>
    obtain ⟨k, i⟩ := e
    intro n s sent hn hl
    rw [List.map_cons, List.nodup_cons] at hn
    obtain ⟨hk, hr⟩ := hl k i List.mem_cons_self
    have hrest : ∀ j : Instance, ∀ k' i', (k', i') ∈ l → lookup (insertKey s.instances k j) k' = some i' ∧ i'.receiver = k' := by
      intro j k' i' hm
      have hne : k' ≠ k := by
        rintro rfl
        exact hn.1 (List.mem_map.mpr ⟨_, hm, rfl⟩)
      obtain ⟨h1, h2⟩ := hl k' i' (List.mem_cons_of_mem _ hm)
      exact ⟨by simp [hne.symm, h1], h2⟩
    simp only [List.map_cons, expireAll, StM.bind_run, existing, hk, entry, Option.getD_some]
    -- the rest of the loop, after the first instance became `j` and `o` was sent
    have rest : ∀ (j : Instance) (o : List Bytes),
        Instance.expire E A c (c.rnd.sub n) t ⟨i, sent⟩ = (.ok (), ⟨j, sent ++ o⟩) →
        (Old t c.now i → j = { i with state := .finished }) → (¬ Old t c.now i → j = i) →
        (∀ out, Farewells E A c t l out → Farewells E A c t ((k, i) :: l) (o ++ out)) →
        (expireAll E A c t (n + 1) (l.map Prod.fst) ⟨{ s with instances := insertKey s.instances k j }, sent ++ o⟩).1 = .panic ∨
        ∃ s' out, expireAll E A c t (n + 1) (l.map Prod.fst) ⟨{ s with instances := insertKey s.instances k j }, sent ++ o⟩ =
            (.ok (), ⟨s', sent ++ out⟩) ∧ Farewells E A c t ((k, i) :: l) out ∧
          s'.tagged = s.tagged ∧
          (∀ k' i', (k', i') ∈ (k, i) :: l → (Old t c.now i' → lookup s'.instances k' = some { i' with state := .finished }) ∧
            (¬ Old t c.now i' → lookup s'.instances k' = some i')) ∧
          ∀ k', k' ∉ k :: l.map Prod.fst → lookup s'.instances k' = lookup s.instances k' := by
      intro j o _ h1 h2 h3
      rcases ih (n + 1) { s with instances := insertKey s.instances k j } (sent ++ o) hn.2 (hrest j) with hp | ⟨s', out, hx, hf, ht, ha, hb⟩
      · exact .inl hp
      · have hkey : lookup s'.instances k = some j := by rw [hb k hn.1]; simp
        refine .inr ⟨s', o ++ out, by rw [hx, List.append_assoc], h3 out hf, ht, fun k' i' hm => ?_, fun k' hm => ?_⟩
        · rcases List.mem_cons.mp hm with hm | hm
          · cases hm
            exact ⟨fun h => by rw [hkey, h1 h], fun h => by rw [hkey, h2 h]⟩
          · exact ha k' i' hm
        · rw [List.mem_cons, not_or] at hm
          rw [hb k' hm.2]
          simp [Ne.symm hm.1]
    rcases expire_step (E := E) (A := A) (c := c) (rnd := c.rnd.sub n) (t := t) (sent := sent) hr with ⟨ho, hx⟩ | ⟨ho, hx | ⟨m, o, hd, ht, hx⟩⟩
    · have := rest i [] (by rw [hx, List.append_nil]) (fun h => absurd h ho) (fun _ => rfl) fun out h => .young ho h
      rw [List.append_nil] at this
      rw [hx]
      exact this
    · left
      cases hy : Instance.expire E A c (c.rnd.sub n) t ⟨i, sent⟩ with
      | mk r w =>
        rw [hy] at hx
        simp only at hx
        subst hx
        rfl
    · have := rest _ o hx (fun _ => rfl) (fun h => absurd ho h) fun out h => .old ho hd ht h
      rw [hx]
      exact this

/-- C23: `expire` finishes the OTRv4 sessions that are as old as the timeout, after one disconnect message for each of them.
All other instances stay as they are, and nothing else is sent.  The alternative is a panic. -/
theorem C23_expire (E : Env) (A : Account) (h : List Ev) (s : Session) (hh : Hist E A h s) (c : Call) (t : Nat) :
    let e := (Op.expire t).run E A c s
    e.result = .panic ∨ e.result = .ok .done ∧ Farewells E A c t s.instances e.sent ∧ e.after.tagged = s.tagged ∧
      ∀ k, match lookup s.instances k with
        | .none => lookup e.after.instances k = .none
        | some i => (Old t c.now i → lookup e.after.instances k = some { i with state := .finished }) ∧
            (¬ Old t c.now i → lookup e.after.instances k = some i) := by
  have hi := hist_inv hh
  have hl : ∀ k i, (k, i) ∈ s.instances → lookup s.instances k = some i ∧ i.receiver = k := by
    intro k i hm
    have := lookup_of_mem hi.nodup hm
    exact ⟨this, by rw [← hi.receiver k, inst_of_lookup this]⟩
  simp only [Op.run, perform, Session.expire, StM.bind_run, StM.gets]
  rcases expireAll_run (E := E) (A := A) (c := c) (t := t) s.instances 0 s [] hi.nodup hl with hp | ⟨s', out, hx, hf, ht, ha, hb⟩
  · left
    cases hy : expireAll E A c t 0 (s.instances.map Prod.fst) ⟨s, []⟩ with
    | mk r w =>
      rw [hy] at hp
      simp only at hp
      subst hp
      rfl
  · right
    rw [hx]
    refine ⟨rfl, hf, ht, fun k => ?_⟩
    cases hk : lookup s.instances k with
    | some i => exact ha k i (lookup_mem hk)
    | none =>
      refine (hb k ?_).trans hk
      intro hm
      have := (lookup_isSome_iff _ _).mpr hm
      rw [hk] at this
      cases this

/-- The session is finished after the timeout of 0 seconds, and not with a timeout of 1 second. -/
example : (∃ h, Hist ToySession.tinyEnv ToySession.acB h ToySession.d3.after) ∧ ToySession.d3.after.status 0x100 = some .encrypted ∧
    (let e := (Op.expire 0).run ToySession.tinyEnv ToySession.acB (ToySession.callB 1000 8) ToySession.d3.after
    e.result = .ok .done ∧ e.sent.length = 1 ∧ e.after.status 0x100 = some .finished) ∧
    (let e := (Op.expire 1).run ToySession.tinyEnv ToySession.acB (ToySession.callB 1000 8) ToySession.d3.after
    e.result = .ok .done ∧ e.sent = [] ∧ e.after.status 0x100 = some .encrypted) := by
  have h := ToySession.runX
  unfold ToySession.x0 ToySession.x1 at h
  exact ⟨ToySession.hist_d3, ToySession.status_d3, ⟨h.1, h.2.1, h.2.2.1⟩, h.2.2.2⟩

end Otrr.Props
