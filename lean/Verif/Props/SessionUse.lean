import Verif.Lemmas.SessionOffer
import Verif.Props.Data4
import Verif.Props.Ake
/-! C24 to C27, C48, C70: what sessions send and report. -/

namespace Otrr
open Otrr.Spec
variable {E : Env} {A : Account} {c : Call}

namespace Session

/-- The flag of the whitespace tag is the same before and after. -/
def SameTag (s s' : Session) : Prop := s'.tagged = s.tagged

theorem tag_pre : Pre SameTag := ⟨fun _ => rfl, fun h h' => h'.trans h⟩

theorem tag_entry (k : UInt32) (f : InstM α) : Keeps SameTag (entry k f) := fun _ => rfl

theorem tag_existing (k : UInt32) (f : InstM α) : Keeps SameTag (existing k f) := by
  intro w
  unfold existing
  split
  · rfl
  · exact tag_entry k f w

theorem tag_query : Keeps SameTag (query A) := by
  have hR := tag_pre
  unfold query
  exact .ite (.lift hR _) (.bind hR (.lift hR _) fun _ => .emit hR _)

theorem tag_reportPlain (content : Bytes) : Keeps SameTag (reportPlain A content) := by
  have hR := tag_pre
  exact .bind hR (.query hR _) fun _ => .ite (.pure hR _) (.pure hR _)

theorem tag_answerOffer (vs : List Version) : Keeps SameTag (answerOffer E A c vs) := by
  have hR := tag_pre
  unfold answerOffer
  split
  · exact .bind hR (tag_entry _ _) fun _ => .pure hR _
  · exact .pure hR _

theorem tag_receiveEncoded (m : EncodedMessage) : Keeps SameTag (receiveEncoded E A c m) := by
  have hR := tag_pre
  exact .bind hR (.lift hR _) fun _ => .ite (.pure hR _) (.bind hR (.query hR _) fun _ => tag_entry _ _)

theorem tag_receiveWhole (payload : Bytes) : Keeps SameTag (receiveWhole E A c payload) := by
  have hR := tag_pre
  refine .bind hR (.lift hR _) fun x => ?_
  cases x with
  | error e => exact .ite (.bind hR tag_query fun _ => .pure hR _) (.pure hR _)
  | plaintext t => exact tag_reportPlain t
  | tagged vs t => exact .ite (.bind hR (tag_answerOffer vs) fun _ => tag_reportPlain t) (tag_reportPlain t)
  | query vs => exact .bind hR (tag_answerOffer vs) fun _ => .pure hR _
  | encoded m => exact .ite (.pure hR _) (tag_receiveEncoded m)

theorem tag_receive (payload : Bytes) : Keeps SameTag (receive E A c payload) := by
  have hR := tag_pre
  refine .ite (.pure hR _) (.ite (.bind hR (.lift hR _) fun o => ?_) (tag_receiveWhole payload))
  cases o with
  | none => exact .pure hR _
  | some f =>
    refine .bind hR (.lift hR _) fun _ => .bind hR (.lift hR _) fun _ => .bind hR (tag_entry _ _) fun r => ?_
    cases r with
    | ok t => exact .ite (.lift hR _) (tag_receiveWhole t)
    | err e => cases e <;> exact .lift hR _
    | panic => exact .lift hR _

theorem tag_expireAll (t n : Nat) (ks : List UInt32) : Keeps SameTag (expireAll E A c t n ks) := by
  induction ks generalizing n with
  | nil => exact .pure tag_pre _
  | cons k ks ih => exact .bind tag_pre (tag_existing k _) fun _ => ih _

/-- Only `send` touches the flag. -/
theorem tag_run {s : Session} {op : Op} (h : ∀ k t, op ≠ .send k t) : (op.run E A c s).after.tagged = s.tagged := by
  cases op with
  | receive p => rw [Op.run, perform_after]; exact tag_receive p ⟨s, []⟩
  | send k content => exact absurd rfl (h k content)
  | initiate v k => rw [Op.run, perform_after]; exact tag_entry k _ ⟨s, []⟩
  | close k => rw [Op.run, perform_after]; exact tag_existing k _ ⟨s, []⟩
  | query => rw [Op.run, perform_after]; exact tag_query ⟨s, []⟩
  | startSmp k secret q => rw [Op.run, perform_after]; exact tag_existing k _ ⟨s, []⟩
  | abortSmp k => rw [Op.run, perform_after]; exact tag_existing k _ ⟨s, []⟩
  | expire t =>
    rw [Op.run, perform_after]
    exact (Keeps.bind tag_pre (.gets tag_pre _) fun ks => tag_expireAll t 0 ks : Keeps SameTag (expire E A c t)) ⟨s, []⟩

end Session
end Otrr

namespace Otrr.Props
open Otrr Otrr.Spec Otrr.Session

/-! ## C24 -/

/-- The whitespace tag this client sends: that of the highest version its policy allows. -/
def ownTag (A : Account) (t : Bytes) : Prop :=
  AllowsV4 A ∧ TagOf .v4 t ∨ ¬ AllowsV4 A ∧ AllowsV3 A ∧ TagOf .v3 t

theorem ownTag_run {A : Account} (h : SomeVersion A) (msg : Bytes) :
    ∃ t, ownTag A t ∧ serialize (.tagged (filterVersions A.policy SUPPORTED_VERSIONS) msg) = .ok (TAG_MARK ++ t ++ msg) := by
  by_cases h4 : AllowsV4 A
  · refine ⟨_, .inl ⟨h4, rfl⟩, ?_⟩
    have : filterVersions A.policy SUPPORTED_VERSIONS = [.v4] := if_pos ⟨by decide, (allowsV4_iff A).mpr h4⟩
    rw [this]
    rfl
  · have h3 : AllowsV3 A := h.resolve_right h4
    refine ⟨_, .inr ⟨h4, h3, rfl⟩, ?_⟩
    have : filterVersions A.policy SUPPORTED_VERSIONS = [.v3] :=
      (if_neg fun x => h4 ((allowsV4_iff A).mp x.2)).trans (if_pos ⟨by decide, (allowsV3_iff A).mpr h3⟩)
    rw [this]
    rfl

/-- What `send` does on an instance in plaintext. -/
theorem send_plain {E : Env} {A : Account} {c : Call} {s : Session} {k : UInt32} {content : Bytes}
    (hv : SomeVersion A) (hr : ¬ RequiresEncryption A) (hs : s.status k = some .plaintext) :
    (SendsTags A ∧ s.tagged = false → ∃ t, ownTag A t ∧
      (Op.send k content).run E A c s = ⟨.ok (.texts [TAG_MARK ++ t ++ noNul content]), { s with tagged := true }, []⟩) ∧
    (¬ (SendsTags A ∧ s.tagged = false) →
      (Op.send k content).run E A c s = ⟨.ok (.texts [noNul content]), s, []⟩) := by
  obtain ⟨i, hl, hi⟩ := status_lookup hs
  have hst := state_plaintext hi
  have hreq : A.policy.has REQUIRE_ENCRYPTION = false := by
    cases h : A.policy.has REQUIRE_ENCRYPTION with
    | false => rfl
    | true => exact absurd ((requires_iff A).mp h) hr
  have hii : ({ i with state := .plaintext } : Instance) = i := by rw [← hst]
  have hrun : ∀ (x : Res (List Bytes × Bool)), (if A.policy.has SEND_WHITESPACE_TAG ∧ s.tagged = false ∧ filterVersions A.policy SUPPORTED_VERSIONS ≠ [] then
        (do return ([← serialize (.tagged (filterVersions A.policy SUPPORTED_VERSIONS) (noNul content))], true))
      else .ok ([noNul content], s.tagged)) = x →
      Instance.send E A c s.tagged content ⟨i, []⟩ = (x, ⟨i, []⟩) := by
    rintro x rfl
    simp only [Instance.send, StM.bind_run, Instance.onState, hst, PState.prepare, dropByValue_noNul, StM.gets, StM.lift, hi, hii,
      beq_self_eq_true, Res.assert, if_true]
    split
    · simp only [StM.bind_run, StM.lift]
      cases serialize (.tagged (filterVersions A.policy SUPPORTED_VERSIONS) (noNul content)) <;> rfl
    · rfl
  constructor
  · rintro ⟨h1, h2⟩
    obtain ⟨t, ht, hser⟩ := ownTag_run hv (noNul content)
    refine ⟨t, ht, ?_⟩
    have := hrun _ (if_pos ⟨(sendsTags_iff A).mpr h1, h2, (filterVersions_iff A).mpr hv⟩)
    rw [hser] at this
    simp only [Op.run, perform, Session.send, not_disabled hv, Bool.false_eq_true, if_false, StM.bind_run, StM.gets, hs, hreq, false_and, sendOn,
      existing, hl, entry, Option.getD_some, this, insertKey_same hl]
    rfl
  · intro h1
    have := hrun _ (if_neg fun h => h1 ⟨(sendsTags_iff A).mp h.1, h.2.1⟩)
    simp only [Op.run, perform, Session.send, not_disabled hv, Bool.false_eq_true, if_false, StM.bind_run, StM.gets, hs, hreq, false_and, sendOn,
      existing, hl, entry, Option.getD_some, this, insertKey_same hl]
    rfl

/-- The call sent a text with a whitespace tag before its content. -/
def Tags (ev : Ev) : Prop := ∃ k content t, ev.op = .send k content ∧ ev.result = .ok (.texts [TAG_MARK ++ t ++ noNul content])

theorem noNul_append (a b : Bytes) : noNul (a ++ b) = noNul a ++ noNul b := List.filter_append ..

theorem noNul_noNul (a : Bytes) : noNul (noNul a) = noNul a := by simp [noNul]

theorem not_tagged_self (t x : Bytes) : x ≠ TAG_MARK ++ t ++ noNul x := by
  intro h
  have h1 := congrArg noNul h
  rw [noNul_append, noNul_append, noNul_noNul] at h1
  have h2 := congrArg List.length h1
  have h3 : (noNul TAG_MARK).length = 16 := by decide
  simp only [List.length_append, h3] at h2
  omega

theorem encoded_head {m : EncodedMessage} {x : Bytes} (h : serialize (.encoded m) = .ok x) : x.head? = some 0x3f := by
  simp only [serialize, Res.bind_eq_ok, Res.pure_def] at h
  obtain ⟨b, _, h⟩ := h
  cases h
  rfl

theorem fragment_head {f : Fragment} {x : Bytes} (h : encodeFragment f = .ok x) : x.head? = some 0x3f := by
  simp only [encodeFragment, Res.bind_eq_ok, Res.pure_def] at h
  obtain ⟨_, _, _, _, _, _, _, _, _, _, _, _, _, _, _, _, h⟩ := h
  cases h
  rfl

theorem inTransit_head {A : Account} {c : Call} {m : EncodedMessage} {x : Bytes} (h : InTransit A c m [x]) : x.head? = some 0x3f := by
  obtain ⟨text, ht, ⟨_, h⟩ | ⟨_, _, fs, _, _, h⟩⟩ := h
  · cases h; exact encoded_head ht
  · cases fs with
    | nil => cases h
    | cons f fs =>
      rw [List.mapM_cons] at h
      simp only [Res.bind_eq_ok, Res.pure_def] at h
      obtain ⟨y, hy, ys, _, h⟩ := h
      cases h
      exact fragment_head hy

theorem tag_head (t x : Bytes) : (TAG_MARK ++ t ++ x).head? = some 32 := rfl

/-- When the result of `send` has a tag, and what the flag is after `send`. -/
theorem send_tags {E : Env} {A : Account} {h : List Ev} {s : Session} (hh : Hist E A h s) (c : Call) (k : UInt32) (content : Bytes)
    {e : Effect} (he : (Op.send k content).run E A c s = e) (hp : e.result ≠ .panic) :
    (Tags ⟨.send k content, c, e.result, e.sent⟩ → SendsTags A ∧ SomeVersion A ∧ s.status k = some .plaintext ∧ s.tagged = false ∧ e.after.tagged = true) ∧
    (¬ Tags ⟨.send k content, c, e.result, e.sent⟩ → e.after.tagged = s.tagged) := by
  have self : ∀ {x}, e.result = .ok (.texts [x]) → (x = content ∨ x = noNul content) → ¬ Tags ⟨.send k content, c, e.result, e.sent⟩ := by
    rintro x hx hc ⟨k', content', t, ho, hr⟩
    cases ho
    simp only [hx, Res.ok.injEq, Answer.texts.injEq, List.cons.injEq, and_true] at hr
    rcases hc with rfl | rfl
    · exact not_tagged_self _ _ hr
    · refine not_tagged_self t (noNul content) ?_
      rw [noNul_noNul]
      exact hr
  have noText : ∀ {x}, e.result = .err x → ¬ Tags ⟨.send k content, c, e.result, e.sent⟩ := by
    rintro x hx ⟨k', content', t, ho, hr⟩
    simp only [hx, reduceCtorEq] at hr
  by_cases hv : SomeVersion A
  · cases hs : s.status k with
    | none =>
      have hx : (Op.send k content).run E A c s = ⟨.err (.unknownInstance k), s, []⟩ := by
        simp only [Op.run, perform, Session.send, not_disabled hv, Bool.false_eq_true, if_false, StM.bind_run, StM.gets, hs, StM.lift]
      rw [← he, hx] at noText ⊢
      exact ⟨fun h => absurd h (noText rfl), fun _ => rfl⟩
    | some st =>
      cases st with
      | finished =>
        rw [C16_finished E A c s k content hv hs] at he
        subst he
        exact ⟨fun h => absurd h (noText rfl), fun _ => rfl⟩
      | encrypted =>
        rcases C16_encrypted E A h s hh c k content hv hs with hx | ⟨i, s', m, out, hl, hr, ha, _, _, ht⟩
        · rw [he] at hx; exact absurd hx hp
        · rw [he] at hr ha
          refine ⟨?_, fun _ => by rw [ha]⟩
          rintro ⟨k', content', t, ho, hr'⟩
          simp only [hr, Res.ok.injEq, Answer.texts.injEq] at hr'
          subst hr'
          have := inTransit_head ht
          rw [tag_head] at this
          cases this
      | plaintext =>
        by_cases hq : RequiresEncryption A
        · obtain ⟨⟨x, hx⟩, ha, _⟩ := C15_no_leak E A c s k content hv hq (by rw [hs]; nofun)
          rw [he] at hx ha
          exact ⟨fun h => absurd h (noText hx), fun _ => by rw [ha]⟩
        · obtain ⟨h1, h2⟩ := send_plain (E := E) (c := c) (content := content) hv hq hs
          by_cases ht : SendsTags A ∧ s.tagged = false
          · obtain ⟨t, _, hx⟩ := h1 ht
            rw [hx] at he
            subst he
            exact ⟨fun _ => ⟨ht.1, hv, rfl, ht.2, rfl⟩, fun h => absurd ⟨k, content, t, rfl, rfl⟩ h⟩
          · rw [h2 ht] at he
            subst he
            exact ⟨fun h => absurd h (self rfl (.inr rfl)), fun _ => rfl⟩
  · rw [C14_send E A c s k content hv] at he
    subst he
    exact ⟨fun h => absurd h (self rfl (.inl rfl)), fun _ => rfl⟩

/-- The flag tells whether a tag was sent. -/
theorem tagged_iff {E : Env} {A : Account} {h : List Ev} {s : Session} (hh : Hist E A h s) : s.tagged = true ↔ ∃ ev ∈ h, Tags ev := by
  induction hh with
  | new => simp [Session.new]
  | @step h s op c e hh he hp ih =>
    have hiff : e.after.tagged = true ↔ s.tagged = true ∨ Tags ⟨op, c, e.result, e.sent⟩ := by
      by_cases ho : ∃ k content, op = .send k content
      · obtain ⟨k, content, rfl⟩ := ho
        obtain ⟨h1, h2⟩ := send_tags hh c k content he hp
        by_cases ht : Tags ⟨.send k content, c, e.result, e.sent⟩
        · exact ⟨fun _ => .inr ht, fun _ => (h1 ht).2.2.2.2⟩
        · rw [h2 ht]
          exact ⟨.inl, fun h => h.resolve_right ht⟩
      · rw [← he, tag_run fun k t h => ho ⟨k, t, h⟩]
        refine ⟨.inl, fun h => h.resolve_right ?_⟩
        rintro ⟨k, content, _, h, _⟩
        exact ho ⟨k, content, h⟩
    rw [hiff, ih]
    simp only [List.mem_append, List.mem_singleton, or_and_right, exists_or, exists_eq_left]

/-- C24: a session sends the whitespace tag at most once. -/
theorem C24_once (E : Env) (A : Account) (h : List Ev) (s : Session) (hh : Hist E A h s) (i j : Nat) (ev ev' : Ev)
    (hi : h[i]? = some ev) (hj : h[j]? = some ev') (ht : Tags ev) (ht' : Tags ev') : i = j := by
  induction hh generalizing i j ev ev' with
  | new => simp at hi
  | @step h s op c e hh he hp ih =>
    have last : ∀ {n : Nat} {x : Ev}, (h ++ [⟨op, c, e.result, e.sent⟩])[n]? = some x →
        h[n]? = some x ∨ n = h.length ∧ x = ⟨op, c, e.result, e.sent⟩ := by
      intro n x hn
      rw [List.getElem?_append] at hn
      split at hn
      · exact .inl hn
      · right
        have hlen : n - h.length = 0 := by
          cases hd : n - h.length with
          | zero => rfl
          | succ d => rw [hd] at hn; simp at hn
        rw [hlen] at hn
        simp only [List.getElem?_cons_zero, Option.some.injEq] at hn
        exact ⟨by omega, hn.symm⟩
    have twice : ∀ {n : Nat} {x : Ev}, h[n]? = some x → Tags x → ¬ Tags ⟨op, c, e.result, e.sent⟩ := by
      intro n x hn hx hy
      have hf := (tagged_iff hh).mpr ⟨x, List.mem_of_getElem? hn, hx⟩
      obtain ⟨k, content, t, ho, hr⟩ := hy
      simp only at ho hr
      subst ho
      have := ((send_tags hh c k content he hp).1 ⟨k, content, t, rfl, hr⟩).2.2.2.1
      rw [hf] at this
      cases this
    rcases last hi with hi | ⟨ni, rfl⟩ <;> rcases last hj with hj | ⟨nj, rfl⟩
    · exact ih i j ev ev' hi hj ht ht'
    · exact absurd ht' (twice hi ht)
    · exact absurd ht (twice hj ht')
    · rw [ni, nj]

/-- C24: the tag is sent only if the policy asks for it and allows a version, on an instance in plaintext. -/
theorem C24_only (E : Env) (A : Account) (h : List Ev) (s : Session) (hh : Hist E A h s) (c : Call) (k : UInt32) (content t : Bytes)
    (hr : ((Op.send k content).run E A c s).result = .ok (.texts [TAG_MARK ++ t ++ noNul content])) :
    SendsTags A ∧ SomeVersion A ∧ s.status k = some .plaintext ∧ ∀ ev ∈ h, ¬ Tags ev := by
  obtain ⟨h1, h2, h3, h4, _⟩ := (send_tags hh c k content rfl (by rw [hr]; nofun)).1 ⟨k, content, t, rfl, hr⟩
  refine ⟨h1, h2, h3, fun ev hm ht => ?_⟩
  rw [(tagged_iff hh).mpr ⟨ev, hm, ht⟩] at h4
  cases h4

/-- C24: on an instance in plaintext, when encryption is not required, the content is sent with the tag of the highest allowed
version if the policy asks for tags and none was sent before, and without a tag otherwise. -/
theorem C24_first (E : Env) (A : Account) (h : List Ev) (s : Session) (hh : Hist E A h s) (c : Call) (k : UInt32) (content : Bytes)
    (hv : SomeVersion A) (hr : ¬ RequiresEncryption A) (hs : s.status k = some .plaintext) :
    (SendsTags A ∧ (∀ ev ∈ h, ¬ Tags ev) → ∃ t, ownTag A t ∧
      ((Op.send k content).run E A c s).result = .ok (.texts [TAG_MARK ++ t ++ noNul content])) ∧
    (¬ (SendsTags A ∧ ∀ ev ∈ h, ¬ Tags ev) → ((Op.send k content).run E A c s).result = .ok (.texts [noNul content])) := by
  have hf : s.tagged = false ↔ ∀ ev ∈ h, ¬ Tags ev := by
    have := tagged_iff hh
    constructor
    · intro h1 ev hm ht
      rw [this.mpr ⟨ev, hm, ht⟩] at h1
      cases h1
    · intro h1
      cases h2 : s.tagged with
      | false => rfl
      | true =>
        obtain ⟨ev, hm, ht⟩ := this.mp h2
        exact absurd ht (h1 ev hm)
  rw [← hf]
  obtain ⟨h1, h2⟩ := send_plain (E := E) (c := c) (content := content) hv hr hs
  exact ⟨fun h => by obtain ⟨t, ht, hx⟩ := h1 h; exact ⟨t, ht, by rw [hx]⟩, fun h => by rw [h2 h]⟩

/-- A policy that asks for tags, and a new session. -/
example : SomeVersion ⟨0x114, 0x100, [], []⟩ ∧ SendsTags ⟨0x114, 0x100, [], []⟩ ∧ ¬ RequiresEncryption ⟨0x114, 0x100, [], []⟩ ∧
    Session.new.status 0 = some .plaintext ∧ ∀ E, Hist E ⟨0x114, 0x100, [], []⟩ [] .new := by
  refine ⟨?_, ?_, ?_, by decide, fun E => .new⟩ <;>
    simp only [SomeVersion, AllowsV3, AllowsV4, SendsTags, RequiresEncryption, PolicyBit] <;> decide

/-! ## C25 -/

/-- C25: user content, with its NUL bytes removed, is read as text without TLVs. -/
theorem C25_plain (content : Bytes) : parseMessage (noNul content) = .ok (.confidential (noNul content) []) := by
  have h : ∀ x ∈ noNul content, x ≠ 0 := by simp [noNul]
  simpa using parseMessage_composed ⟨h, by simp, .inr ⟨rfl, rfl⟩⟩

/-- C25: what is read as text has no NUL byte: it ends where the data ends, or at the first NUL. -/
theorem C25_text (raw content : Bytes) (tlvs : List TLV)
    (h : parseMessage raw = .ok (.confidential content tlvs) ∨ parseMessage raw = .ok (.confidentialFinished content)) :
    0 ∉ content ∧ (raw = content ∨ ∃ rest, raw = content ++ 0 :: rest) := by
  have hc : content = raw.takeWhile (· != 0) := by
    have key : ∀ {x}, parseMessage raw = .ok x → (∀ t ts, x = .confidential t ts → t = raw.takeWhile (· != 0)) ∧
        ∀ t, x = .confidentialFinished t → t = raw.takeWhile (· != 0) := by
      intro x hx
      simp only [parseMessage, Res.bind_eq_ok, runDec_ok, readPayloadParts, Dec.bind_eq_ok] at hx
      obtain ⟨⟨t0, ts0⟩, ⟨r, t1, s1, h1, _, _, _, _, _, _, h2⟩, h3⟩ := hx
      cases h1
      cases h2
      simp only at h3
      split at h3 <;> cases h3
      · exact ⟨nofun, fun t h => by cases h; rfl⟩
      · exact ⟨fun t ts h => by cases h; rfl, nofun⟩
    rcases h with h | h
    · exact (key h).1 _ _ rfl
    · exact (key h).2 _ rfl
  subst hc
  refine ⟨fun h => by simpa using mem_takeWhile_imp h, ?_⟩
  cases hd : raw.dropWhile (· != 0) with
  | nil =>
    left
    have := List.takeWhile_append_dropWhile (p := (· != 0)) (l := raw)
    rw [hd, List.append_nil] at this
    exact this.symm
  | cons x rest =>
    right
    have h0 : x = 0 := by
      have := List.head?_dropWhile_not (· != 0) raw
      rw [hd] at this
      simpa using this
    subst h0
    exact ⟨rest, by rw [← hd, List.takeWhile_append_dropWhile]⟩

example : noNul [104, 0, 0, 1, 0, 0, 105] = [104, 1, 105] := by decide

/-! ## C26 -/

/-- The highest of the offered versions that the policy allows. -/
def Best (A : Account) (vs : List Version) : Version → Prop
  | .v4 => .v4 ∈ vs ∧ AllowsV4 A
  | .v3 => .v3 ∈ vs ∧ AllowsV3 A ∧ ¬ (.v4 ∈ vs ∧ AllowsV4 A)
  | _ => False

/-- The message that opens the key exchange of a version. -/
def Opens : Version → EncodedMessageType → Prop
  | .v4, m => ∃ d, m = .identity d
  | .v3, m => ∃ d, m = .dhCommit d
  | _, _ => False

theorem select_best {A : Account} {vs : List Version} {v : Version} (h : Best A vs v) : selectVersion A.policy vs = some v := by
  unfold selectVersion
  cases v with
  | v4 => exact if_pos ⟨h.1, (allowsV4_iff A).mpr h.2⟩
  | v3 => exact (if_neg fun x => h.2.2 ⟨x.1, (allowsV4_iff A).mp x.2⟩).trans (if_pos ⟨h.1, (allowsV3_iff A).mpr h.2.1⟩)
  | none => exact h.elim
  | unsupported _ => exact h.elim

theorem select_none {A : Account} {vs : List Version} (h : ∀ v, ¬ Best A vs v) : selectVersion A.policy vs = .none := by
  have h4 : ¬ (.v4 ∈ vs ∧ AllowsV4 A) := h .v4
  refine (if_neg fun x => h4 ⟨x.1, (allowsV4_iff A).mp x.2⟩).trans (if_neg fun x => h .v3 ⟨x.1, (allowsV3_iff A).mp x.2, h4⟩)

theorem Best.some {A : Account} {vs : List Version} {v : Version} (h : Best A vs v) : SomeVersion A := by
  cases v with
  | v4 => exact .inr h.2
  | v3 => exact .inl h.2.1
  | none => exact h.elim
  | unsupported _ => exact h.elim

/-- This client can open the key exchange of this version: for OTRv4 it never opened one before without a receiver, and the host
has a valid client profile. -/
def CanOpen (E : Env) (A : Account) (c : Call) (h : List Ev) : Version → Prop
  | .v4 => (∀ ev ∈ h, ∀ d, ¬ InTransit A ev.call ⟨.v4, A.tag, 0, .identity d⟩ ev.sent) ∧ ∃ p, DAKE.ownPayload E (c.dake A) = .ok p
  | _ => True

theorem offer_run {E : Env} {A : Account} {c : Call} {h : List Ev} {s : Session} (hh : Hist E A h s) {vs : List Version} {v : Version}
    (hb : Best A vs v) (hc : CanOpen E A c h v) :
    (answerOffer E A c vs ⟨s, []⟩).1 = .panic ∨ ∃ s' out m, answerOffer E A c vs ⟨s, []⟩ = (.ok (), ⟨s', out⟩) ∧ Opens v m ∧
      InTransit A c ⟨v, A.tag, 0, m⟩ out := by
  have hr := (hist_inv hh).receiver 0
  have key : (Instance.initiate E A c v ⟨s.inst 0, []⟩).1 = .panic ∨ ∃ m i' out,
      Instance.initiate E A c v ⟨s.inst 0, []⟩ = (.ok .none, ⟨i', out⟩) ∧ Opens v m ∧ InTransit A c ⟨v, A.tag, 0, m⟩ out := by
    cases v with
    | v4 =>
      obtain ⟨h1, p, hp⟩ := hc
      have hd : (s.inst 0).dake = .initial := by
        rcases hist_zero hh with h | ⟨ev, hm, d, ho⟩
        · exact h
        · exact absurd ho (h1 ev hm d)
      rcases Instance.initiate4_run (E := E) (A := A) (c := c) (sent := []) hd with h | ⟨e, he, _⟩ | ⟨d, i', out, h, ht⟩
      · exact .inl h
      · rw [hp] at he; cases he
      · rw [hr] at ht
        exact .inr ⟨_, i', out, h, ⟨d, rfl⟩, ht⟩
    | v3 =>
      rcases Instance.initiate3_run (E := E) (A := A) (c := c) (i := s.inst 0) (sent := []) with h | ⟨d, i', out, h, ht⟩
      · exact .inl h
      · rw [hr] at ht
        exact .inr ⟨_, i', out, h, ⟨d, rfl⟩, ht⟩
    | none => exact hb.elim
    | unsupported _ => exact hb.elim
  have hrun : answerOffer E A c vs ⟨s, []⟩ = match Instance.initiate E A c v ⟨s.inst 0, []⟩ with
      | (.ok _, w) => (.ok (), ⟨{ s with instances := insertKey s.instances 0 w.st }, w.sent⟩)
      | (.err e, w) => (.err e, ⟨{ s with instances := insertKey s.instances 0 w.st }, w.sent⟩)
      | (.panic, w) => (.panic, ⟨{ s with instances := insertKey s.instances 0 w.st }, w.sent⟩) := by
    simp only [answerOffer, select_best hb, StM.bind_run, Session.initiate, entry, INSTANCE_ZERO]
    have : (lookup s.instances 0).getD (.new 0) = s.inst 0 := rfl
    rw [this]
    generalize Instance.initiate E A c v ⟨s.inst 0, []⟩ = z
    obtain ⟨z1, z2⟩ := z
    cases z1 <;> rfl
  rw [hrun]
  rcases key with hk | ⟨m, i', out, hk, ho, ht⟩
  · left
    generalize Instance.initiate E A c v ⟨s.inst 0, []⟩ = z at hk
    obtain ⟨z1, z2⟩ := z
    simp only at hk
    subst hk
    rfl
  · rw [hk]
    exact .inr ⟨_, out, m, rfl, ho, ht⟩

/-- C26: a query that offers no version that the policy allows has no effect. -/
theorem C26_none (E : Env) (A : Account) (s : Session) (c : Call) (payload : Bytes) (vs : List Version) (hv : SomeVersion A)
    (hf : matchFragment payload = false) (hp : parse E payload = .ok (.query vs)) (hb : ∀ v, ¬ Best A vs v) :
    (Op.receive payload).run E A c s = ⟨.ok (.user .none), s, []⟩ := by
  simp only [Op.run, perform, receive, not_disabled hv, Bool.false_eq_true, if_false, hf, receiveWhole, StM.bind_run, StM.lift, hp,
    answerOffer, select_none hb]
  rfl

/-- C26: neither has such a tag, or any tag if the policy does not ask for an answer: the text is reported. -/
theorem C26_tag_none (E : Env) (A : Account) (h : List Ev) (s : Session) (hh : Hist E A h s) (c : Call) (payload content : Bytes) (vs : List Version)
    (hv : SomeVersion A) (hf : matchFragment payload = false) (hp : parse E payload = .ok (.tagged vs content))
    (hb : AnswersTags A → ∀ v, ¬ Best A vs v) :
    ∃ um, ReportOf A s content um ∧ (Op.receive payload).run E A c s = ⟨.ok (.user um), s, []⟩ := by
  obtain ⟨um, h1, h2⟩ := reportPlain_run (A := A) (hist_inv hh) [] content
  refine ⟨um, h2, ?_⟩
  simp only [Op.run, perform, receive, not_disabled hv, Bool.false_eq_true, if_false, hf, receiveWhole, StM.bind_run, StM.lift, hp]
  by_cases ht : A.policy.has WHITESPACE_START_AKE = true
  · rw [if_pos ht]
    simp only [StM.bind_run, answerOffer, select_none (hb ((answersTags_iff A).mp ht)), StM.pure_run, h1]
  · rw [if_neg ht]
    simp only [h1]

/-- C26: a query is answered with the message that opens the key exchange of the highest offered version that the policy allows.
(A panic remains possible: the host's maximum message size may be too small.  Missing: see `C26_violated`.) -/
theorem C26_query_partial (E : Env) (A : Account) (h : List Ev) (s : Session) (hh : Hist E A h s) (c : Call) (payload : Bytes)
    (vs : List Version) (v : Version) (hf : matchFragment payload = false) (hp : parse E payload = .ok (.query vs)) (hb : Best A vs v)
    (hc : CanOpen E A c h v) :
    let e := (Op.receive payload).run E A c s
    e.result = .panic ∨ e.result = .ok (.user .none) ∧ ∃ m, Opens v m ∧ InTransit A c ⟨v, A.tag, 0, m⟩ e.sent := by
  simp only [Op.run, perform_result, perform_sent, receive, not_disabled hb.some, Bool.false_eq_true, if_false, hf, receiveWhole, StM.bind_run, StM.lift, hp]
  rcases offer_run hh hb hc with h1 | ⟨s', out, m, h1, ho, ht⟩
  · left
    generalize answerOffer E A c vs ⟨s, []⟩ = z at h1
    obtain ⟨z1, z2⟩ := z
    simp only at h1
    subst h1
    rfl
  · rw [h1]
    exact .inr ⟨rfl, m, ho, ht⟩

/-- C26: so is a tag, if the policy asks for an answer. -/
theorem C26_tag_partial (E : Env) (A : Account) (h : List Ev) (s : Session) (hh : Hist E A h s) (c : Call) (payload content : Bytes)
    (vs : List Version) (v : Version) (hf : matchFragment payload = false) (hp : parse E payload = .ok (.tagged vs content)) (ht : AnswersTags A)
    (hb : Best A vs v) (hc : CanOpen E A c h v) :
    let e := (Op.receive payload).run E A c s
    e.result = .panic ∨ ∃ m, Opens v m ∧ InTransit A c ⟨v, A.tag, 0, m⟩ e.sent := by
  simp only [Op.run, perform_result, perform_sent, receive, not_disabled hb.some, Bool.false_eq_true, if_false, hf, receiveWhole, StM.bind_run, StM.lift, hp,
    if_pos ((answersTags_iff A).mpr ht)]
  rcases offer_run hh hb hc with h1 | ⟨s', out, m, h1, ho, ht⟩
  · left
    generalize answerOffer E A c vs ⟨s, []⟩ = z at h1
    obtain ⟨z1, z2⟩ := z
    simp only at h1
    subst h1
    rfl
  · rw [h1]
    refine .inr ⟨m, ho, ?_⟩
    have := mute_reportPlain (A := A) content ⟨s', out⟩
    simp only at this ⊢
    rw [this]
    exact ht

/-- Not so otherwise: a client that answered an OTRv4 query does not answer the next one. -/
theorem C26_violated : ∃ (E : Env) (A : Account) (h : List Ev) (s : Session) (c : Call) (payload : Bytes),
    Hist E A h s ∧ matchFragment payload = false ∧ parse E payload = .ok (.query [.v4]) ∧ Best A [.v4] .v4 ∧
      (∃ p, DAKE.ownPayload E (c.dake A) = .ok p) ∧
      ((Op.receive payload).run E A c s).result = .err .incorrectState ∧ ((Op.receive payload).run E A c s).sent = [] := by
  obtain ⟨h, hh⟩ := ToySession.hist_d1
  have hr := ToySession.runQ
  unfold ToySession.q2 at hr
  refine ⟨ToySession.tinyEnv, ToySession.acB, h, _, ToySession.callB 1000 4, ToySession.query4, hh, by decide +kernel, by decide +kernel,
    ⟨by decide, by simp only [AllowsV4, PolicyBit]; decide⟩, ?_, hr.1, hr.2.1⟩
  have h : (DAKE.ownPayload ToySession.tinyEnv ((ToySession.callB 1000 4).dake ToySession.acB)).isOk = true := by decide +kernel
  cases hp : DAKE.ownPayload ToySession.tinyEnv ((ToySession.callB 1000 4).dake ToySession.acB) with
  | ok p => exact ⟨p, rfl⟩
  | err e => rw [hp] at h; cases h
  | panic => rw [hp] at h; cases h

/-- A new session can open both exchanges, when the host has a valid client profile. -/
example : CanOpen ToySession.tinyEnv ToySession.acB (ToySession.callB 1000 1) [] .v4 ∧
    CanOpen ToySession.tinyEnv ToySession.acB (ToySession.callB 1000 1) [] .v3 ∧ Best ToySession.acB [.v3, .v4] .v4 ∧
    Best ToySession.acB [.v3] .v3 ∧ parse ToySession.tinyEnv ToySession.query3 = .ok (.query [.v3]) ∧
    matchFragment ToySession.query3 = false ∧ ∀ v, ¬ Best ToySession.acB [.unsupported 2] v := by
  have h : (DAKE.ownPayload ToySession.tinyEnv ((ToySession.callB 1000 1).dake ToySession.acB)).isOk = true := by decide +kernel
  refine ⟨⟨nofun, ?_⟩, trivial, ⟨by decide, ?_⟩, ⟨by decide, ?_, by simp⟩, by decide +kernel, by decide +kernel, ?_⟩
  · cases hp : DAKE.ownPayload ToySession.tinyEnv ((ToySession.callB 1000 1).dake ToySession.acB) with
    | ok p => exact ⟨p, rfl⟩
    | err e => rw [hp] at h; cases h
    | panic => rw [hp] at h; cases h
  · simp only [AllowsV4, PolicyBit]; decide
  · simp only [AllowsV3, PolicyBit]; decide
  · intro v h
    cases v <;> simp [Best] at h

/-! ## C27 -/

/-- A delivered message, of a version that the policy allows, is processed by the instance of its sender, unless that instance
takes over an exchange first. -/
theorem process_run {E : Env} {A : Account} {c : Call} {s : Session} {payload : Bytes} {m : EncodedMessage} (hd : Delivers E A s payload m)
    (hv : m.version = .v3 ∧ AllowsV3 A ∨ m.version = .v4 ∧ AllowsV4 A) (hs : m.sender ≠ 0) (hr : m.receiver = A.tag) (ht : A.tag ≠ 0)
    (hn : ∀ d, m.message ≠ .dhKey d) (hn' : ∀ d, m.message ≠ .authR d) :
    ∃ (i1 : Instance) (s1 : Session), Session.Rel SameKex s s1 ∧ SameKex (s.inst m.sender) i1 ∧ receive E A c payload ⟨s, []⟩ =
      ((Instance.process E A c m ⟨i1, []⟩).1,
        ⟨({ s1 with instances := insertKey s1.instances m.sender (Instance.process E A c m ⟨i1, []⟩).2.st } : Session),
          (Instance.process E A c m ⟨i1, []⟩).2.sent⟩) := by
  obtain ⟨h1, h2, h3⟩ := allowed_iff hv
  obtain ⟨text, hp⟩ := delivers_parse hd
  obtain ⟨s1, hk, _, hrun⟩ := deliver_run (c := c) h2 hd hs
  obtain ⟨i1, hi1, hrun1⟩ := encoded_run (E := E) (c := c) (s := s1) (sent := []) (header_ok hp hs hr ht) h1 hn hn' h3
  exact ⟨i1, s1, hk, kex_pre.trans (hk.each m.sender) hi1, hrun.trans hrun1⟩

/-- The session that follows an OTRv3 exchange can be set up. -/
theorem secure3_ok {E : Env} {our their : UInt32} {mat : AKEMaterial} {rnd : Rand} {s : PState} (h4 : ∀ x smp, s ≠ .encrypted4 x smp)
    (ho : InRange E.dh mat.ourDh.pub) (ht : mat.theirDh ≠ 0) : ∃ s', s.secure3 E our their mat rnd = .ok s' := by
  have h1 : ∃ x, Enc3.new E our their mat.ourDh mat.theirDh rnd = .ok x := by
    have hv : DH.verifyPublicKey E.dh mat.ourDh.pub = .ok () := if_pos ho
    have h1 : ∃ x, KeypairRotation.new E.dh 1 mat.ourDh rnd = .ok x := by
      unfold KeypairRotation.new
      rw [hv]
      exact ⟨_, rfl⟩
    have h2 : ∃ x, PublicKeyRotation.new 1 mat.theirDh = .ok x := by
      have : (mat.theirDh != 0) = true := bne_iff_ne.mpr ht
      unfold PublicKeyRotation.new
      rw [this]
      exact ⟨_, rfl⟩
    obtain ⟨x, hx⟩ := h1
    obtain ⟨y, hy⟩ := h2
    refine ⟨⟨our, their, ⟨x, y, COUNTER_INITIAL, COUNTER_INITIAL, [], []⟩⟩, ?_⟩
    simp only [Enc3.new, KeyManager.new, hx, hy, Res.bind_ok, Res.pure_def]
    rfl
  obtain ⟨x, hx⟩ := h1
  cases s with
  | encrypted4 x smp => exact absurd rfl (h4 _ _)
  | _ => exact ⟨.encrypted3 x (SMP.new mat.ssid (fingerprint3 E mat.theirDsa)), by simp only [PState.secure3, hx, Res.bind_ok, Res.pure_def]⟩

theorem signature_ok (r t : UInt32) (m : SignatureMessage) : ∃ text, serialize (.encoded ⟨.v3, r, t, .signature m⟩) = .ok text :=
  ⟨_, rfl⟩

/-- An OTRv3 exchange in which this client uses the D-H key `kp`. -/
def UsesKey (s : AKEState) (kp : DH.Keypair) : Prop :=
  (∃ enc hashed, s = .awaitingRevealSignature kp enc hashed) ∨ (∃ gy secret prev, s = .awaitingSignature kp gy secret prev)

/-- C27: the last message of an OTRv3 exchange does not crash the client, unless the instance has an OTRv4 session.  Assumed: the
host has a DSA key pair and takes the reply without fragmentation, the generator of the group is not 0, and this client's D-H key is in
range (the code draws keys without checking; the exceptions are 0 modulo the order, and negligible).  (Missing: see `C27_violated`.) -/
theorem C27_partial (E : Env) (A : Account) (h : List Ev) (s : Session) (hh : Hist E A h s) (c : Call) (payload : Bytes) (m : EncodedMessage)
    (hd : Delivers E A s payload m) (hv : m.version = .v3) (ha : AllowsV3 A) (hs : m.sender ≠ 0) (hr : m.receiver = A.tag) (ht : A.tag ≠ 0)
    (hm : (∃ r, m.message = .revealSignature r) ∨ ∃ r, m.message = .signature r)
    (h4 : ∀ i x smp, lookup s.instances m.sender = some i → i.state ≠ .encrypted4 x smp)
    (dsa : DSAKeypair) (hdsa : c.keypair = some dsa) (hg : 0 < E.dh.g)
    (hkey : ∀ i kp, lookup s.instances m.sender = some i → UsesKey i.ake kp → InRange E.dh kp.pub)
    (hfit : ∀ reply text, serialize (.encoded ⟨.v3, A.tag, m.sender, .signature reply⟩) = .ok text →
      (∃ i r mat s', lookup s.instances m.sender = some i ∧ m.message = .revealSignature r ∧
        AKE.handleRevealSignature E c.keypair r i.ake = (.ok (mat, .signature reply), s')) → text.length ≤ c.messageSize) :
    ((Op.receive payload).run E A c s).result ≠ .panic := by
  have hi := hist_inv hh
  have hn : (∀ d, m.message ≠ .dhKey d) ∧ ∀ d, m.message ≠ .authR d := by
    rcases hm with ⟨r, h⟩ | ⟨r, h⟩ <;> rw [h] <;> constructor <;> intro d h <;> cases h
  obtain ⟨i, s1, _, hk, hrun⟩ := process_run (c := c) hd (.inl ⟨hv, ha⟩) hs hr ht hn.1 hn.2
  have hake : i.ake = (s.inst m.sender).ake := by obtain ⟨a, rfl⟩ := hk; rfl
  have hst : i.state = (s.inst m.sender).state := hk.same.1
  have hrec : i.receiver = m.sender := by rw [hk.same.2, hi.receiver]
  -- the instance exists, or it is new
  have hl : lookup s.instances m.sender = some (s.inst m.sender) ∨ (s.inst m.sender) = .new m.sender := by
    unfold inst
    cases lookup s.instances m.sender with
    | none => exact .inr rfl
    | some i => exact .inl rfl
  have hplain : ∀ x smp, i.state ≠ .encrypted4 x smp := by
    intro x smp hx
    rw [hst] at hx
    rcases hl with hl | hl
    · exact h4 _ _ _ hl hx
    · rw [hl] at hx; cases hx
  have hown : ∀ kp, UsesKey i.ake kp → InRange E.dh kp.pub := by
    intro kp hu
    rw [hake] at hu
    rcases hl with hl | hl
    · exact hkey _ _ hl hu
    · rw [hl] at hu
      rcases hu with ⟨_, _, hu⟩ | ⟨_, _, _, hu⟩ <;> cases hu
  have hlife : AkeOk E i.ake := hake ▸ hi.ake _
  obtain ⟨hist, hlife⟩ := hlife
  have hinv := AKE.life_inv hlife
  have hnp := C67_no_panic (E := E) dsa i.ake
  rw [Op.run, perform_result, hrun]
  suffices hsuf : (Instance.process E A c m ⟨i, []⟩).1 ≠ .panic by
    intro hx
    generalize (Instance.process E A c m ⟨i, []⟩).1 = z at hx hsuf
    cases z with
    | panic => exact hsuf rfl
    | ok a => cases hx
    | err e => cases hx
  obtain ⟨v, snd, rcv, msg⟩ := m
  simp only at hv hm hrec hfit hl hake
  subst hv
  rcases hm with ⟨r, rfl⟩ | ⟨r, rfl⟩
  · simp only [Instance.process, StM.bind_run, StM.gets, Instance.onAke]
    have hp := hnp.2.2.1 r
    rw [hdsa]
    cases hx : AKE.handleRevealSignature E (some dsa) r i.ake with
    | mk res s' =>
      rw [hx] at hp
      cases res with
      | panic => exact absurd rfl hp
      | err e => simp
      | ok y =>
        obtain ⟨mat, reply⟩ := y
        simp only
        have hmat : InRange E.dh mat.ourDh.pub ∧ mat.theirDh ≠ 0 ∧ ∃ rm, reply = .signature rm := by
          rw [AKE.handleRevealSignature, transact_ok] at hx
          cases hs : i.ake with
          | awaitingRevealSignature kp enc hashed =>
            rw [hs] at hx
            simp only [Res.bind_eq_ok, Res.pure_def, Res.ok.injEq, Prod.mk.injEq] at hx
            obtain ⟨⟨mat', reply'⟩, hx, ⟨rfl, rfl⟩, _⟩ := hx
            obtain ⟨gx, pk, keyid, sig, dsa', rest, _, _, _, _, hgx, _, _, _, rfl, hrep⟩ := AKE.answerRevealSignature_ok hx
            exact ⟨hown kp (.inl ⟨_, _, hs⟩), by have := hgx.1; simp only; omega, _, hrep⟩
          | _ => rw [hs] at hx; simp at hx
        obtain ⟨ho, hth, rm, rfl⟩ := hmat
        obtain ⟨st, hst'⟩ := secure3_ok (our := A.tag) (their := snd) (rnd := c.rnd.sub 1) hplain ho hth
        simp only [Instance.secure, Instance.onState, hst']
        obtain ⟨text, htext⟩ := signature_ok A.tag snd rm
        have hlen : text.length ≤ c.messageSize := by
          refine hfit rm text htext ?_
          rcases hl with hl | hl
          · exact ⟨_, r, mat, s', hl, rfl, by rw [← hake, hdsa]; exact hx⟩
          · rw [hake, hl] at hx
            simp [AKE.handleRevealSignature, StM.transact, Instance.new] at hx
        have ha : (snd != 0 && snd == 0 || snd == snd) = true := by simp
        simp only [Instance.inject, StM.bind_run, StM.gets, StM.lift, hrec, ha, Res.assert, if_true, encodeMessage, htext, Instance.payloads,
          if_pos hlen, Instance.emit]
        simp
  · simp only [Instance.process, StM.bind_run, StM.gets, Instance.onAke]
    have hp := hnp.2.2.2 r
    cases hx : AKE.handleSignature E r i.ake with
    | mk res s' =>
      rw [hx] at hp
      cases res with
      | panic => exact absurd rfl hp
      | err e => simp
      | ok mat =>
        simp only
        have hmat : InRange E.dh mat.ourDh.pub ∧ mat.theirDh ≠ 0 := by
          rw [AKE.handleSignature, transact_ok] at hx
          cases hs : i.ake with
          | awaitingSignature kp gy sec prev =>
            rw [hs] at hx hinv
            simp only [Res.bind_eq_ok, Res.pure_def, Res.ok.injEq, Prod.mk.injEq] at hx
            obtain ⟨mat', hx, rfl, _⟩ := hx
            obtain ⟨pk, keyid, sig, _, _, _, rfl⟩ := AKE.acceptSignature_ok hx
            obtain ⟨_, _, _, _, hgy⟩ := hinv
            exact ⟨hown kp (.inr ⟨_, _, _, hs⟩), by have := hgy.1; simp only; omega⟩
          | _ => rw [hs] at hx; simp at hx
        obtain ⟨st, hst'⟩ := secure3_ok (our := A.tag) (their := snd) (rnd := c.rnd.sub 1) hplain hmat.1 hmat.2
        simp only [Instance.secure, Instance.onState, hst', StM.pure_run, ne_eq, reduceCtorEq, not_false_eq_true]

/-- Not so otherwise: with an OTRv4 session, the last message of an OTRv3 exchange crashes the client. -/
theorem C27_violated : ∃ (E : Env) (A : Account) (h : List Ev) (s : Session) (c : Call) (payload : Bytes),
    Hist E A h s ∧ s.status 0x102 = some .encrypted ∧ ((Op.receive payload).run E A c s).result = .panic := by
  obtain ⟨h, hh⟩ := ToySession.hist_c4
  have hr := ToySession.runE
  refine ⟨ToySession.tinyEnv, ToySession.acA, _, ToySession.f2.after, ToySession.callA 1000 4, ToySession.msg ToySession.e3,
    .step hh (by unfold ToySession.f2; rfl) (by rw [hr.2.1]; nofun), hr.2.2.2.2, ?_⟩
  have := hr.2.2.2.1
  unfold ToySession.f4 at this
  exact this

/-- The hypotheses of `C27_partial` hold in a new session that received a D-H Commit message. -/
example : ∃ h m dsa, Hist ToySession.tinyEnv ToySession.acA h ToySession.a2.after ∧
    Delivers ToySession.tinyEnv ToySession.acA ToySession.a2.after (ToySession.msg ToySession.b3) m ∧ m.version = .v3 ∧
    AllowsV3 ToySession.acA ∧ m.sender = 0x102 ∧ m.receiver = ToySession.acA.tag ∧ ToySession.acA.tag ≠ 0 ∧ (∃ r, m.message = .revealSignature r) ∧
    (∀ i x smp, lookup ToySession.a2.after.instances m.sender = some i → i.state ≠ .encrypted4 x smp) ∧
    (ToySession.callA 1000 4).keypair = some dsa ∧ 0 < ToySession.tinyEnv.dh.g ∧
    (∀ i kp, lookup ToySession.a2.after.instances m.sender = some i → UsesKey i.ake kp → InRange ToySession.tinyEnv.dh kp.pub) ∧
    (∀ reply text, serialize (.encoded ⟨.v3, ToySession.acA.tag, m.sender, .signature reply⟩) = .ok text →
      (∃ i r mat s', lookup ToySession.a2.after.instances m.sender = some i ∧ m.message = .revealSignature r ∧
        AKE.handleRevealSignature ToySession.tinyEnv (ToySession.callA 1000 4).keypair r i.ake = (.ok (mat, .signature reply), s')) →
        text.length ≤ (ToySession.callA 1000 4).messageSize) := by
  obtain ⟨h, hh⟩ := ToySession.hist_a2
  obtain ⟨hf, hc⟩ := ToySession.reveal'
  split at hc
  · rename_i r i hp hl
    split at hc
    · rename_i kp enc hashed hst hake
      simp only [Bool.and_eq_true, decide_eq_true_eq] at hc
      obtain ⟨hk, hc⟩ := hc
      refine ⟨h, _, _, hh, .inl ⟨hf, hp⟩, rfl, by simp only [AllowsV3, PolicyBit]; decide, rfl, rfl, by decide, ⟨r, rfl⟩, ?_, rfl, by decide, ?_, ?_⟩
      · intro i' x smp hl' hx
        rw [hl] at hl'
        cases hl'
        rw [hst] at hx
        cases hx
      · intro i' kp' hl' hu
        rw [hl] at hl'
        cases hl'
        rw [hake] at hu
        rcases hu with ⟨_, _, hu⟩ | ⟨_, _, _, hu⟩ <;> cases hu
        exact hk
      · rintro reply text htext ⟨i', r', mat, s', hl', hr', hx⟩
        rw [hl] at hl'
        cases hl'
        cases hr'
        rw [hx] at hc
        simp only at hc
        have : ToySession.acA.tag = 0x100 := rfl
        rw [this] at htext
        rw [htext] at hc
        exact of_decide_eq_true hc
    · cases hc
  · cases hc

/-! ## C48 -/

/-- C48: a data message that does not pass the check is rejected: no instance changes, apart from the fragments it keeps, and nothing
is sent. -/
theorem C48_rejected (E : Env) (A : Account) (s : Session) (c : Call) (payload : Bytes) (m : EncodedMessage)
    (d : DataMessage4) (e : OTRError) (hd : Delivers E A s payload m) (hv : m.version = .v4) (ha : AllowsV4 A) (hs : m.sender ≠ 0)
    (hr : m.receiver = A.tag) (ht : A.tag ≠ 0) (hm : m.message = .data4 d) (he : d.validate E = .err e) :
    let x := (Op.receive payload).run E A c s
    x.result = .err e ∧ x.sent = [] ∧ ∀ k, ∃ a, x.after.inst k = { s.inst k with assembler := a } := by
  obtain ⟨i, s1, h1, h2, hrun⟩ := process_run (c := c) hd (.inr ⟨hv, ha⟩) hs hr ht (by rw [hm]; nofun) (by rw [hm]; nofun)
  have hp : Instance.process E A c m ⟨i, []⟩ = (.err e, ⟨i, []⟩) := by
    simp only [Instance.process, StM.bind_run, StM.gets, hv, hm, StM.lift, he]
  rw [hp] at hrun
  simp only [Op.run, perform_result, perform_sent, perform_after, hrun]
  refine ⟨rfl, trivial, fun k => ?_⟩
  simp only [inst, lookup_insertKey]
  split
  · rename_i hk
    subst hk
    exact h2
  · exact h1.each k

/-- The hypotheses hold for a data message without the D-H public key that it must have. -/
example : ∃ m d, Delivers ToySession.tinyEnv ToySession.acA ToySession.c4.after ToySession.odd m ∧ m.version = .v4 ∧ AllowsV4 ToySession.acA ∧
    m.sender ≠ 0 ∧ m.receiver = ToySession.acA.tag ∧ ToySession.acA.tag ≠ 0 ∧ m.message = .data4 d ∧
    d.validate ToySession.tinyEnv = .err .protocolViolation := by
  obtain ⟨hf, hc, _⟩ := ToySession.forged
  split at hc
  · rename_i d hp
    exact ⟨_, d, .inl ⟨hf, hp⟩, rfl, by simp only [AllowsV4, PolicyBit]; decide, (by show (0x102 : UInt32) ≠ 0; decide), rfl, by decide, rfl, of_decide_eq_true hc⟩
  · cases hc

/-- A data message whose authenticator is all zero, and that is well-formed otherwise, crashes every client that allows OTRv4, in any state:
the check asserts that the authenticator is not zero. -/
theorem C48_crash (E : Env) (A : Account) (s : Session) (c : Call) (payload : Bytes) (m : EncodedMessage) (d : DataMessage4)
    (hd : Delivers E A s payload m) (hv : m.version = .v4) (ha : AllowsV4 A) (hs : m.sender ≠ 0) (hr : m.receiver = A.tag) (ht : A.tag ≠ 0)
    (hm : m.message = .data4 d) (hval : Valid4 E d) (hz : ¬ NonZero d.authenticator) :
    ((Op.receive payload).run E A c s).result = .panic := by
  have he : d.validate E = .panic := by
    rw [validate_valid hval]
    cases hx : anyNonzero d.authenticator with
    | false => rfl
    | true => exact absurd (anyNonzero_iff.mp hx) hz
  obtain ⟨i, s1, h1, h2, hrun⟩ := process_run (c := c) hd (.inr ⟨hv, ha⟩) hs hr ht (by rw [hm]; nofun) (by rw [hm]; nofun)
  have hp : Instance.process E A c m ⟨i, []⟩ = (.panic, ⟨i, []⟩) := by
    simp only [Instance.process, StM.bind_run, StM.gets, hv, hm, StM.lift, he]
  rw [Op.run, perform_result, hrun, hp]
  rfl

/-- Such a message, in a new session. -/
example : ∃ m d, Delivers ToySession.tinyEnv ToySession.acA .new ToySession.zeroed m ∧ m.version = .v4 ∧ AllowsV4 ToySession.acA ∧
    m.sender ≠ 0 ∧ m.receiver = ToySession.acA.tag ∧ ToySession.acA.tag ≠ 0 ∧ m.message = .data4 d ∧
    d.validate ToySession.tinyEnv = .panic := by
  obtain ⟨_, _, hf, hc⟩ := ToySession.forged
  split at hc
  · rename_i d hp
    exact ⟨_, d, .inl ⟨hf, hp⟩, rfl, by simp only [AllowsV4, PolicyBit]; decide, (by show (0x102 : UInt32) ≠ 0; decide), rfl, by decide, rfl, of_decide_eq_true hc⟩
  · cases hc

/-! ## C70 -/

/-- C70: an authentic data message, from the peer for this client, is reported with its content, unless it is part of an SMP
exchange or ends the session.  Nothing is sent, and the session stays encrypted. -/
theorem C70_reported (E : Env) (A : Account) (h : List Ev) (s : Session) (hh : Hist E A h s) (c : Call) (payload : Bytes) (m : EncodedMessage)
    (i : Instance) (content : Bytes) (tlvs : List TLV) (hd : Delivers E A s payload m)
    (hv : m.version = .v3 ∧ AllowsV3 A ∨ m.version = .v4 ∧ AllowsV4 A) (hs : m.sender ≠ 0) (hr : m.receiver = A.tag) (ht : A.tag ≠ 0)
    (hl : lookup s.instances m.sender = some i) (hdec : Decrypts E c m i.state (.confidential content tlvs))
    (hsmp : tlvs.any (isSmpTlv m.version) = false) :
    let e := (Op.receive payload).run E A c s
    e.result = .ok (.user (.confidential m.sender content tlvs)) ∧ e.after.status m.sender = some .encrypted ∧ e.sent = [] := by
  obtain ⟨i', fl, s1, x, hn, hrc, rfl, hx⟩ := data_run (hist_inv hh) hd hv hs hr ht hl hdec
  simp only [Op.run, perform, hx, Instance.handleDecrypted, StM.bind_run, StM.gets, hsmp, Bool.false_eq_true, if_false, StM.pure_run, hrc,
    status, lookup_insertKey, if_true, Option.map_some, Instance.status, true_and, and_true]
  rw [hn.1]

/-- C70: whatever is reported as confidential came in a data message, from that peer for this client, that the session with
that peer authenticated and decrypted. -/
theorem C70_authentic (E : Env) (A : Account) (h : List Ev) (s : Session) (hh : Hist E A h s) (c : Call) (payload : Bytes) (k : UInt32)
    (content : Bytes) (tlvs : List TLV)
    (hr : ((Op.receive payload).run E A c s).result = .ok (.user (.confidential k content tlvs))) :
    ∃ m i, Delivers E A s payload m ∧ m.sender = k ∧ m.receiver = A.tag ∧ lookup s.instances k = some i ∧
      Decrypts E c m i.state (.confidential content tlvs) := by
  have hi := hist_inv hh
  rw [Op.run, perform_result] at hr
  simp only [Res.pure_def, Res.bind_eq_ok, Res.ok.injEq, Answer.user.injEq] at hr
  obtain ⟨um, hr, rfl⟩ := hr
  rcases told_receive (A := A) (c := c) (w := ⟨s, []⟩) hi payload with ⟨_, h2⟩ | ⟨m, hd, hv, _, _, _, h6⟩
  · rcases h2 _ hr with h | ⟨t, h⟩ | ⟨t, h⟩ | ⟨t, h⟩ <;> cases h
  · rw [hr] at h6
    obtain ⟨h7, h8, _⟩ := h6
    rw [hi.receiver] at h7
    subst h7
    obtain ⟨i, hl, hdec⟩ := h8.found
    exact ⟨m, i, hd, rfl, hdec.addressed hv, hl, hdec⟩

/-- Both apply when Bob gets the text `hi` from Alice. -/
example : ∃ h m i, Hist ToySession.tinyEnv ToySession.acB h ToySession.b5.after ∧
    Delivers ToySession.tinyEnv ToySession.acB ToySession.b5.after (ToySession.text ToySession.a6) m ∧
    (m.version = .v3 ∧ AllowsV3 ToySession.acB ∨ m.version = .v4 ∧ AllowsV4 ToySession.acB) ∧ m.sender ≠ 0 ∧
    m.receiver = ToySession.acB.tag ∧ ToySession.acB.tag ≠ 0 ∧ lookup ToySession.b5.after.instances m.sender = some i ∧
    Decrypts ToySession.tinyEnv (ToySession.callB 1000 7) m i.state (.confidential [104, 105] []) := by
  obtain ⟨h, hh⟩ := ToySession.hist_b5
  have hr := ToySession.b7_result
  unfold ToySession.b7 at hr
  obtain ⟨m, i, hd, hk, hrec, hl, hdec⟩ := C70_authentic _ _ h _ hh _ _ _ _ _ hr
  refine ⟨h, m, i, hh, hd, ?_, by rw [hk]; decide, hrec, by decide, by rw [hk]; exact hl, hdec⟩
  have h3 : AllowsV3 ToySession.acB := by simp only [AllowsV3, PolicyBit]; decide
  have h4 : AllowsV4 ToySession.acB := by simp only [AllowsV4, PolicyBit]; decide
  rcases hdec with ⟨_, _, _, _, _, _, hv, _⟩ | ⟨_, _, _, _, _, _, hv, _⟩
  · exact .inl ⟨hv, h3⟩
  · exact .inr ⟨hv, h4⟩

end Otrr.Props
