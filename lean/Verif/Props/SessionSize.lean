import Verif.Props.SessionInjects
import Verif.Props.SessionUse
import Verif.Props.Fragment
/-!
# The size of what is sent: C94
-/

namespace Otrr
namespace Props
open Spec Session

theorem encodeFragment_length {f : Fragment} {t : Bytes} (h : encodeFragment f = .ok t) :
    t.length = (if f.version = .v4 then 28 + 2 * f.identifier.length + 9 else 36) + f.payload.length := by
  simp only [encodeFragment, Res.bind_eq_ok, Res.pure_def, Res.ok.injEq] at h
  obtain ⟨_, _, _, _, _, _, _, _, _, _, _, _, _, _, _, _, rfl⟩ := h
  have hp : OTR_FRAGMENT_V3_PREFIX.length = 5 := rfl
  have hs : OTR_FRAGMENT_SUFFIX.length = 1 := rfl
  by_cases hv : f.version = .v4
  · rw [if_pos hv, if_pos hv]
    simp only [List.length_append, hp, hs, hexFixed_length, decFixed_length, ident_length, List.length_cons, List.length_nil]
    omega
  · rw [if_neg hv, if_neg hv]
    simp only [List.length_append, hp, hs, hexFixed_length, decFixed_length, List.length_cons, List.length_nil]
    omega

theorem numberFragments_payload (v : Version) (id : Bytes) (s r : UInt32) (t i : Nat) (ps : List Bytes) :
    ∀ f ∈ numberFragments v id s r t i ps, f.payload ∈ ps := by
  induction ps generalizing i with
  | nil => simp [numberFragments]
  | cons p ps ih =>
    intro f hf
    simp only [numberFragments, List.mem_cons] at hf
    rcases hf with rfl | hf
    · exact List.mem_cons_self ..
    · exact List.mem_cons_of_mem _ (ih _ f hf)

theorem fragment_fits {ident text : Bytes} {n : Nat} {v : Version} {s r : UInt32} {fs : List Fragment} (hi : ident.length = 4)
    (h : fragmentContent ident n v s r text = .ok fs) {f : Fragment} (hf : f ∈ fs) {t : Bytes} (ht : encodeFragment f = .ok t) :
    t.length ≤ n := by
  rw [encodeFragment_length ht]
  cases v with
  | v3 =>
    simp only [fragmentContent, Res.bind_eq_ok, Res.assert_eq_ok, Res.pure_def, Res.ok.injEq] at h
    obtain ⟨_, h3, _, _, _, _, _, rfl, _, _, rfl⟩ := h
    have h3 : 36 < n := by simpa using h3
    have hm := numberFragments_map _ _ _ _ _ _ _ f hf
    have := (slices_mem (k := n - 36) (by omega) _ _ _ (numberFragments_payload _ _ _ _ _ _ _ f hf)).2.1
    rw [hm.1, if_neg (by nofun)]
    omega
  | v4 =>
    simp only [fragmentContent, Res.bind_eq_ok, Res.assert_eq_ok, Res.pure_def, Res.ok.injEq] at h
    obtain ⟨_, _, _, h4, _, _, _, rfl, _, _, rfl⟩ := h
    have h4 : 45 < n := by simpa using h4
    have hm := numberFragments_map _ _ _ _ _ _ _ f hf
    have := (slices_mem (k := n - 45) (by omega) _ _ _ (numberFragments_payload _ _ _ _ _ _ _ f hf)).2.1
    rw [hm.1, if_pos rfl, hm.2, hi]
    omega
  | none =>
    simp only [fragmentContent, Res.bind_eq_ok] at h
    obtain ⟨_, _, _, _, _, _, _, h, _⟩ := h
    cases h
  | unsupported x =>
    simp only [fragmentContent, Res.bind_eq_ok] at h
    obtain ⟨_, _, _, _, _, _, _, h, _⟩ := h
    cases h

theorem mapM_mem {f : α → Res β} : ∀ {l : List α} {out : List β}, l.mapM f = .ok out → ∀ t ∈ out, ∃ a ∈ l, f a = .ok t
  | [], out, h, t, ht => by simp at h; subst h; cases ht
  | a :: l, out, h, t, ht => by
    simp only [List.mapM_cons, Res.bind_eq_ok, Res.pure_def, Res.ok.injEq] at h
    obtain ⟨b, hb, bs, hbs, rfl⟩ := h
    rcases List.mem_cons.mp ht with rfl | ht
    · exact ⟨a, List.mem_cons_self .., hb⟩
    · obtain ⟨x, hx, h⟩ := mapM_mem hbs t ht
      exact ⟨x, List.mem_cons_of_mem _ hx, h⟩

theorem inTransit_fits {A : Account} {c : Call} {m : EncodedMessage} {out : List Bytes} (h : InTransit A c m out) :
    ∀ t ∈ out, t.length ≤ c.messageSize := by
  intro t ht
  obtain ⟨text, _, ⟨hl, rfl⟩ | ⟨_, ident, fs, hi, hf, hm⟩⟩ := h
  · rw [List.mem_singleton.mp ht]; exact hl
  · obtain ⟨f, h1, h2⟩ := mapM_mem hm t ht
    exact fragment_fits hi hf h1 h2

theorem farewells_fit {E : Env} {A : Account} {c : Call} {n : Nat} {l : List (UInt32 × Instance)} {out : List Bytes}
    (h : Farewells E A c n l out) : ∀ t ∈ out, t.length ≤ c.messageSize := by
  induction h with
  | nil => nofun
  | young _ _ ih => exact ih
  | old _ _ h _ ih =>
    intro t ht
    rcases List.mem_append.mp ht with ht | ht
    · exact inTransit_fits h t ht
    · exact ih t ht

/-- C94: whatever a call sends on its own is at most as long as the host allows; a host must allow the 58 bytes of a query. -/
theorem C94_sent {E : Env} {A : Account} {c : Call} {h : List Ev} {s : Session} (hh : Hist E A h s) {op : Op}
    (np : (op.run E A c s).result ≠ .panic) (hc : 58 ≤ c.messageSize) {t : Bytes} (ht : t ∈ (op.run E A c s).sent) :
    t.length ≤ c.messageSize := by
  by_cases ho : ∃ n, op = .expire n
  · obtain ⟨n, rfl⟩ := ho
    rcases C23_expire E A h s hh c n with h | ⟨_, h, _⟩
    · exact absurd h np
    · exact farewells_fit h t ht
  · have hi := C87_injects (E := E) (A := A) (c := c) (op := op) hh (fun n h => ho ⟨n, h⟩)
    revert ht hi
    generalize (op.run E A c s).sent = out
    intro ht hi
    revert ht
    cases hi with
    | nothing => nofun
    | message _ _ _ h => exact inTransit_fits h t
    | error =>
      intro ht
      rw [List.mem_singleton.mp ht]
      exact Nat.le_trans (by decide) hc
    | query h =>
      intro ht
      rw [List.mem_singleton.mp ht]
      rcases h with ⟨_, rfl⟩ | ⟨_, _, rfl⟩ <;> exact Nat.le_trans (by decide) hc

/-- C94: encrypted texts are returned in pieces that are at most as long as the host allows. -/
theorem C94_encrypted {E : Env} {A : Account} {c : Call} {h : List Ev} {s : Session} (hh : Hist E A h s) (hv : SomeVersion A)
    {k : UInt32} {content : Bytes} (hs : s.status k = some .encrypted) {out : List Bytes}
    (hr : ((Op.send k content).run E A c s).result = .ok (.texts out)) : ∀ t ∈ out, t.length ≤ c.messageSize := by
  rcases C16_encrypted E A h s hh c k content hv hs with h | ⟨_, _, _, _, _, h, _, _, _, ht⟩
  · rw [h] at hr; cases hr
  · rw [h] at hr
    cases hr
    exact inTransit_fits ht

/-- C94: a text that is not encrypted is never cut; it is the text of the user without NUL bytes, and 24 bytes more at most. -/
theorem C94_plain {E : Env} {A : Account} {c : Call} {h : List Ev} {s : Session} (hh : Hist E A h s) (hv : SomeVersion A)
    {k : UInt32} {content : Bytes} (hs : s.status k ≠ some .encrypted) {out : List Bytes}
    (hr : ((Op.send k content).run E A c s).result = .ok (.texts out)) :
    ∃ t, out = [t] ∧ (noNul content).length ≤ t.length ∧ t.length ≤ (noNul content).length + 24 := by
  by_cases hq : RequiresEncryption A
  · obtain ⟨⟨e, he⟩, _⟩ := C15_no_leak E A c s k content hv hq hs
    rw [he] at hr; cases hr
  cases hst : s.status k with
  | none =>
    simp only [Op.run, perform, Session.send, not_disabled hv, Bool.false_eq_true, if_false, StM.bind_run, StM.gets, hst] at hr
    cases hr
  | some st =>
    cases st with
    | encrypted => exact absurd hst hs
    | finished => rw [C16_finished E A c s k content hv hst] at hr; cases hr
    | plaintext =>
      obtain ⟨h1, h2⟩ := C24_first E A h s hh c k content hv hq hst
      by_cases ht : SendsTags A ∧ ∀ ev ∈ h, ¬ Tags ev
      · obtain ⟨t, ht, h1⟩ := h1 ht
        rw [h1] at hr
        cases hr
        have hl : t.length = 8 := by
          rcases ht with ⟨_, rfl⟩ | ⟨_, _, rfl⟩ <;> rfl
        refine ⟨_, rfl, ?_, ?_⟩ <;> simp only [List.length_append, hl, TAG_MARK, List.length_cons, List.length_nil] <;> omega
      · rw [h2 ht] at hr
        cases hr
        exact ⟨_, rfl, Nat.le_refl _, by omega⟩

/-- The bound of 58 bytes is needed: a query is sent even if the host does not allow messages of this length. -/
theorem C94_needs_size (E : Env) (A : Account) (hA : SomeVersion A) (c : Call) (s : Session) : ∃ t,
    (Op.query.run E A c s).sent = [t] ∧ t.length = 58 := by
  have h4 : Version.v4 ∈ SUPPORTED_VERSIONS := by decide
  have h3 : Version.v3 ∈ SUPPORTED_VERSIONS := by decide
  simp only [Op.run, perform_sent, query]
  by_cases ha4 : A.policy.has ALLOW_V4 = true
  · have hf : filterVersions A.policy SUPPORTED_VERSIONS = [.v4] := if_pos ⟨h4, ha4⟩
    have ht : serialize (.query [.v4]) = .ok (ascii "?OTRv4? An Off-The-Record conversation has been requested.") := by decide +kernel
    simp only [hf, ht]
    exact ⟨_, rfl, by decide⟩
  · have ha3 : A.policy.has ALLOW_V3 = true := by
      rcases hA with h | h
      · exact (allowsV3_iff A).mpr h
      · exact absurd ((allowsV4_iff A).mpr h) ha4
    have hf : filterVersions A.policy SUPPORTED_VERSIONS = [.v3] := (if_neg (fun h => ha4 h.2)).trans (if_pos ⟨h3, ha3⟩)
    have ht : serialize (.query [.v3]) = .ok (ascii "?OTRv3? An Off-The-Record conversation has been requested.") := by decide +kernel
    simp only [hf, ht]
    exact ⟨_, rfl, by decide⟩

/-- Non-vacuity: in a reachable session, Alice answers Bob's D-H Key message in seven fragments of at most 60 bytes. -/
theorem _root_.Otrr.Spec.ToySession.a4_pieces : ((Op.receive (ToySession.msg ToySession.b3)).run ToySession.tinyEnv ToySession.acA
    (ToySession.callA 60 4) ToySession.a2.after).sent.map (·.length) = [60, 60, 60, 60, 60, 60, 58] ∧
    ((Op.receive (ToySession.msg ToySession.b3)).run ToySession.tinyEnv ToySession.acA (ToySession.callA 60 4) ToySession.a2.after).result ≠ .panic := by
  decide +kernel

example : ∃ h, Hist ToySession.tinyEnv ToySession.acA h ToySession.a2.after ∧
    ((Op.receive (ToySession.msg ToySession.b3)).run ToySession.tinyEnv ToySession.acA (ToySession.callA 60 4) ToySession.a2.after).result ≠ .panic ∧
    58 ≤ (ToySession.callA 60 4).messageSize ∧
    ((Op.receive (ToySession.msg ToySession.b3)).run ToySession.tinyEnv ToySession.acA (ToySession.callA 60 4) ToySession.a2.after).sent ≠ [] := by
  obtain ⟨h, hh⟩ := ToySession.hist_a2
  refine ⟨h, hh, ToySession.a4_pieces.2, by simp only [ToySession.callA]; decide, fun e => ?_⟩
  have := ToySession.a4_pieces.1
  rw [e] at this
  cases this

/-- Non-vacuity: texts are sent in an encrypted session, and in one in plaintext. -/
theorem _root_.Otrr.Spec.ToySession.sends_pieces : (∃ out, out.length = 4 ∧ ((Op.send 0x102 [104, 105]).run ToySession.tinyEnv ToySession.acA
    (ToySession.callA 60 6) ToySession.a4.after).result = .ok (.texts out)) ∧
    ((Op.send 0x102 [104, 105]).run ToySession.tinyEnv ToySession.acA (ToySession.callA 60 6) ToySession.a2.after).result = .ok (.texts [[104, 105]]) := by
  have h : (match ((Op.send 0x102 [104, 105]).run ToySession.tinyEnv ToySession.acA (ToySession.callA 60 6) ToySession.a4.after).result with
    | .ok (.texts out) => out.length | _ => 0) = 4 ∧
    ((Op.send 0x102 [104, 105]).run ToySession.tinyEnv ToySession.acA (ToySession.callA 60 6) ToySession.a2.after).result = .ok (.texts [[104, 105]]) := by
    decide +kernel
  refine ⟨?_, h.2⟩
  have h := h.1
  split at h
  · exact ⟨_, h, by assumption⟩
  · cases h

example : SomeVersion ToySession.acA ∧
    (∃ h, Hist ToySession.tinyEnv ToySession.acA h ToySession.a4.after) ∧ ToySession.a4.after.status 0x102 = some .encrypted ∧
    (∃ h, Hist ToySession.tinyEnv ToySession.acA h ToySession.a2.after) ∧ ToySession.a2.after.status 0x102 ≠ some .encrypted :=
  ⟨.inl (by simp only [AllowsV3, PolicyBit, ToySession.acA]; decide), ToySession.hist_a4, ToySession.status_a4, ToySession.hist_a2,
    by rw [ToySession.status_a2]; nofun⟩

end Props
end Otrr
