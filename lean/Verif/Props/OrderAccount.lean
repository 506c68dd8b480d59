import Verif.Spec.Order
import Verif.Props.Account
/-! C116: nothing depends on the order of the sessions of an account. -/

namespace Otrr.Props
open Otrr Otrr.Spec

theorem perm_of_lookups {κ α : Type} [DecidableEq κ] {m m' : List (κ × α)} (h : (m.map Prod.fst).Nodup) (h' : (m'.map Prod.fst).Nodup)
    (hl : ∀ k, lookup m' k = lookup m k) : m.Perm m' := by
  refine (List.perm_ext_iff_of_nodup (List.Nodup.of_map _ h) (List.Nodup.of_map _ h')).mpr ?_
  rintro ⟨k, i⟩
  constructor
  · intro hm
    exact lookup_mem ((hl k).trans (lookup_of_mem h hm))
  · intro hm
    exact lookup_mem ((hl k).symm.trans (lookup_of_mem h' hm))

theorem lookups_of_perm {κ α : Type} [DecidableEq κ] {m m' : List (κ × α)} (h : (m.map Prod.fst).Nodup) (hp : m.Perm m') (k : κ) : lookup m' k = lookup m k := by
  have h' : (m'.map Prod.fst).Nodup := (hp.map _).nodup_iff.mp h
  cases hl : lookup m k with
  | some i => exact lookup_of_mem h' (hp.mem_iff.mp (lookup_mem hl))
  | none =>
    cases hl' : lookup m' k with
    | none => rfl
    | some i => rw [lookup_of_mem h (hp.mem_iff.mpr (lookup_mem hl'))] at hl; cases hl

theorem lookup_absent {κ α : Type} [DecidableEq κ] {m : List (κ × α)} {k : κ} (h : lookup m k = .none) : k ∉ m.map (·.1) := by
  induction m with
  | nil => simp
  | cons e r ih =>
    obtain ⟨k', s'⟩ := e
    by_cases hk : k' = k
    · rw [lookup, if_pos hk] at h; cases h
    · rw [lookup, if_neg hk] at h
      intro hm
      rcases List.mem_cons.mp hm with hm | hm
      · exact hk hm.symm
      · exact ih h hm

theorem lookup_by_key {acc : AccountState} (a : Bytes) :
    lookup acc.sessions a = if a ∈ acc.sessions.map (·.1) then some (sessionOf acc a) else .none := by
  unfold sessionOf
  cases h : lookup acc.sessions a with
  | some s => rw [if_pos (List.mem_map_of_mem (f := (·.1)) (lookup_mem h))]; rfl
  | none => rw [if_neg (lookup_absent h)]

/-- The loop does not crash if no session does. -/
theorem expireSessions_fine {E : Env} {calls : Bytes → Call} {t : Nat} {as : List Bytes} (hn : as.Nodup) (w : AccountWorld)
    (he : ∀ a ∈ as, ((Op.expire t).run E (w.st.details a) (calls a) (sessionOf w.st a)).result = .ok .done) :
    (AccountState.expireSessions E calls t as w).1 ≠ .panic := by
  induction as generalizing w with
  | nil => simp [AccountState.expireSessions]
  | cons a as ih =>
    have ha := List.nodup_cons.mp hn
    rw [AccountState.expireSessions]
    simp only [StM.bind_run]
    rw [onSession_run]
    have hp := he a (List.mem_cons_self ..)
    have hr : (Op.expire t).run E (w.st.details a) (calls a) (sessionOf w.st a) =
      perform (Session.expire E (w.st.details a) (calls a) t) (fun _ => .done) (sessionOf w.st a) := rfl
    unfold perform at hr
    cases hx : Session.expire E (w.st.details a) (calls a) t ⟨sessionOf w.st a, []⟩ with
    | mk r v =>
      rw [hx] at hr
      dsimp only
      cases r with
      | panic => rw [hr] at hp; simp at hp
      | err e => rw [hr] at hp; simp at hp
      | ok u =>
        dsimp only
        refine ih ha.2 ⟨{ w.st with sessions := insertKey w.st.sessions a v.st }, w.sent ++ v.sent.map fun m => (a, m)⟩ ?_
        intro b hb
        have hab : a ≠ b := fun h => ha.1 (h ▸ hb)
        have := he b (List.mem_cons_of_mem _ hb)
        rw [sessionOf_insert, if_neg hab]
        exact this

/-- The effect of `expire` on an account whose sessions have histories. -/
theorem expire_effect {E : Env} {acc : AccountState} (hn : (acc.sessions.map (·.1)).Nodup) {t : Nat} {calls : Bytes → Call}
    (hx : ∀ a ∈ acc.sessions.map (·.1), ((Op.expire t).run E (acc.details a) (calls a) (sessionOf acc a)).result = .panic ∨
      ((Op.expire t).run E (acc.details a) (calls a) (sessionOf acc a)).result = .ok .done) :
    let e := (AccountOp.expire t calls).run E acc
    (e.result = .panic ∧ ∃ a ∈ acc.sessions.map (·.1), ((Op.expire t).run E (acc.details a) (calls a) (sessionOf acc a)).result = .panic) ∨
    (e.result = .ok .done ∧ (∀ b, e.after.details b = acc.details b) ∧ e.after.profile = acc.profile ∧ (e.after.sessions.map (·.1)).Nodup ∧
      (∀ b, b ∈ e.after.sessions.map (·.1) ↔ b ∈ acc.sessions.map (·.1)) ∧
      (∀ b, b ∉ acc.sessions.map (·.1) → sessionOf e.after b = sessionOf acc b ∧ messagesTo b e.sent = []) ∧
      (∀ b ∈ acc.sessions.map (·.1), let f := (Op.expire t).run E (acc.details b) (calls b) (sessionOf acc b)
        f.result = .ok .done ∧ sessionOf e.after b = f.after ∧ messagesTo b e.sent = f.sent)) := by
  intro e
  have hr : e = accPerform (AccountState.expire E calls t) (fun _ => .done) acc := rfl
  unfold accPerform AccountState.expire at hr
  simp only [StM.bind_run, StM.gets] at hr
  rcases expireSessions_run E calls t _ hn ⟨acc, []⟩ hx with h | ⟨w', h1, h2, h3, h7, h4, h5, h6⟩
  · left
    refine ⟨?_, ?_⟩
    · revert hr h
      generalize e = e
      cases AccountState.expireSessions E calls t (acc.sessions.map (·.1)) ⟨acc, []⟩ with
      | mk r w =>
        intro hr h
        dsimp only at h
        subst h
        rw [hr]
    · by_contra hno
      refine expireSessions_fine hn ⟨acc, []⟩ (fun a ha => ?_) h
      rcases hx a ha with h | h
      · exact (hno ⟨a, ha, h⟩).elim
      · exact h
  · right
    simp only [h1] at hr
    rw [hr]
    refine ⟨rfl, h2, h3, h7 hn, fun b => by rw [h4, or_self], fun b hb => h5 b hb, fun b hb => ?_⟩
    obtain ⟨k1, k2, k3⟩ := h6 b hb
    exact ⟨k1, k2, by simpa [messagesTo] using k3⟩

/-- C116: in whatever order the sessions of an account are kept, every call returns the same, leaves the same sessions, and sends the same messages, to each
address in the same order; only `expire` may go through the addresses in another order. -/
theorem C116_account (E : Env) (acc acc' acc2 : AccountState) (h : List AccountEv) (hnew : acc.sessions = []) (hh : AccountHist E acc h acc')
    (hr : ReorderedAccount acc' acc2) (op : AccountOp) :
    (op.run E acc2).result = (op.run E acc').result ∧ ((op.run E acc').result ≠ .panic →
      ReorderedAccount (op.run E acc').after (op.run E acc2).after ∧
      (∀ a, messagesTo a (op.run E acc2).sent = messagesTo a (op.run E acc').sent) ∧
      ((∀ t calls, op ≠ .expire t calls) → (op.run E acc2).sent = (op.run E acc').sent)) := by
  obtain ⟨i1, i2, i3, i4⟩ := acc_inv E acc acc' h hnew hh
  obtain ⟨hp, r1, r2, r3, r4⟩ := hr
  have hn2 : (acc2.sessions.map Prod.fst).Nodup := (hp.map _).nodup_iff.mp i3
  have hl : ∀ a, lookup acc2.sessions a = lookup acc'.sessions a := lookups_of_perm i3 hp
  have hs : ∀ a, sessionOf acc2 a = sessionOf acc' a := fun a => by unfold sessionOf; rw [hl]
  have hd : ∀ a, acc2.details a = acc'.details a := fun a => by unfold AccountState.details; rw [r1, r2, r3]
  cases op with
  | session a =>
    refine ⟨rfl, fun _ => ⟨⟨?_, ?_⟩, fun _ => rfl, fun _ => rfl⟩⟩
    · simp only [AccountOp.run, AccountState.openSession, hl]
      cases lookup acc'.sessions a with
      | some s => exact hp
      | none => exact perm_of_lookups (insertKey_nodup i3 _ _) (insertKey_nodup hn2 _ _) fun k => by simp only [lookup_insertKey, hl]
    · simp only [AccountOp.run, AccountState.openSession, hl]
      cases lookup acc'.sessions a <;> exact ⟨r1, r2, r3, r4⟩
  | call a op c =>
    rw [call_run, call_run, hd, hs]
    refine ⟨rfl, fun _ => ⟨⟨?_, r1, r2, r3, r4⟩, fun _ => rfl, fun _ => rfl⟩⟩
    refine perm_of_lookups (insertKey_nodup i3 _ _) (insertKey_nodup hn2 _ _) fun k => ?_
    show lookup (insertKey _ _ _) _ = lookup (insertKey _ _ _) _
    rw [lookup_insertKey, lookup_insertKey, hl]
  | expire t calls =>
    have hx : ∀ a ∈ acc'.sessions.map (·.1), ((Op.expire t).run E (acc'.details a) (calls a) (sessionOf acc' a)).result = .panic ∨
        ((Op.expire t).run E (acc'.details a) (calls a) (sessionOf acc' a)).result = .ok .done := by
      intro a _
      rw [i1]
      exact (C23_expire E _ _ _ (i4 a).1 (calls a) t).imp id And.left
    have hk : ∀ a, a ∈ acc2.sessions.map (·.1) ↔ a ∈ acc'.sessions.map (·.1) := fun a => (hp.map _).mem_iff.symm
    have hx2 : ∀ a ∈ acc2.sessions.map (·.1), ((Op.expire t).run E (acc2.details a) (calls a) (sessionOf acc2 a)).result = .panic ∨
        ((Op.expire t).run E (acc2.details a) (calls a) (sessionOf acc2 a)).result = .ok .done := by
      intro a ha
      rw [hd, hs]
      exact hx a ((hk a).mp ha)
    have e1 := expire_effect i3 hx
    have e2 := expire_effect hn2 hx2
    rcases e1 with ⟨e1, a, ha, hap⟩ | ⟨e1, d1, p1, n1, k1, s1, t1⟩
    · rcases e2 with ⟨e2, -⟩ | ⟨-, -, -, -, -, -, t2⟩
      · exact ⟨e2.trans e1.symm, fun h => (h e1).elim⟩
      · have := (t2 a ((hk a).mpr ha)).1
        rw [hd, hs, hap] at this
        cases this
    · rcases e2 with ⟨-, a, ha, hap⟩ | ⟨e2, d2, p2, n2, k2, s2, t2⟩
      · have := (t1 a ((hk a).mp ha)).1
        rw [hd, hs] at hap
        rw [hap] at this
        cases this
      · have hsess : ∀ b, sessionOf ((AccountOp.expire t calls).run E acc2).after b = sessionOf ((AccountOp.expire t calls).run E acc').after b ∧
            messagesTo b ((AccountOp.expire t calls).run E acc2).sent = messagesTo b ((AccountOp.expire t calls).run E acc').sent := by
          intro b
          by_cases hb : b ∈ acc'.sessions.map (·.1)
          · have u1 := t1 b hb
            have u2 := t2 b ((hk b).mpr hb)
            rw [hd, hs] at u2
            exact ⟨u2.2.1.trans u1.2.1.symm, u2.2.2.trans u1.2.2.symm⟩
          · have u1 := s1 b hb
            have u2 := s2 b (fun h => hb ((hk b).mp h))
            exact ⟨u2.1.trans ((hs b).trans u1.1.symm), u2.2.trans u1.2.symm⟩
        refine ⟨e2.trans e1.symm, fun _ => ⟨⟨?_, ?_⟩, fun a => (hsess a).2, fun h => (h t calls rfl).elim⟩⟩
        · refine perm_of_lookups n1 n2 fun k => ?_
          rw [lookup_by_key, lookup_by_key, (hsess k).1]
          simp only [k2, k1, hk]
        · have v1 := d1 []
          have v2 := d2 []
          have v3 := hd []
          rw [v3] at v2
          have v := v1.trans v2.symm
          simp only [AccountState.details, Account.mk.injEq] at v
          exact ⟨v.1, v.2.1, v.2.2.1, p1.trans (r4.trans p2.symm)⟩

/-- The hypotheses are met by an account with two sessions. -/
example : ∃ (acc acc' acc2 : AccountState) (h : List AccountEv), acc.sessions = [] ∧ AccountHist toyEnv acc h acc' ∧ ReorderedAccount acc' acc2 ∧
    acc'.sessions ≠ acc2.sessions := by
  let acc : AccountState := ⟨⟨0⟩, 0x100, [1], toyProfile, []⟩
  refine ⟨acc, (acc.openSession [2]).openSession [3], { acc with sessions := [([3], .new), ([2], .new)] }, _, rfl,
    .step (op := .session [3]) (.step (op := .session [2]) .start rfl (by simp [AccountOp.run])) rfl (by simp [AccountOp.run]), ⟨List.Perm.swap .., rfl, rfl, rfl, rfl⟩, ?_⟩
  simp [acc, AccountState.openSession, lookup, insertKey]

end Otrr.Props
