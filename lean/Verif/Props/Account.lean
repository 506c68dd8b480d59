import Verif.Spec.Account
import Verif.Props.Profile
import Verif.Props.Session
/-!
# Properties of accounts: C79 and C80
-/

namespace Otrr.Props
open Otrr Otrr.Spec

/-! ## C79 -/

theorem randomTag_ok {ds : List UInt32} {t : UInt32} (h : randomTag ds = .ok t) : 0x100 ≤ t := by
  induction ds with
  | nil => simp [randomTag] at h
  | cons d ds ih =>
    rw [randomTag] at h
    split at h
    · cases h; assumption
    · exact ih h

theorem freshProfile_ok {E : Env} {h : NewAccount} {tag : UInt32} {p : ClientProfile} (hp : freshProfile E h tag = .ok p) :
    p.ownerTag = tag ∧ p.identityKey = h.identity.pub ∧ p.forgingKey = h.forging ∧
    p.versions = .v4 :: (if h.keypair.isSome then [.v3] else []) ∧ p.expiration.toNat = h.now + 604800 ∧
    p.legacyKey = h.keypair.map (·.pk) := by
  unfold freshProfile at hp
  simp only [Res.bind_eq_ok, Res.expect_eq_ok, ClientProfile.new, Res.assert_eq_ok, decide_eq_true_eq, ClientProfile.validate,
    Res.pure_def, Res.ok.injEq] at hp
  obtain ⟨_, hn, _, ⟨_, _, _, h1, _, h2, _, _, _⟩, rfl⟩ := hp
  refine ⟨rfl, rfl, rfl, rfl, ?_, rfl⟩
  dsimp only
  rw [UInt64.toNat_ofNat']
  omega

theorem identity_onCurve {c : Curve} (h : GoodField c) : OnCurve c Point.identity :=
  ⟨h.prime.pos, h.prime.one_lt, by simp [Point.identity]⟩

theorem edValidate_ok {E : Env} (hc : GoodCurve E.curve) {pk : Point} {sig : EdSignature} {m : Bytes} (h : edValidate E pk sig m = .ok ()) :
    sig.r ≠ Point.identity.encode ∧ NonZero sig.s := by
  unfold edValidate at h
  simp only [Res.bind_eq_ok] at h
  obtain ⟨R, h1, _, h2, h3⟩ := h
  constructor
  · intro hr
    have hid : OnCurve E.curve Point.identity := identity_onCurve hc.field
    rw [hr, Point.decode_encode hc.field hid] at h1
    cases h1
    exact (pointVerify_iff.mp h2).1 rfl
  · split at h3
    · cases h3
    · rename_i hs
      simp only [not_or] at hs
      rw [leNat_zero_iff] at hs
      simpa [NonZero] using hs.1

theorem sign_ok {E : Env} {p : ClientProfile} {k : EdDSAKeyPair} {l : Option DSAKeypair} {P : ClientProfilePayload}
    (h : p.sign E k l = .ok P) : P = ⟨p.signedFields E l, k.sign E (wFields (p.signedFields E l))⟩ ∧ ∃ q, P.validate E = .ok q := by
  unfold ClientProfile.sign at h
  simp only [Res.bind_eq_ok, Res.assert_eq_ok, Res.pure_def, Res.ok.injEq, exists_const] at h
  obtain ⟨_, _, _, hv, rfl⟩ := h
  refine ⟨rfl, ?_⟩
  revert hv
  cases ClientProfilePayload.validate E ⟨p.signedFields E l, k.sign E (wFields (p.signedFields E l))⟩ with
  | ok q => exact fun _ => ⟨q, rfl⟩
  | err e => exact fun h => by cases h
  | panic => exact fun h => by cases h

theorem generate_inv {E : Env} (hc : GoodCurve E.curve) {h : NewAccount} (hh : ProperHost E h) {ds : List UInt32} {p : ClientProfile}
    {b : Bytes} (hg : generateProfile E h ds = .ok (p, b)) :
    0x100 ≤ p.ownerTag ∧ p.identityKey = h.identity.pub ∧ p.forgingKey = h.forging ∧
    p.versions = .v4 :: (if h.keypair.isSome then [.v3] else []) ∧ p.expiration.toNat = h.now + 604800 ∧
    p.legacyKey = h.keypair.map (·.pk) ∧ ∃ P, b = wPayload P ∧ P.validate E = .ok p ∧ WfPayload E P := by
  unfold generateProfile at hg
  simp only [Res.bind_eq_ok, Res.pure_def, Res.ok.injEq, Prod.mk.injEq] at hg
  obtain ⟨tag, h1, p', h2, P, h3, rfl, rfl⟩ := hg
  obtain ⟨i1, i2, i3, i4, i5, i6⟩ := freshProfile_ok h2
  obtain ⟨rk, hid⟩ := hh.identity
  obtain ⟨rf, hfo⟩ := hh.forging
  refine ⟨i1 ▸ randomTag_ok h1, i2, i3, i4, i5, i6, P, rfl, ?_⟩
  obtain ⟨rfl, q, hq⟩ := sign_ok h3
  have hv := (payload_validate_spec hq).2.2.2.2.2.2.2.1
  obtain ⟨s1, s2⟩ := edValidate_ok hc hv
  rw [hid] at s1 s2 i2
  obtain ⟨P', k1, k2, k3⟩ := signed_wf E hc p' rk h.keypair i2 i6 (i1 ▸ .inr (randomTag_ok h1)) (i3 ▸ hfo ▸ (mulG_good hc _).1)
    (by rw [i4]; simp) (by rw [i4]; split <;> simp) (by rw [i4]; split <;> simp) (by rw [i4]; split <;> simp_all) hh.keypair s1 s2
  rw [hid, k1] at h3
  cases h3
  rw [hid]
  exact ⟨k2, k3⟩

/-- C79: an account that is made while the host has no usable profile has a new one: with a valid tag of its own, the keys of the
host, OTRv4 and, if there is a DSA key, OTRv3, for one week.  It is handed to the host.  An account that is made later with what was
handed over, at whatever time and with whatever keys, has the same tag and profile, and hands nothing over. -/
theorem C79_restart (E : Env) (hc : GoodCurve E.curve) (h : NewAccount) (hh : ProperHost E h) (name : Bytes) (policy : Policy)
    (draws : List UInt32) (acc : AccountState) (out : List Bytes) (hnew : AccountState.new E name policy h draws = .ok (acc, out))
    (hfail : ∃ e, restoreProfile E h.stored = .err e) :
    acc.policy = policy ∧ acc.name = name ∧ acc.sessions = [] ∧ acc.tag = acc.profile.ownerTag ∧ 0x100 ≤ acc.tag ∧
    acc.profile.identityKey = h.identity.pub ∧ acc.profile.forgingKey = h.forging ∧
    acc.profile.versions = .v4 :: (if h.keypair.isSome then [.v3] else []) ∧
    acc.profile.expiration.toNat = h.now + 7 * 24 * 3600 ∧ acc.profile.legacyKey = h.keypair.map (·.pk) ∧
    ∃ bytes, out = [bytes] ∧ ∀ name' policy' h' draws', h'.stored = bytes →
      AccountState.new E name' policy' h' draws' = .ok (⟨policy', acc.tag, name', acc.profile, []⟩, []) := by
  obtain ⟨e, hfail⟩ := hfail
  unfold AccountState.new at hnew
  rw [hfail] at hnew
  simp only [Res.bind_eq_ok, Res.pure_def, Res.ok.injEq, Prod.mk.injEq] at hnew
  obtain ⟨⟨p, b⟩, hg, rfl, rfl⟩ := hnew
  obtain ⟨i1, i2, i3, i4, i5, i6, P, rfl, hv, hw⟩ := generate_inv hc hh hg
  refine ⟨rfl, rfl, rfl, rfl, i1, i2, i3, i4, i5, i6, _, rfl, ?_⟩
  intro name' policy' h' draws' hs
  have hr : restoreProfile E h'.stored = .ok p := by
    rw [hs]
    unfold restoreProfile
    have := readPayload_w hc.field hw []
    rw [List.append_nil] at this
    have h2 : runDec (do let p ← readPayload E; decDone; pure p) (wPayload P) = .ok P :=
      runDec_ok.mpr ⟨[], by rw [Dec.bind_ok this]; rfl⟩
    rw [h2]
    exact hv
  unfold AccountState.new
  rw [hr]

/-- An account that is made while the host has a usable profile uses that and hands nothing to the host. -/
theorem C79_restored (E : Env) (h : NewAccount) (name : Bytes) (policy : Policy) (draws : List UInt32) (P : ClientProfilePayload)
    (p : ClientProfile) (hr : readPayload E h.stored = .ok (P, [])) (hp : P.validate E = .ok p) :
    AccountState.new E name policy h draws = .ok (⟨policy, p.ownerTag, name, p, []⟩, []) := by
  have h2 : restoreProfile E h.stored = .ok p := by
    unfold restoreProfile
    have : runDec (do let p ← readPayload E; decDone; pure p) h.stored = .ok P :=
      runDec_ok.mpr ⟨[], by rw [Dec.bind_ok hr]; rfl⟩
    rw [this]
    exact hp
  unfold AccountState.new
  rw [h2]

/-! ## C81 -/

/-- C81, as far as it holds: the profile of an account that was made while the host had no usable one is valid for a week and
has the keys of the host. -/
theorem C81_partial (E : Env) (hc : GoodCurve E.curve) (h : NewAccount) (hh : ProperHost E h) (name : Bytes) (policy : Policy)
    (draws : List UInt32) (acc : AccountState) (out : List Bytes) (hnew : AccountState.new E name policy h draws = .ok (acc, out))
    (hfail : ∃ e, restoreProfile E h.stored = .err e) :
    h.now < acc.profile.expiration.toNat ∧ acc.profile.identityKey = h.identity.pub ∧ acc.profile.forgingKey = h.forging ∧
    acc.profile.legacyKey = h.keypair.map (·.pk) := by
  obtain ⟨_, _, _, _, _, h1, h2, _, h3, h4, _⟩ := C79_restart E hc h hh name policy draws acc out hnew hfail
  exact ⟨by omega, h1, h2, h4⟩

/-- C81 is false of the code: the profile made for any host is used after its end, and with other keys of the host.
src/clientprofile.rs 151-267 does not look at the time, src/session.rs 57-64 not at the keys. -/
theorem C81_violated (E : Env) (hc : GoodCurve E.curve) (h : NewAccount) (hh : ProperHost E h) (name : Bytes) (policy : Policy)
    (draws : List UInt32) (acc : AccountState) (out : List Bytes) (hnew : AccountState.new E name policy h draws = .ok (acc, out))
    (hfail : ∃ e, restoreProfile E h.stored = .err e) :
    ∃ bytes, out = [bytes] ∧
    (∀ now draws, h.now + 7 * 24 * 3600 ≤ now → ∃ acc', AccountState.new E name policy { h with stored := bytes, now := now } draws =
      .ok (acc', []) ∧ acc'.profile.expiration.toNat ≤ now) ∧
    (∀ k draws, k.pub ≠ h.identity.pub → ∃ acc', AccountState.new E name policy { h with stored := bytes, identity := k } draws =
      .ok (acc', []) ∧ acc'.profile.identityKey ≠ k.pub) := by
  obtain ⟨_, _, _, _, _, h1, h2, _, h3, h4, b, rfl, h5⟩ := C79_restart E hc h hh name policy draws acc out hnew hfail
  exact ⟨b, rfl, fun now draws hn => ⟨_, h5 _ _ _ _ rfl, by dsimp only; omega⟩,
    fun k draws hk => ⟨_, h5 _ _ _ _ rfl, fun h => hk (by rw [← h, ← h1])⟩⟩

namespace ToyAccount

/-- A host without a profile and without a DSA key. -/
def host : NewAccount := ⟨[], EdDSAKeyPair.generate toyEnv [7], (EdDSAKeyPair.generate toyEnv [2]).pub, .none, 5⟩

@[irreducible] def made : Res (AccountState × List Bytes) := AccountState.new toyEnv [97] 0x104 host [7, 0x100]

theorem proper : ProperHost toyEnv host := by
  refine ⟨⟨[7], ?_⟩, ⟨[2], ?_⟩, fun k h => ?_⟩
  · simp only [host]
  · simp only [host]
  · simp [host] at h

theorem made_ok : made.isOk = true := by decide +kernel

theorem fails : ∃ e, restoreProfile toyEnv host.stored = .err e := ⟨.incompleteMessage, by decide +kernel⟩

end ToyAccount

/-- The hypotheses of C79 and C81 hold of a toy host. -/
example : GoodCurve toyEnv.curve ∧ ProperHost toyEnv ToyAccount.host ∧ (∃ e, restoreProfile toyEnv ToyAccount.host.stored = .err e) ∧
    (∃ acc out, AccountState.new toyEnv [97] 0x104 ToyAccount.host [7, 0x100] = .ok (acc, out)) := by
  refine ⟨toy_goodCurve, ToyAccount.proper, ToyAccount.fails, ?_⟩
  have h := ToyAccount.made_ok
  have e : AccountState.new toyEnv [97] 0x104 ToyAccount.host [7, 0x100] = ToyAccount.made := by unfold ToyAccount.made; rfl
  rw [e]
  revert h
  cases ToyAccount.made with
  | ok x => exact fun _ => ⟨x.1, x.2, rfl⟩
  | err _ => exact fun h => by cases h
  | panic => exact fun h => by cases h

/-! ## C80 -/

theorem insertKey_twice {κ α : Type} [DecidableEq κ] (m : List (κ × α)) (k : κ) (a b : α) :
    insertKey (insertKey m k a) k b = insertKey m k b := by
  induction m with
  | nil => simp [insertKey]
  | cons e m ih =>
    obtain ⟨k', a'⟩ := e
    by_cases h : k' = k
    · simp [insertKey, h]
    · simp [insertKey, h, ih]

theorem sessionOf_open (acc : AccountState) (a b : Bytes) : sessionOf (acc.openSession a) b = sessionOf acc b := by
  unfold sessionOf AccountState.openSession
  cases h : lookup acc.sessions a with
  | some s => rfl
  | none =>
    simp only [lookup_insertKey]
    by_cases hab : a = b
    · subst hab; simp [h]
    · simp [hab]

theorem open_insert (acc : AccountState) (a : Bytes) (s : Session) :
    { acc.openSession a with sessions := insertKey (acc.openSession a).sessions a s } =
      { acc with sessions := insertKey acc.sessions a s } := by
  unfold AccountState.openSession
  cases h : lookup acc.sessions a with
  | some s' => rfl
  | none => simp only [insertKey_twice]

/-- What a call on a session of an account does. -/
def lifted (acc : AccountState) (a : Bytes) (e : Effect) : AccountEffect :=
  ⟨e.result, { acc with sessions := insertKey acc.sessions a e.after }, e.sent.map fun m => (a, m)⟩

theorem onSession_run {α : Type} (f : Account → SessM α) (w : AccountWorld) (a : Bytes) :
    AccountState.onSession a f w = ((f (w.st.details a) ⟨sessionOf w.st a, []⟩).1,
      ⟨{ w.st with sessions := insertKey w.st.sessions a (f (w.st.details a) ⟨sessionOf w.st a, []⟩).2.st },
        w.sent ++ (f (w.st.details a) ⟨sessionOf w.st a, []⟩).2.sent.map fun m => (a, m)⟩) := by
  have hd : (w.st.openSession a).details a = w.st.details a := by
    unfold AccountState.openSession; cases lookup w.st.sessions a <;> rfl
  have hs := sessionOf_open w.st a a
  unfold sessionOf at hs
  unfold AccountState.onSession
  simp only [hd, hs, open_insert]
  rfl

theorem onSession_perform {α : Type} (f : Account → SessM α) (g : α → Answer) (acc : AccountState) (a : Bytes) :
    accPerform (AccountState.onSession a f) g acc = lifted acc a (perform (f (acc.details a)) g (sessionOf acc a)) := by
  unfold accPerform perform lifted
  rw [onSession_run]
  simp only [List.nil_append]
  cases hr : f (acc.details a) ⟨sessionOf acc a, []⟩ with
  | mk r w => cases r <;> rfl

theorem call_run (E : Env) (acc : AccountState) (a : Bytes) (op : Op) (c : Call) :
    (AccountOp.call a op c).run E acc = lifted acc a (op.run E (acc.details a) c (sessionOf acc a)) := by
  cases op <;> exact onSession_perform _ _ _ _

theorem sessionOf_insert (acc : AccountState) (a b : Bytes) (s : Session) :
    sessionOf { acc with sessions := insertKey acc.sessions a s } b = if a = b then s else sessionOf acc b := by
  unfold sessionOf
  simp only [lookup_insertKey]
  split <;> rfl

theorem mem_insertKey {κ α : Type} [DecidableEq κ] (m : List (κ × α)) (k : κ) (a : α) (x : κ) :
    x ∈ (insertKey m k a).map (·.1) ↔ x ∈ m.map (·.1) ∨ x = k := by
  have := insertKey_keys m k a
  change (insertKey m k a).map (·.1) = _ at this
  rw [this]
  split
  · rename_i h
    exact ⟨.inl, fun hx => hx.elim id fun hx => hx ▸ h⟩
  · simp

theorem messagesTo_append (a : Bytes) (x y : List (Bytes × Bytes)) : messagesTo a (x ++ y) = messagesTo a x ++ messagesTo a y := by
  simp [messagesTo]

theorem messagesTo_map (a b : Bytes) (x : List Bytes) : messagesTo a (x.map fun m => (b, m)) = if b = a then x else [] := by
  unfold messagesTo
  induction x with
  | nil => simp
  | cons m x ih =>
    by_cases h : b = a
    · simp_all
    · simp_all

theorem expireSessions_run (E : Env) (calls : Bytes → Call) (t : Nat) (as : List Bytes) (hn : as.Nodup) (w : AccountWorld)
    (he : ∀ a ∈ as, ((Op.expire t).run E (w.st.details a) (calls a) (sessionOf w.st a)).result = .panic ∨
      ((Op.expire t).run E (w.st.details a) (calls a) (sessionOf w.st a)).result = .ok .done) :
    (AccountState.expireSessions E calls t as w).1 = .panic ∨ ∃ w', AccountState.expireSessions E calls t as w = (.ok (), w') ∧
      (∀ b, w'.st.details b = w.st.details b) ∧ w'.st.profile = w.st.profile ∧ ((w.st.sessions.map (·.1)).Nodup → (w'.st.sessions.map (·.1)).Nodup) ∧
      (∀ b, b ∈ w'.st.sessions.map (·.1) ↔ b ∈ w.st.sessions.map (·.1) ∨ b ∈ as) ∧
      (∀ b, b ∉ as → sessionOf w'.st b = sessionOf w.st b ∧ messagesTo b w'.sent = messagesTo b w.sent) ∧
      (∀ b ∈ as, let e := (Op.expire t).run E (w.st.details b) (calls b) (sessionOf w.st b)
        e.result = .ok .done ∧ sessionOf w'.st b = e.after ∧ messagesTo b w'.sent = messagesTo b w.sent ++ e.sent) := by
  induction as generalizing w with
  | nil => exact .inr ⟨w, rfl, fun _ => rfl, rfl, id, by simp, by simp, by simp⟩
  | cons a as ih =>
    have ha := List.nodup_cons.mp hn
    rw [AccountState.expireSessions]
    simp only [StM.bind_run]
    rw [onSession_run]
    have hp := he a (List.mem_cons_self ..)
    have hr : (Op.expire t).run E (w.st.details a) (calls a) (sessionOf w.st a) =
      perform (Session.expire E (w.st.details a) (calls a) t) (fun _ => .done) (sessionOf w.st a) := rfl
    unfold perform at hr
    cases hx : Session.expire E (w.st.details a) (calls a) t ⟨sessionOf w.st a, []⟩ with
    | mk r v =>
      rw [hx] at hr
      dsimp only
      cases r with
      | panic => exact .inl rfl
      | err e => rw [hr] at hp; simp at hp
      | ok u =>
        dsimp only
        rcases ih ha.2 ⟨{ w.st with sessions := insertKey w.st.sessions a v.st }, w.sent ++ v.sent.map fun m => (a, m)⟩ (by
          intro b hb
          have hab : a ≠ b := fun h => ha.1 (h ▸ hb)
          have := he b (List.mem_cons_of_mem _ hb)
          rw [sessionOf_insert, if_neg hab]
          exact this) with h | ⟨w', h1, h2, h3, h7, h4, h5, h6⟩
        · exact .inl h
        · refine .inr ⟨w', h1, h2, h3, fun hn => h7 (insertKey_nodup hn _ _), ?_, ?_, ?_⟩
          · intro b
            rw [h4, mem_insertKey]
            simp only [List.mem_cons]
            tauto
          · intro b hb
            simp only [List.mem_cons, not_or] at hb
            obtain ⟨k1, k2⟩ := h5 b hb.2
            rw [sessionOf_insert, if_neg (Ne.symm hb.1)] at k1
            rw [messagesTo_append, messagesTo_map, if_neg (Ne.symm hb.1), List.append_nil] at k2
            exact ⟨k1, k2⟩
          · intro b hb
            rcases List.mem_cons.mp hb with rfl | hb
            · obtain ⟨k1, k2⟩ := h5 b ha.1
              rw [sessionOf_insert, if_pos rfl] at k1
              rw [messagesTo_append, messagesTo_map, if_pos rfl] at k2
              rw [hr]
              exact ⟨rfl, k1, k2⟩
            · have hab : a ≠ b := fun h => ha.1 (h ▸ hb)
              obtain ⟨k1, k2, k3⟩ := h6 b hb
              rw [sessionOf_insert, if_neg hab] at k1 k2 k3
              rw [messagesTo_append, messagesTo_map, if_neg hab, List.append_nil] at k3
              exact ⟨k1, k2, k3⟩

/-- Whether a session with address `a` was opened. -/
def openedIn (a : Bytes) (opened : Bool) : List AccountEv → Bool
  | [] => opened
  | ⟨.session b, _, _⟩ :: h => openedIn a (opened || b == a) h
  | ⟨.call b _ _, _, _⟩ :: h => openedIn a (opened || b == a) h
  | ⟨.expire _ _, _, _⟩ :: h => openedIn a opened h

theorem historyOf_append (a : Bytes) (x y : List AccountEv) (o : Bool) :
    historyOf a o (x ++ y) = historyOf a o x ++ historyOf a (openedIn a o x) y := by
  induction x generalizing o with
  | nil => rfl
  | cons e x ih =>
    obtain ⟨op, r, sent⟩ := e
    cases op with
    | session b => simp only [List.cons_append, historyOf, openedIn, ih]
    | call b op c =>
      simp only [List.cons_append, historyOf, openedIn, ih]
      by_cases h : b = a
      · simp [h]
      · have : (b == a) = false := by simpa using h
        simp [h, this]
    | expire t calls =>
      simp only [List.cons_append, historyOf, openedIn, ih]
      split <;> rfl

theorem openedIn_append (a : Bytes) (x y : List AccountEv) (o : Bool) :
    openedIn a o (x ++ y) = openedIn a (openedIn a o x) y := by
  induction x generalizing o with
  | nil => rfl
  | cons e x ih =>
    obtain ⟨op, r, sent⟩ := e
    cases op <;> simp only [List.cons_append, openedIn, ih]

theorem acc_inv (E : Env) (acc acc' : AccountState) (h : List AccountEv) (hnew : acc.sessions = [])
    (hh : AccountHist E acc h acc') :
    (∀ b, acc'.details b = acc.details b) ∧ acc'.profile = acc.profile ∧ (acc'.sessions.map (·.1)).Nodup ∧
      ∀ a, Hist E (acc.details a) (historyOf a false h) (sessionOf acc' a) ∧
        (openedIn a false h = true ↔ a ∈ acc'.sessions.map (·.1)) := by
  induction hh with
  | start => exact ⟨fun _ => rfl, rfl, by simp [hnew], fun a => ⟨by simp only [sessionOf, hnew, lookup]; exact Hist.new, by simp [openedIn, hnew]⟩⟩
  | @step h acc' op e hh he hp ih =>
    obtain ⟨i1, i2, i3, i4⟩ := ih
    cases op with
    | session b =>
      subst he
      have hk : ∀ x, x ∈ (acc'.openSession b).sessions.map (·.1) ↔ x ∈ acc'.sessions.map (·.1) ∨ x = b := by
        intro x
        unfold AccountState.openSession
        cases hl : lookup acc'.sessions b with
        | some s => exact ⟨.inl, fun h => h.elim id fun h => by subst h; exact List.mem_map_of_mem (f := (·.1)) (lookup_mem hl)⟩
        | none => exact mem_insertKey ..
      refine ⟨fun a => ?_, ?_, ?_, fun a => ⟨?_, ?_⟩⟩
      · rw [← i1]; simp only [AccountOp.run, AccountState.openSession]; split <;> rfl
      · rw [← i2]; simp only [AccountOp.run, AccountState.openSession]; split <;> rfl
      · simp only [AccountOp.run, AccountState.openSession]
        split
        · exact i3
        · exact insertKey_nodup i3 _ _
      · rw [historyOf_append]
        simp only [historyOf, List.append_nil, AccountOp.run, sessionOf_open]
        exact (i4 a).1
      · rw [openedIn_append]
        simp only [openedIn, Bool.or_eq_true, beq_iff_eq, (i4 a).2, AccountOp.run]
        rw [hk, eq_comm (a := b)]
    | call b op c =>
      rw [call_run, i1] at he
      subst he
      refine ⟨fun a => i1 a, i2, insertKey_nodup i3 _ _, fun a => ⟨?_, ?_⟩⟩
      · rw [historyOf_append]
        simp only [historyOf, lifted, sessionOf_insert]
        by_cases hab : b = a
        · subst hab
          simp only [if_true, messagesTo_map]
          exact .step (i4 b).1 rfl hp
        · simp only [if_neg hab, List.append_nil]
          exact (i4 a).1
      · rw [openedIn_append]
        simp only [openedIn, Bool.or_eq_true, beq_iff_eq, (i4 a).2, lifted]
        rw [mem_insertKey, eq_comm (a := b)]
    | expire t calls =>
      have hx : ∀ a ∈ acc'.sessions.map (·.1), ((Op.expire t).run E (acc'.details a) (calls a) (sessionOf acc' a)).result = .panic ∨
          ((Op.expire t).run E (acc'.details a) (calls a) (sessionOf acc' a)).result = .ok .done := by
        intro a _
        rw [i1]
        exact (C23_expire E _ _ _ (i4 a).1 (calls a) t).imp id And.left
      have hr : (AccountOp.expire t calls).run E acc' = accPerform (AccountState.expire E calls t) (fun _ => .done) acc' := rfl
      rw [hr] at he
      unfold accPerform AccountState.expire at he
      simp only [StM.bind_run, StM.gets] at he
      rcases expireSessions_run E calls t _ i3 ⟨acc', []⟩ hx with h | ⟨w', h1, h2, h3, h7, h4, h5, h6⟩
      · revert he h
        cases AccountState.expireSessions E calls t (acc'.sessions.map (·.1)) ⟨acc', []⟩ with
        | mk r w =>
          intro he h
          dsimp only at h
          subst h
          dsimp only at he
          subst he
          exact (hp rfl).elim
      · simp only [h1] at he
        subst he
        refine ⟨fun a => (h2 a).trans (i1 a), h3.trans i2, h7 i3, fun a => ⟨?_, ?_⟩⟩
        · rw [historyOf_append]
          simp only [historyOf]
          by_cases ho : openedIn a false h = true
          · rw [if_pos ho]
            obtain ⟨k1, k2, k3⟩ := h6 a ((i4 a).2.mp ho)
            rw [i1] at k1 k2 k3
            have := Hist.step (i4 a).1 (op := .expire t) (c := calls a) rfl (by rw [k1]; simp)
            rw [k1] at this
            simp only [messagesTo, List.filter_nil, List.map_nil, List.nil_append] at k3
            rw [k2]
            unfold messagesTo
            rw [k3]
            exact this
          · rw [if_neg ho, List.append_nil]
            rw [(h5 a (fun h => ho ((i4 a).2.mpr h))).1]
            exact (i4 a).1
        · rw [openedIn_append]
          simp only [openedIn, (i4 a).2, h4, or_self]

/-- C80: whatever is done with an account, each of its sessions has a history of its own: the calls made on it and the
expirations of the account since it was opened, with the results and messages of these calls, and with the tag, name and policy
of the account.  So all theorems about `Hist` hold for the sessions of accounts. -/
theorem C80_sessions (E : Env) (acc acc' : AccountState) (h : List AccountEv) (hnew : acc.sessions = [])
    (hh : AccountHist E acc h acc') :
    acc'.policy = acc.policy ∧ acc'.tag = acc.tag ∧ acc'.name = acc.name ∧ acc'.profile = acc.profile ∧
    ∀ a, Hist E ⟨acc.policy, acc.tag, acc.name, a⟩ (historyOf a false h) (sessionOf acc' a) := by
  obtain ⟨h1, h2, _, h3⟩ := acc_inv E acc acc' h hnew hh
  have := h1 []
  simp only [AccountState.details, Account.mk.injEq] at this
  exact ⟨this.1, this.2.1, this.2.2.1, h2, fun a => (h3 a).1⟩

theorem hist_calls {E : Env} {A : Account} {h h' : List Ev} {s s' : Session} (hh : Hist E A h s) (hh' : Hist E A h' s')
    (hc : h.map (fun e => (e.op, e.call)) = h'.map (fun e => (e.op, e.call))) : h = h' ∧ s = s' := by
  induction hh generalizing h' s' with
  | new =>
    cases hh' with
    | new => exact ⟨rfl, rfl⟩
    | step _ _ _ => simp at hc
  | @step h s op c e hh he hp ih =>
    cases hh' with
    | new => simp at hc
    | @step h' s' op' c' e' hh' he' hp' =>
      simp only [List.map_append, List.map_cons, List.map_nil] at hc
      obtain ⟨h1, h2⟩ := List.append_inj' hc rfl
      simp only [List.cons.injEq, Prod.mk.injEq, and_true] at h2
      obtain ⟨rfl, rfl⟩ := h2
      obtain ⟨rfl, rfl⟩ := ih hh' h1
      rw [← he, ← he']
      exact ⟨rfl, rfl⟩

/-- C80: what happens at other addresses does not matter: after two histories of an account with the same calls for address `a`,
these calls had the same results and sent the same messages, and the sessions are the same. -/
theorem C80_independent (E : Env) (acc acc1 acc2 : AccountState) (h1 h2 : List AccountEv) (hnew : acc.sessions = [])
    (hh1 : AccountHist E acc h1 acc1) (hh2 : AccountHist E acc h2 acc2) (a : Bytes)
    (hc : (historyOf a false h1).map (fun e => (e.op, e.call)) = (historyOf a false h2).map (fun e => (e.op, e.call))) :
    historyOf a false h1 = historyOf a false h2 ∧ sessionOf acc1 a = sessionOf acc2 a :=
  hist_calls ((C80_sessions E acc acc1 h1 hnew hh1).2.2.2.2 a) ((C80_sessions E acc acc2 h2 hnew hh2).2.2.2.2 a) hc

theorem expireSessions_to {E : Env} {calls : Bytes → Call} {t : Nat} {as : List Bytes} {w : AccountWorld} {p : Bytes × Bytes}
    (hp : p ∈ (AccountState.expireSessions E calls t as w).2.sent) : p ∈ w.sent ∨ p.1 ∈ as := by
  induction as generalizing w with
  | nil => exact .inl hp
  | cons a as ih =>
    rw [AccountState.expireSessions] at hp
    simp only [StM.bind_run] at hp
    rw [onSession_run] at hp
    have key : p ∈ w.sent ++ (Session.expire E (w.st.details a) (calls a) t ⟨sessionOf w.st a, []⟩).2.sent.map (fun m => (a, m)) →
        p ∈ w.sent ∨ p.1 ∈ a :: as := by
      intro h
      rcases List.mem_append.mp h with h | h
      · exact .inl h
      · obtain ⟨m, _, rfl⟩ := List.mem_map.mp h
        exact .inr (List.mem_cons_self ..)
    revert hp key
    cases Session.expire E (w.st.details a) (calls a) t ⟨sessionOf w.st a, []⟩ with
    | mk r v =>
      intro hp key
      cases r with
      | ok u =>
        rcases ih hp with h | h
        · exact key h
        · exact .inr (List.mem_cons_of_mem _ h)
      | err e => exact key hp
      | panic => exact key hp

theorem openedIn_iff (a : Bytes) (h : List AccountEv) (o : Bool) : openedIn a o h = true ↔ o = true ∨ ∃ ev ∈ h, Opens a ev := by
  induction h generalizing o with
  | nil => simp [openedIn]
  | cons e h ih =>
    obtain ⟨op, r, sent⟩ := e
    cases op with
    | session b => simp [openedIn, ih, Opens, or_assoc]
    | call b op c => simp [openedIn, ih, Opens, or_assoc]
    | expire t calls => simp [openedIn, ih, Opens]

/-- An account with two sessions, one of which sent a query, after an expiration. -/
example (E : Env) (c : Call) (calls : Bytes → Call) (p : ClientProfile) : ∃ acc' text,
    AccountHist E ⟨0x104, 0x100, [97], p, []⟩ [⟨.call [98] .query c, .ok .done, [([98], text)]⟩, ⟨.session [99], .ok .done, []⟩,
      ⟨.expire 60 calls, .ok .done, []⟩] acc' ∧ acc'.sessions.map (·.1) = [[98], [99]] := by
  obtain ⟨t, _, ht⟩ := query_run (A := ⟨0x104, 0x100, [97], [98]⟩)
    (by simp only [SomeVersion, AllowsV3, AllowsV4, PolicyBit]; decide) ⟨.new, []⟩
  have e1 : (AccountOp.call [98] .query c).run E ⟨0x104, 0x100, [97], p, []⟩ =
      ⟨.ok .done, ⟨0x104, 0x100, [97], p, [([98], .new)]⟩, [([98], t)]⟩ := by
    rw [call_run]
    show lifted _ _ (perform (Session.query ⟨0x104, 0x100, [97], [98]⟩) (fun _ => .done) .new) = _
    unfold perform
    rw [ht]
    rfl
  have e3 : (AccountOp.expire 60 calls).run E ⟨0x104, 0x100, [97], p, [([98], .new), ([99], .new)]⟩ =
      ⟨.ok .done, ⟨0x104, 0x100, [97], p, [([98], .new), ([99], .new)]⟩, []⟩ := rfl
  have h1 := AccountHist.step .start e1 (fun h => by cases h)
  have h2 := AccountHist.step h1 (op := .session [99]) rfl (fun h => by cases h)
  have h3 := AccountHist.step h2 e3 (fun h => by cases h)
  exact ⟨_, t, h3, rfl⟩

/-- C80: a message is injected with the address of a session that the call is about: the one it is made on or, when the
account expires sessions, one that was opened before. -/
theorem C80_addressed (E : Env) (acc acc' : AccountState) (h h' : List AccountEv) (ev : AccountEv) (hnew : acc.sessions = [])
    (hh : AccountHist E acc (h ++ ev :: h') acc') (a m : Bytes) (hm : (a, m) ∈ ev.sent) :
    (∃ op c, ev.op = .call a op c) ∨ (∃ t calls, ev.op = .expire t calls) ∧ ∃ ev' ∈ h, Opens a ev' := by
  generalize hl : h ++ ev :: h' = l at hh
  induction hh generalizing h h' with
  | start => simp at hl
  | @step l acc1 op e hh he hp ih =>
    rcases List.eq_nil_or_concat h' with rfl | ⟨h'', x, rfl⟩
    · obtain ⟨rfl, h2⟩ := List.append_inj' hl rfl
      simp only [List.cons.injEq, and_true] at h2
      subst h2
      cases op with
      | session b => subst he; simp [AccountOp.run] at hm
      | call b op c =>
        rw [call_run] at he
        subst he
        simp only [lifted, List.mem_map, Prod.mk.injEq] at hm
        obtain ⟨_, _, rfl, _⟩ := hm
        exact .inl ⟨op, c, rfl⟩
      | expire t calls =>
        refine .inr ⟨⟨t, calls, rfl⟩, ?_⟩
        have hs : e.sent = (AccountState.expireSessions E calls t (acc1.sessions.map (·.1)) ⟨acc1, []⟩).2.sent := by
          subst he
          have hr : (AccountOp.expire t calls).run E acc1 = accPerform (AccountState.expire E calls t) (fun _ => .done) acc1 := rfl
          rw [hr]
          unfold accPerform AccountState.expire
          simp only [StM.bind_run, StM.gets]
          cases AccountState.expireSessions E calls t (acc1.sessions.map (·.1)) ⟨acc1, []⟩ with
          | mk r w => cases r <;> rfl
        rw [hs] at hm
        rcases expireSessions_to hm with h | h
        · simp at h
        · have := ((acc_inv E acc acc1 _ hnew hh).2.2.2 a).2.mpr h
          rw [openedIn_iff] at this
          simpa using this
    · have hl' : (h ++ ev :: h'') ++ [x] = l ++ [⟨op, e.result, e.sent⟩] := by simpa using hl
      exact ih h h'' (List.append_inj' hl' rfl).1

end Otrr.Props
