import Verif.Props.Dake
/-! C36 for handling the messages of the OTRv4 key exchange. -/

namespace Otrr.Props
open Otrr Otrr.Spec Otrr.DAKE

theorem readPoint_onCurve {c : Curve} (h : GoodField c) {b rest : Bytes} {P : Point}
    (hr : readPoint c b = .ok (P, rest)) : OnCurve c P := by
  unfold readPoint at hr
  obtain ⟨e, r, h1, h2⟩ := Dec.bind_eq_ok.mp hr
  have hl : e.length = 57 := by
    unfold readN at h1
    split at h1
    · cases h1
    · simp only [Res.ok.injEq, Prod.mk.injEq] at h1
      rw [← h1.1, List.length_take]; omega
  unfold Dec.lift at h2
  cases hd : Point.decode c e with
  | ok Q =>
    simp only [hd, Res.ok.injEq, Prod.mk.injEq] at h2
    exact h2.1 ▸ (Point.decode_spec h hl hd).1
  | err => simp [hd] at h2
  | panic => simp [hd] at h2

/-- The keys in a decoded field are on the curve. -/
theorem readField_forging {E : Env} (h : GoodField E.curve) {b rest : Bytes} {f : Field}
    (hr : readField E b = .ok (f, rest)) : ∀ P, f = .forgingKey P → OnCurve E.curve P := by
  rintro P rfl
  unfold readField at hr
  obtain ⟨t, r, _, h2⟩ := Dec.bind_eq_ok.mp hr
  repeat' split at h2
  all_goals simp only [Dec.bind_eq_ok, Dec.pure_run, Res.ok.injEq, Prod.mk.injEq, reduceCtorEq, false_and, and_false,
    exists_false, Field.forgingKey.injEq, Dec.fail] at h2
  obtain ⟨Q, r', h3, rfl, rfl⟩ := h2
  unfold readEdPublicKey at h3
  obtain ⟨t', r'', _, h4⟩ := Dec.bind_eq_ok.mp h3
  split at h4
  · simp [Dec.fail] at h4
  · exact readPoint_onCurve h h4

theorem readFields_forging {E : Env} (h : GoodField E.curve) : ∀ {n : Nat} {b rest : Bytes} {fs : List Field},
    readFields E n b = .ok (fs, rest) → ∀ P, .forgingKey P ∈ fs → OnCurve E.curve P
  | 0, b, rest, fs, hr, P, hP => by
    simp only [readFields, Dec.pure_run, Res.ok.injEq, Prod.mk.injEq] at hr
    rw [← hr.1] at hP; simp at hP
  | n + 1, b, rest, fs, hr, P, hP => by
    unfold readFields at hr
    obtain ⟨f, r1, h1, h2⟩ := Dec.bind_eq_ok.mp hr
    obtain ⟨fs', r2, h3, h4⟩ := Dec.bind_eq_ok.mp h2
    simp only [Dec.pure_run, Res.ok.injEq, Prod.mk.injEq] at h4
    rw [← h4.1, List.mem_cons] at hP
    rcases hP with hP | hP
    · exact readField_forging h h1 P hP.symm
    · exact readFields_forging h h3 P hP

theorem readPayload_forging {E : Env} (h : GoodField E.curve) {b rest : Bytes} {p : ClientProfilePayload}
    (hr : readPayload E b = .ok (p, rest)) {prof : ClientProfile} (hv : p.validate E = .ok prof) :
    OnCurve E.curve prof.forgingKey := by
  unfold readPayload at hr
  obtain ⟨n, r1, _, hr⟩ := Dec.bind_eq_ok.mp hr
  obtain ⟨fs, r2, h2, hr⟩ := Dec.bind_eq_ok.mp hr
  obtain ⟨sg, r3, _, hr⟩ := Dec.bind_eq_ok.mp hr
  obtain ⟨_, r4, _, hr⟩ := Dec.bind_eq_ok.mp hr
  simp only [Dec.pure_run, Res.ok.injEq, Prod.mk.injEq] at hr
  have hf := (payload_validate_spec hv).2.2.1
  refine readFields_forging h h2 _ ?_
  have : Field.forgingKey prof.forgingKey ∈ p.fields.filter (kind · = 3) := by rw [hf]; simp
  rw [← hr.1] at this
  exact (List.mem_filter.mp this).1

theorem decodedIdentity_onCurve {E : Env} (h : GoodField E.curve) {m : IdentityMessage} (hd : DecodedIdentity E m) :
    OnCurve E.curve m.y ∧ OnCurve E.curve m.ecdh0 ∧
      ∀ p, m.profile.validate E = .ok p → OnCurve E.curve p.forgingKey := by
  obtain ⟨b, rest, hr⟩ := hd
  unfold readIdentity at hr
  obtain ⟨p, r1, h1, hr⟩ := Dec.bind_eq_ok.mp hr
  obtain ⟨y, r2, h2, hr⟩ := Dec.bind_eq_ok.mp hr
  obtain ⟨b, r3, _, hr⟩ := Dec.bind_eq_ok.mp hr
  obtain ⟨e, r4, h4, hr⟩ := Dec.bind_eq_ok.mp hr
  obtain ⟨d, r5, _, hr⟩ := Dec.bind_eq_ok.mp hr
  simp only [Dec.pure_run, Res.ok.injEq, Prod.mk.injEq] at hr
  obtain ⟨rfl, rfl⟩ := hr
  exact ⟨readPoint_onCurve h h2, readPoint_onCurve h h4, fun p hp => readPayload_forging h h1 hp⟩

theorem decodedAuthR_onCurve {E : Env} (h : GoodField E.curve) {m : AuthRMessage} (hd : DecodedAuthR E m) :
    OnCurve E.curve m.x ∧ OnCurve E.curve m.ecdh0 ∧
      ∀ p, m.profile.validate E = .ok p → OnCurve E.curve p.forgingKey := by
  obtain ⟨b, rest, hr⟩ := hd
  unfold readAuthR at hr
  obtain ⟨p, r1, h1, hr⟩ := Dec.bind_eq_ok.mp hr
  obtain ⟨y, r2, h2, hr⟩ := Dec.bind_eq_ok.mp hr
  obtain ⟨b, r3, _, hr⟩ := Dec.bind_eq_ok.mp hr
  obtain ⟨sg, r6, _, hr⟩ := Dec.bind_eq_ok.mp hr
  obtain ⟨e, r4, h4, hr⟩ := Dec.bind_eq_ok.mp hr
  obtain ⟨d, r5, _, hr⟩ := Dec.bind_eq_ok.mp hr
  simp only [Dec.pure_run, Res.ok.injEq, Prod.mk.injEq] at hr
  obtain ⟨rfl, rfl⟩ := hr
  exact ⟨readPoint_onCurve h h2, readPoint_onCurve h h4, fun p hp => readPayload_forging h h1 hp⟩

/-- Signing panics only if the signer's key occurs not exactly once in the ring. -/
theorem ring_sign_panic {E : Env} (hc : GoodCurve E.curve) {k : EdDSAKeyPair}
    (hk : k.pub = Point.mul E.curve E.curve.G k.sk) {A1 A2 A3 : Point} (o1 : OnCurve E.curve A1)
    (o2 : OnCurve E.curve A2) (o3 : OnCurve E.curve A3) {m : Bytes} {rnd : Rand}
    (h : RingSignature.sign E k A1 A2 A3 m rnd = .panic) :
    ¬ ((k.pub = A1 ∧ k.pub ≠ A2 ∧ k.pub ≠ A3) ∨ (k.pub ≠ A1 ∧ k.pub = A2 ∧ k.pub ≠ A3) ∨
      (k.pub ≠ A1 ∧ k.pub ≠ A2 ∧ k.pub = A3)) := by
  intro hone
  by_cases g1 : GoodKey E.curve A1
  · by_cases g2 : GoodKey E.curve A2
    · by_cases g3 : GoodKey E.curve A3
      · obtain ⟨s, h1, _⟩ := ring_sign_validate hc k hk g1 g2 g3 hone m rnd
        rw [h1] at h; cases h
      · have e3 : ∃ e, Point.verify E.curve A3 = .err e := by
          cases hv : Point.verify E.curve A3 with
          | ok => exact absurd ((verify_iff o3).mp hv) g3
          | err e => exact ⟨e, rfl⟩
          | panic => exact absurd hv verify_ne_panic
        obtain ⟨e, e3⟩ := e3
        simp [RingSignature.sign, (verify_iff o1).mpr g1, (verify_iff o2).mpr g2, e3, Res.bind_ok, Res.bind_err] at h
    · have e3 : ∃ e, Point.verify E.curve A2 = .err e := by
        cases hv : Point.verify E.curve A2 with
        | ok => exact absurd ((verify_iff o2).mp hv) g2
        | err e => exact ⟨e, rfl⟩
        | panic => exact absurd hv verify_ne_panic
      obtain ⟨e, e3⟩ := e3
      simp [RingSignature.sign, (verify_iff o1).mpr g1, e3, Res.bind_ok, Res.bind_err] at h
  · have e3 : ∃ e, Point.verify E.curve A1 = .err e := by
      cases hv : Point.verify E.curve A1 with
      | ok => exact absurd ((verify_iff o1).mp hv) g1
      | err e => exact ⟨e, rfl⟩
      | panic => exact absurd hv verify_ne_panic
    obtain ⟨e, e3⟩ := e3
    simp [RingSignature.sign, e3, Res.bind_err] at h

theorem ownPayload_ne_panic {E : Env} {host : DAKEHost} : ownPayload E host ≠ .panic := by
  intro h
  have h : (do let p ← readPayload E; decDone; pure p : Dec ClientProfilePayload) host.profile = .panic := by
    unfold ownPayload runDec at h
    split at h
    · cases h
    · cases h
    · assumption
  rw [Dec.bind_eq_panic] at h
  rcases h with h | ⟨a, r, _, h⟩
  · exact (readPayload_safe E _).1 h
  · rw [Dec.bind_eq_panic] at h
    rcases h with h | ⟨a, r, _, h⟩
    · unfold decDone at h; split at h <;> simp at h
    · simp [Dec.pure_run] at h

theorem mixed_new_ne_panic {E : Env} (hc : GoodCurve E.curve) {k : ECDHKeyPair} {d : DH.Keypair} {P : Point} {v : Nat}
    (hP : OnCurve E.curve P) : Mixed.new E k d P v ≠ .panic := by
  intro h
  unfold Mixed.new Mixed.next at h
  simp only [Res.bind_eq_panic, verify_ne_panic, verify3_ne_panic, false_or, exUnit, Res.pure_def, reduceCtorEq,
    and_false, exists_false, or_false, Mixed.nextBrace, if_true, Res.assert_eq_panic] at h
  obtain ⟨h1, _, h2⟩ := h
  rw [shared_nonzero hc hP (valid448_iff.mp h1) k] at h2
  cases h2

/-- C36, handling an Identity message, as far as it holds: a decoded message panics a client whose identity key
pair is a key pair only if the message contains the client's identity public key, as ephemeral key or as the
forging key of the profile. -/
theorem C36_identity_partial (E : Env) (hc : GoodCurve E.curve) (host : DAKEHost)
    (hk : host.identity.pub = Point.mul E.curve E.curve.G host.identity.sk) (m : IdentityMessage)
    (hd : DecodedIdentity E m) (rnd : Rand) (s : DAKEState) (h : (handleIdentity E host m rnd s).1 = .panic) :
    m.y = host.identity.pub ∨ ∃ bob, m.profile.validate E = .ok bob ∧ bob.forgingKey = host.identity.pub := by
  obtain ⟨o1, o2, o3⟩ := decodedIdentity_onCurve hc.field hd
  have h : ∃ s', handleIdentity E host m rnd s = (.panic, s') := ⟨_, Prod.ext h rfl⟩
  obtain ⟨s', h⟩ := h
  have h := (transact_panic.mp h).1
  rw [Res.bind_eq_panic] at h
  rcases h with h | ⟨bob, hv, h⟩
  · exact absurd h validateIdentity_ne_panic
  have h : answerIdentity E host m bob rnd = .panic := by
    split at h
    · split at h
      · cases h
      · exact h
    · exact h
  have hb := (validateIdentity_ok.mp hv).1
  unfold answerIdentity at h
  rw [Res.bind_eq_panic] at h
  rcases h with h | ⟨P, _, h⟩
  · exact absurd h ownPayload_ne_panic
  simp only [Res.bind_eq_panic] at h
  rcases h with h | ⟨own, _, h | ⟨sg, _, h | ⟨k, _, h⟩⟩⟩
  · exact absurd h (payload_validate_ne_panic _ _)
  · have := ring_sign_panic hc hk (o3 _ hb) (hk ▸ (mulG_good hc _).1) o1 h
    by_cases e1 : m.y = host.identity.pub
    · exact .inl e1
    · by_cases e2 : bob.forgingKey = host.identity.pub
      · exact .inr ⟨bob, hb, e2⟩
      · exact absurd (.inr (.inl ⟨fun e => e2 e.symm, rfl, fun e => e1 e.symm⟩)) this
  · exact absurd h (mixed_new_ne_panic hc o1)
  · cases h

theorem ring_validate_panic {E : Env} {s : RingSignature} {A1 A2 A3 : Point} {m : Bytes}
    (h : s.validate E A1 A2 A3 m = .panic) : OneZero E s A1 A2 A3 m := by
  have h := compareScalars_panic.mp h
  intro hiff
  exact h (propext hiff)

theorem authR_panic {E : Env} (hc : GoodCurve E.curve) {host : DAKEHost}
    (hk : host.identity.pub = Point.mul E.curve E.curve.G host.identity.sk) {m : AuthRMessage}
    (hd : DecodedAuthR E m) {rnd : Rand} {now : Nat} {hist : List DakeEv} {s : DAKEState} (hl : DakeLife E hist s)
    (h : (handleAuthR E host m rnd now s).1 = .panic) :
    m.x = host.identity.pub ∨
    (∃ alice, m.profile.validate E = .ok alice ∧ alice.forgingKey = host.identity.pub) ∨
    ∃ st bob alice, s = .awaitingAuthR st ∧ .began st.message ∈ hist ∧ st.message.profile.validate E = .ok bob ∧ m.profile.validate E = .ok alice ∧
      OneZero E m.sigma bob.forgingKey alice.identityKey st.message.y
        ((exchangeOf st.message m bob alice host.account host.contact).transcriptR E) := by
  obtain ⟨o1, o2, o3⟩ := decodedAuthR_onCurve hc.field hd
  have hi := life_inv hl
  have h : ∃ s', handleAuthR E host m rnd now s = (.panic, s') := ⟨_, Prod.ext h rfl⟩
  obtain ⟨s', h⟩ := h
  have h := (transact_panic.mp h).1
  split at h
  case h_2 => cases h
  rename_i st _ _
  rw [Res.bind_eq_panic] at h
  rcases h with h | ⟨_, _, h⟩
  case inr => cases h
  obtain ⟨h1, h2, _⟩ := hi
  unfold answerAuthR at h
  simp only [Res.bind_eq_panic] at h
  rcases h with h | ⟨alice, hv, h⟩
  · exact absurd h validateAuthR_ne_panic
  rcases h with h | ⟨bob, hb, h⟩
  · exact absurd h (payload_validate_ne_panic _ _)
  obtain ⟨ha, vx, va, ve, vd⟩ := validateAuthR_ok.mp hv
  rcases h with h | ⟨_, _, h⟩
  · refine .inr (.inr ⟨st, bob, alice, rfl, h1, by rw [h2]; exact hb, ha, ?_⟩)
    rw [h2]
    exact ring_validate_panic h
  rcases h with h | ⟨sg, _, h⟩
  · have := ring_sign_panic hc hk (hk ▸ (mulG_good hc _).1) (o3 _ ha) o1 h
    by_cases e1 : m.x = host.identity.pub
    · exact .inl e1
    · by_cases e2 : alice.forgingKey = host.identity.pub
      · exact .inr (.inl ⟨alice, ha, e2⟩)
      · exact absurd (.inl ⟨rfl, fun e => e2 e.symm, fun e => e1 e.symm⟩) this
  rcases h with h | ⟨k, _, h⟩
  · exact absurd h (mixed_new_ne_panic hc o1)
  rcases h with h | ⟨first, hf, h⟩
  · exact absurd h (mixed_new_ne_panic hc o2)
  rcases h with h | ⟨_, _, h⟩
  · have hfb := Mixed.next_ok hf
    have e1 : first.publicEcdh = m.ecdh0 := by rw [hfb.2.2.2.2]
    have e2 : first.publicDh = m.dh0 := by rw [hfb.2.2.2.2]
    obtain ⟨d, hr⟩ := first_rotation hc (s := first) (root := kdf E 64 0x0b k.k) (now := now) (rnd.sub 1)
      (e1 ▸ o2) (e1 ▸ ve) (e2 ▸ vd)
    rw [hr] at h; cases h
  · cases h

/-- C36, handling an Auth-R message, as far as it holds: in a state reached by any history, a decoded message panics
the client only if it contains the client's identity public key, as ephemeral key or as the forging key of the
profile, or if exactly one side of the equation of its ring signature is zero. -/
theorem C36_authR_partial (E : Env) (hc : GoodCurve E.curve) (host : DAKEHost)
    (hk : host.identity.pub = Point.mul E.curve E.curve.G host.identity.sk) (m : AuthRMessage)
    (hd : DecodedAuthR E m) (rnd : Rand) (now : Nat) (hist : List DakeEv) (s : DAKEState) (hl : DakeLife E hist s)
    (h : (handleAuthR E host m rnd now s).1 = .panic) :
    m.x = host.identity.pub ∨
    (∃ alice, m.profile.validate E = .ok alice ∧ alice.forgingKey = host.identity.pub) ∨
    ∃ i bob alice, .began i ∈ hist ∧ i.profile.validate E = .ok bob ∧ m.profile.validate E = .ok alice ∧
      OneZero E m.sigma bob.forgingKey alice.identityKey i.y
        ((exchangeOf i m bob alice host.account host.contact).transcriptR E) := by
  rcases authR_panic hc hk hd hl h with h | h | ⟨st, bob, alice, _, h1, h2, h3, h4⟩
  · exact .inl h
  · exact .inr (.inl h)
  · exact .inr (.inr ⟨st.message, bob, alice, h1, h2, h3, h4⟩)

/-- Handling an Auth-I message panics only if exactly one side of the equation of the ring signature is zero. -/
theorem authI_panic {E : Env} (hc : GoodCurve E.curve) {host : DAKEHost} {m : AuthIMessage} {now : Nat} {s : DAKEState}
    (hon : ∀ st, s = .awaitingAuthI st → OnCurve E.curve st.ecdh0Other) (h : (handleAuthI E host m now s).1 = .panic) :
    ∃ st bob alice, s = .awaitingAuthI st ∧ st.profileBob.validate E = .ok bob ∧ st.profileAlice.validate E = .ok alice ∧
      OneZero E m.sigma bob.identityKey alice.forgingKey st.x (Exchange.transcriptI E ⟨st.profileBob, st.profileAlice, bob, alice,
        st.y, st.x, st.b, st.a, st.ecdh0Other, st.dh0Other, st.ecdh0.pub, st.dh0.pub, host.contact, host.account⟩) := by
  have h : ∃ s', handleAuthI E host m now s = (.panic, s') := ⟨_, Prod.ext h rfl⟩
  obtain ⟨s', h⟩ := h
  have h := (transact_panic.mp h).1
  cases s with
  | initial => cases h
  | awaitingAuthR w => cases h
  | awaitingAuthI st =>
  dsimp only at h
  rw [Res.bind_eq_panic] at h
  rcases h with h | ⟨_, _, h⟩
  case inr => cases h
  unfold acceptAuthI at h
  simp only [Res.bind_eq_panic] at h
  rcases h with h | ⟨alice, ha, h⟩
  · exact absurd h (payload_validate_ne_panic _ _)
  rcases h with h | ⟨bob, hb, h⟩
  · exact absurd h (payload_validate_ne_panic _ _)
  rcases h with h | ⟨_, _, h⟩
  · exact ⟨st, bob, alice, rfl, hb, ha, ring_validate_panic h⟩
  rcases h with h | ⟨_, _, h⟩
  · exact absurd h (mixed_new_ne_panic hc (hon st rfl))
  · cases h

/-- C36, handling an Auth-I message, as far as it holds: in a state reached by any history of decoded messages, a
message panics the client only if exactly one side of the equation of its ring signature is zero. -/
theorem C36_authI_partial (E : Env) (hc : GoodCurve E.curve) (host : DAKEHost) (m : AuthIMessage) (now : Nat)
    (hist : List DakeEv) (s : DAKEState) (hl : DakeLife E hist s)
    (hd : ∀ i r, .identity i r ∈ hist → DecodedIdentity E i) (h : (handleAuthI E host m now s).1 = .panic) :
    ∃ i r bob alice, .identity i (.ok (.authR r)) ∈ hist ∧ i.profile.validate E = .ok bob ∧
      r.profile.validate E = .ok alice ∧ OneZero E m.sigma bob.identityKey alice.forgingKey r.x
        ((exchangeOf i r bob alice host.contact host.account).transcriptI E) := by
  have hi := life_inv hl
  have h : ∃ s', handleAuthI E host m now s = (.panic, s') := ⟨_, Prod.ext h rfl⟩
  obtain ⟨s', h⟩ := h
  have h := (transact_panic.mp h).1
  split at h
  case h_2 => cases h
  rename_i st _
  rw [Res.bind_eq_panic] at h
  rcases h with h | ⟨_, _, h⟩
  case inr => cases h
  obtain ⟨i, r, h1, e1, e2, e3, e4, e5, e6, e7, e8, e9, e10, _, v1, v2, v3, v4⟩ := hi
  unfold acceptAuthI at h
  simp only [Res.bind_eq_panic] at h
  rcases h with h | ⟨alice, ha, h⟩
  · exact absurd h (payload_validate_ne_panic _ _)
  rcases h with h | ⟨bob, hb, h⟩
  · exact absurd h (payload_validate_ne_panic _ _)
  rcases h with h | ⟨_, _, h⟩
  · refine ⟨i, r, bob, alice, h1, by rw [← e1]; exact hb, by rw [← e6]; exact ha, ?_⟩
    have := ring_validate_panic h
    rw [e1, e2, e3, e4, e5, e6, e7, e8, e9, e10] at this
    exact this
  rcases h with h | ⟨_, _, h⟩
  · rw [e4] at h
    exact absurd h (mixed_new_ne_panic hc (decodedIdentity_onCurve hc.field (hd _ _ h1)).2.1)
  · cases h

/-- A well-formed message can be received. -/
theorem decoded_of_wf {E : Env} (hf : GoodField E.curve) {m : IdentityMessage} (h : WfMessage E (.identity m)) :
    DecodedIdentity E m := by
  refine ⟨wIdentity m ++ [], [], ?_⟩
  obtain ⟨h1, h2, h3, h4, h5⟩ := h
  simp only [wIdentity, readIdentity, List.append_assoc]
  rw [Dec.bind_ok (readPayload_w hf h1 _), Dec.bind_ok (readPoint_w hf h2 _),
    Dec.bind_ok (readMpi_w (fits_mpiOk h3) _), Dec.bind_ok (readPoint_w hf h4 _),
    Dec.bind_ok (readMpi_w (fits_mpiOk h5) _)]
  rfl

theorem decodedR_of_wf {E : Env} (hc : GoodCurve E.curve) {m : AuthRMessage} (h : WfMessage E (.authR m)) :
    DecodedAuthR E m := by
  have hf := hc.field
  refine ⟨wAuthR m ++ [], [], ?_⟩
  obtain ⟨h1, h2, h3, h4, h5, h6⟩ := h
  simp only [wAuthR, readAuthR, List.append_assoc]
  rw [Dec.bind_ok (readPayload_w hf h1 _), Dec.bind_ok (readPoint_w hf h2 _),
    Dec.bind_ok (readMpi_w (fits_mpiOk h3) _), Dec.bind_ok (readRing_w hc h4 _), Dec.bind_ok (readPoint_w hf h5 _),
    Dec.bind_ok (readMpi_w (fits_mpiOk h6) _)]
  rfl

theorem toyIdentity_wf (y : Point) (hy : OnCurve toyEnv.curve y) :
    WfMessage toyEnv (.identity { toyIdentity with y := y }) := by
  have h1 : toyIdentity.profile = payloadB := by decide +kernel
  have h2 : toyIdentity.ecdh0 = ⟨8, 38⟩ := by decide +kernel
  have h3 : toyIdentity.b = 8 := by decide +kernel
  have h4 : toyIdentity.dh0 = 6 := by decide +kernel
  refine ⟨h1 ▸ partyB.wf, hy, ⟨1, by decide, by rw [h3]; decide⟩, ?_, ⟨1, by decide, by rw [h4]; decide⟩⟩
  show OnCurve toyEnv.curve toyIdentity.ecdh0
  rw [h2]
  exact ⟨by decide, by decide, by decide⟩

example : (∀ i r, DakeEv.identity i r ∈ [DakeEv.identity toyIdentity (.ok (.authR toyAuthR))] → DecodedIdentity toyEnv i) ∧
    DakeLife toyEnv [DakeEv.identity toyIdentity (.ok (.authR toyAuthR))] toyAnswer := by
  refine ⟨?_, toy_alice_life⟩
  intro i r h
  simp only [List.mem_singleton, DakeEv.identity.injEq] at h
  rw [h.1]
  exact decoded_of_wf toy_goodField (toyIdentity_wf _ (by
    have : toyIdentity.y = ⟨8, 38⟩ := by decide +kernel
    rw [this]; exact ⟨by decide, by decide, by decide⟩))

/-- C36 is false of the code for handling, too: a client crashes on every Identity message that is well-formed and
valid in every respect but has the client's own, public, identity key as ephemeral key, unless it insists on
an own Identity message. -/
theorem C36_identity_crash (E : Env) (hc : GoodCurve E.curve) (host : DAKEHost) (P : ClientProfilePayload)
    (p : ClientProfile) (hp : Party E host P p) (m : IdentityMessage) (bob : ClientProfile)
    (hb : m.profile.validate E = .ok bob) (hf : GoodKey E.curve bob.forgingKey) (hy : m.y = host.identity.pub)
    (h1 : Valid3072 E m.b) (h2 : Valid448 E m.ecdh0) (h3 : Valid3072 E m.dh0) (rnd : Rand) (s : DAKEState)
    (hs : ∀ st, s ≠ .awaitingAuthR st) : (handleIdentity E host m rnd s).1 = .panic := by
  have gi : GoodKey E.curve host.identity.pub := hp.key ▸ hp.identity
  have hv : validateIdentity E m = .ok bob :=
    validateIdentity_ok.mpr ⟨hb, valid448_iff.mp (hy ▸ (verify_iff gi.on).mpr gi), h1, h2, h3⟩
  have ho := ownPayload_party hc hp
  have hsign : ∀ t r, RingSignature.sign E host.identity bob.forgingKey host.identity.pub m.y t r = .panic := by
    intro t r
    unfold RingSignature.sign
    rw [hy]
    simp only [(verify_iff hf.on).mpr hf, (verify_iff gi.on).mpr gi, Res.bind_ok,
      diffPoints_eq hc gi.on hf.on gi.order hf.order, diffPoints_eq hc gi.on gi.on gi.order gi.order]
    rw [Res.bind_eq_panic]
    refine .inl (Res.assert_eq_panic.mpr ?_)
    by_cases e : host.identity.pub = bob.forgingKey
    · simp only [e, if_true]; decide
    · simp only [e, if_true, if_false]; decide
  have : (do
    let bob ← validateIdentity E m
    match s with
    | .awaitingAuthR own =>
      if hashedB E own.message.b > hashedB E m.b then .ok (.identity own.message, s)
      else answerIdentity E host m bob rnd
    | _ => answerIdentity E host m bob rnd : Res (EncodedMessageType × DAKEState)) = .panic := by
    rw [hv, Res.bind_ok]
    split
    · exact absurd rfl (hs _)
    · unfold answerIdentity
      simp only [ho, hp.valid, Res.bind_ok, hsign, Res.bind_panic]
  exact congrArg Prod.fst (transact_panic.mpr ⟨this, rfl⟩)

example : WfMessage toyEnv (.identity { toyIdentity with y := hostA.identity.pub }) ∧
    (handleIdentity toyEnv hostA { toyIdentity with y := hostA.identity.pub } (smallRand 10) .initial).1 = .panic :=
  have h1 : toyIdentity.profile = payloadB := by decide +kernel
  ⟨toyIdentity_wf _ (partyA.key ▸ partyA.identity.on),
    C36_identity_crash toyEnv toy_goodCurve hostA payloadA profileA partyA _ profileB (h1 ▸ partyB.valid)
      partyB.forging rfl ⟨by decide +kernel, by decide +kernel, by decide +kernel⟩
      ⟨by decide +kernel, by decide +kernel, by decide +kernel, by decide +kernel⟩
      ⟨by decide +kernel, by decide +kernel, by decide +kernel⟩ _ _ nofun⟩

/-- C36 is false of the code for signatures whose challenges sum to zero: no scalar is zero, so the message decodes,
but checking the signature crashes the client. -/
theorem C36_challenge_crash : ∃ (E : Env) (h : List DakeEv) (s : DAKEState) (host : DAKEHost) (m : AuthIMessage),
    DakeLife E h s ∧ WfMessage E (.authI m) ∧ (handleAuthI E host m 6 s).1 = .panic :=
  ⟨toyEnv, _, toyAnswer, hostA, ⟨⟨1, 1, 1, 1, 11, 1⟩⟩, toy_alice_life, by
    show ∀ v ∈ _, _
    decide, by decide +kernel⟩

end Otrr.Props
