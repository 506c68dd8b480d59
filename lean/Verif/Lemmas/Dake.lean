import Verif.Lemmas.Ake
import Verif.Lemmas.Profile
import Verif.Props.Data4
import Verif.Spec.Dake
/-! # Lemmas about the OTRv4 key exchange -/

namespace Otrr
open Spec

theorem exUnit {p : Unit → Prop} : (∃ a, p a) ↔ p () := ⟨fun ⟨_, h⟩ => h, fun h => ⟨_, h⟩⟩

theorem compareScalars_ok {a b : Nat} : compareScalars a b = .ok () ↔ a = b ∧ a ≠ 0 := by
  unfold compareScalars
  by_cases ha : a = 0 <;> by_cases hb : b = 0 <;> simp_all

theorem compareScalars_panic {a b : Nat} : compareScalars a b = .panic ↔ ((a = 0) ≠ (b = 0)) := by
  unfold compareScalars
  by_cases ha : a = 0 <;> by_cases hb : b = 0 <;> simp_all
  split <;> simp_all

/-- What a validated ring signature satisfies. -/
theorem ring_validate_ok {E : Env} {s : RingSignature} {A1 A2 A3 : Point} {m : Bytes}
    (h : s.validate E A1 A2 A3 m = .ok ()) : RingVerifies E s A1 A2 A3 m ∧ NonzeroChallenge E s := by
  obtain ⟨h1, h2⟩ := compareScalars_ok.mp h
  exact ⟨h1, fun h => h2 (h1.trans h)⟩

theorem valid448_iff {E : Env} {P : Point} : Point.verify E.curve P = .ok () ↔ Valid448 E P := Props.pointVerify_iff

theorem valid3072_iff {E : Env} {v : Nat} : DH.verify3 E.dh3 v = .ok () ↔ Valid3072 E v := Props.verify3_iff

theorem verify_ne_panic {c : Curve} {P : Point} : Point.verify c P ≠ .panic := by
  unfold Point.verify; split <;> simp

theorem verify3_ne_panic {G : DHGroup} {v : Nat} : DH.verify3 G v ≠ .panic := by
  unfold DH.verify3; split <;> simp

namespace DAKE

theorem verifyKeys_ok {E : Env} {e1 e2 : Point} {d1 d2 : Nat} :
    verifyKeys E e1 d1 e2 d2 = .ok () ↔ Valid448 E e1 ∧ Valid3072 E d1 ∧ Valid448 E e2 ∧ Valid3072 E d2 := by
  simp only [verifyKeys, Res.bind_eq_ok, exUnit, valid448_iff, valid3072_iff]

theorem verifyKeys_ne_panic {E : Env} {e1 e2 : Point} {d1 d2 : Nat} : verifyKeys E e1 d1 e2 d2 ≠ .panic := by
  intro h
  simp only [verifyKeys, Res.bind_eq_panic, verify_ne_panic, verify3_ne_panic, false_or, or_false, and_false,
    exists_false] at h

theorem validateIdentity_ok {E : Env} {m : IdentityMessage} {p : ClientProfile} :
    validateIdentity E m = .ok p ↔
      m.profile.validate E = .ok p ∧ Valid448 E m.y ∧ Valid3072 E m.b ∧ Valid448 E m.ecdh0 ∧ Valid3072 E m.dh0 := by
  simp only [validateIdentity, Res.bind_eq_ok, exUnit, verifyKeys_ok, Res.pure_def, Res.ok.injEq]
  constructor
  · rintro ⟨q, h1, h2, rfl⟩; exact ⟨h1, h2⟩
  · rintro ⟨h1, h2⟩; exact ⟨p, h1, h2, rfl⟩

theorem validateAuthR_ok {E : Env} {m : AuthRMessage} {p : ClientProfile} :
    validateAuthR E m = .ok p ↔
      m.profile.validate E = .ok p ∧ Valid448 E m.x ∧ Valid3072 E m.a ∧ Valid448 E m.ecdh0 ∧ Valid3072 E m.dh0 := by
  simp only [validateAuthR, Res.bind_eq_ok, exUnit, verifyKeys_ok, Res.pure_def, Res.ok.injEq]
  constructor
  · rintro ⟨q, h1, h2, rfl⟩; exact ⟨h1, h2⟩
  · rintro ⟨h1, h2⟩; exact ⟨p, h1, h2, rfl⟩

theorem validateIdentity_ne_panic {E : Env} {m : IdentityMessage} : validateIdentity E m ≠ .panic := by
  intro h
  simp only [validateIdentity, Res.bind_eq_panic, payload_validate_ne_panic, verifyKeys_ne_panic, false_or,
    Res.pure_def, reduceCtorEq, and_false, exists_false] at h

theorem validateAuthR_ne_panic {E : Env} {m : AuthRMessage} : validateAuthR E m ≠ .panic := by
  intro h
  simp only [validateAuthR, Res.bind_eq_panic, payload_validate_ne_panic, verifyKeys_ne_panic, false_or,
    Res.pure_def, reduceCtorEq, and_false, exists_false] at h

/-- What the answer to an Identity message contains. -/
theorem answerIdentity_ok {E : Env} {host : DAKEHost} {m : IdentityMessage} {bob : ClientProfile} {rnd : Rand}
    {r : EncodedMessageType} {s : DAKEState} (h : answerIdentity E host m bob rnd = .ok (r, s)) :
    ∃ (ar : AuthRMessage) (st : AwaitingAuthI) (x : ECDHKeyPair) (a : DH.Keypair) (own : ClientProfile) (k : Mixed),
      r = .authR ar ∧ s = .awaitingAuthI st ∧
      st = ⟨ar.profile, m.profile, ar.x, m.y, ar.a, m.b, k.k, st.ecdh0, st.dh0, m.ecdh0, m.dh0⟩ ∧
      ownPayload E host = .ok ar.profile ∧ ar.profile.validate E = .ok own ∧
      ar.ecdh0 = st.ecdh0.pub ∧ ar.dh0 = st.dh0.pub ∧
      ar.x = x.pub ∧ x.pub = Point.mul E.curve E.curve.G x.priv ∧
      ar.a = a.pub ∧ a = DH.Keypair.new E.dh3 a.priv ∧
      Mixed.new E x a m.y m.b = .ok k := by
  simp only [answerIdentity, Res.bind_eq_ok, Res.pure_def, Res.ok.injEq, Prod.mk.injEq] at h
  obtain ⟨p, h1, own, h2, sg, _, k, h3, rfl, rfl⟩ := h
  exact ⟨_, _, _, _, own, k, rfl, rfl, rfl, h1, h2, rfl, rfl, rfl, rfl, rfl, rfl, h3⟩

/-- What is kept of the history of a context. -/
def Inv (E : Env) (h : List DakeEv) : DAKEState → Prop
  | .initial => True
  | .awaitingAuthR s => .began s.message ∈ h ∧
      s.message = ⟨s.payload, s.y.pub, s.b.pub, s.ecdh0.pub, s.dh0.pub⟩ ∧
      s.y.pub = Point.mul E.curve E.curve.G s.y.priv
  | .awaitingAuthI s => ∃ i r, .identity i (.ok (.authR r)) ∈ h ∧
      s.profileBob = i.profile ∧ s.y = i.y ∧ s.b = i.b ∧ s.ecdh0Other = i.ecdh0 ∧ s.dh0Other = i.dh0 ∧
      s.profileAlice = r.profile ∧ s.x = r.x ∧ s.a = r.a ∧ s.ecdh0.pub = r.ecdh0 ∧ s.dh0.pub = r.dh0 ∧
      (∃ sk, r.x = Point.mul E.curve E.curve.G sk) ∧
      Valid448 E i.y ∧ Valid3072 E i.b ∧ Valid448 E i.ecdh0 ∧ Valid3072 E i.dh0

theorem Inv.mono {E : Env} {h : List DakeEv} {s : DAKEState} (hi : Inv E h s) (e : DakeEv) : Inv E (h ++ [e]) s := by
  cases s with
  | initial => trivial
  | awaitingAuthR s => exact ⟨List.mem_append_left _ hi.1, hi.2⟩
  | awaitingAuthI s =>
    obtain ⟨i, r, h1, h2⟩ := hi
    exact ⟨i, r, List.mem_append_left _ h1, h2⟩

theorem handleIdentity_ok {E : Env} {host : DAKEHost} {m : IdentityMessage} {rnd : Rand} {s s' : DAKEState}
    {r : EncodedMessageType} (h : handleIdentity E host m rnd s = (.ok r, s')) :
    ∃ bob, validateIdentity E m = .ok bob ∧
      ((∃ st, s = .awaitingAuthR st ∧ hashedB E st.message.b > hashedB E m.b ∧ r = .identity st.message ∧ s' = s) ∨
        answerIdentity E host m bob rnd = .ok (r, s')) := by
  have h := transact_ok.mp h
  simp only [Res.bind_eq_ok] at h
  obtain ⟨bob, h1, h2⟩ := h
  refine ⟨bob, h1, ?_⟩
  split at h2
  · split at h2
    · rename_i st hgt
      simp only [Res.ok.injEq, Prod.mk.injEq] at h2
      exact .inl ⟨st, rfl, hgt, h2.1.symm, h2.2.symm⟩
    · exact .inr h2
  · exact .inr h2

theorem life_inv {E : Env} {h : List DakeEv} {s : DAKEState} (hl : DakeLife E h s) : Inv E h s := by
  induction hl with
  | start => trivial
  | began _ hs ih =>
    have hs := transact_ok.mp hs
    split at hs
    · simp only [Res.bind_eq_ok, Res.pure_def, Res.ok.injEq, Prod.mk.injEq, EncodedMessageType.identity.injEq] at hs
      obtain ⟨p, _, rfl, rfl⟩ := hs
      exact ⟨by simp, rfl, rfl⟩
    · simp at hs
  | @identity h s s' host m rnd r _ hs hp ih =>
    cases r with
    | panic => exact absurd rfl hp
    | err e => rw [(transact_err.mp hs).2]; exact ih.mono _
    | ok r =>
      obtain ⟨bob, hv, hs | hs⟩ := handleIdentity_ok hs
      · rw [hs.choose_spec.2.2.2]; exact ih.mono _
      · obtain ⟨ar, st, x, a, own, k, rfl, rfl, h1, h2, h3, h4, h5, h6, h7, h8, h9, h10⟩ := answerIdentity_ok hs
        obtain ⟨_, hv⟩ := validateIdentity_ok.mp hv
        rw [h1]
        exact ⟨m, ar, by simp, rfl, rfl, rfl, rfl, rfl, rfl, rfl, rfl, h4.symm, h5.symm, ⟨_, h6.trans h7⟩, hv⟩
  | @authR h s s' host m rnd now r _ hs hp ih =>
    cases r with
    | panic => exact absurd rfl hp
    | err e => rw [(transact_err.mp hs).2]; exact ih.mono _
    | ok r =>
      have hs := transact_ok.mp hs
      split at hs
      · simp only [Res.bind_eq_ok, Res.pure_def, Res.ok.injEq, Prod.mk.injEq] at hs
        obtain ⟨_, _, _, rfl⟩ := hs
        trivial
      · simp at hs
  | @authI h s s' host m now r _ hs hp ih =>
    cases r with
    | panic => exact absurd rfl hp
    | err e => rw [(transact_err.mp hs).2]; exact ih.mono _
    | ok r =>
      have hs := transact_ok.mp hs
      split at hs
      · simp only [Res.bind_eq_ok, Res.pure_def, Res.ok.injEq, Prod.mk.injEq] at hs
        obtain ⟨_, _, _, rfl⟩ := hs
        exact ih.mono _
      · simp at hs

/-- The multiple of a valid point of the curve never encodes to zeros. -/
theorem shared_nonzero {E : Env} (hc : GoodCurve E.curve) {P : Point} (hP : OnCurve E.curve P) (hv : Valid448 E P)
    (k : ECDHKeyPair) : anyNonzero (k.sharedSecret E P).encode = true := by
  have := Fact.mk hc.field.prime
  have := hc.field.good
  obtain ⟨A, hA⟩ := OnCurve.rep hP
  have h0 : E.curve.q • A = 0 := (((hA.mul _).eq_iff rep_identity).mp hv.2.2.2)
  refine encode_nonzero hc ((hA.mul k.priv).onCurve) ?_
  refine (((hA.mul _).mul _).eq_iff rep_identity).mpr ?_
  rw [smul_comm, h0, smul_zero]

end DAKE

end Otrr
