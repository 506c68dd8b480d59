import Verif.Spec.DeniableKex
import Verif.Props.Dake
/-! C101: either participant alone can make up an OTRv4 key exchange with the other, so that a transcript proves
nothing about the other. -/

namespace Otrr.Props
open Otrr Otrr.Spec Otrr.DAKE

/-- C101, the client that begins.  Bob has the published profile of Alice, who takes no part.  Bob begins an exchange, makes up the answer
of Alice, and signs it with a key pair `k` of his own: his forging key, or the ephemeral key he just sent.  (`k` belongs to exactly one of
the three places in the signature.)  Then his own client accepts the answer as one from Alice, and completes the exchange. -/
theorem C101_begins (E : Env) (hc : GoodCurve E.curve) (hostB : DAKEHost) (PA PB : ClientProfilePayload) (pa pb : ClientProfile)
    (hA : Published E PA pa) (hB : Party E hostB PB pb) (rB rA rS rB' : Rand) (gB : GoodEphemeral E rB) (gA : GoodEphemeral E rA)
    (d2 : pa.forgingKey ≠ pb.identityKey) (d4 : (ECDHKeyPair.generate E (rA.bytes [0] 57)).pub ≠ pb.identityKey)
    (k : EdDSAKeyPair) (hk : k.pub = Point.mul E.curve E.curve.G k.sk) (hkA : k.pub ≠ pa.identityKey)
    (hown : (k.pub = pb.forgingKey ∧ k.pub ≠ (ECDHKeyPair.generate E (rB.bytes [0] 57)).pub) ∨
      (k.pub = (ECDHKeyPair.generate E (rB.bytes [0] 57)).pub ∧ k.pub ≠ pb.forgingKey)) (tB : Nat) :
    ∃ mI sB, initiate E hostB rB .initial = (.ok (.identity mI), sB) ∧
    ∃ mR, fakeAuthR E k mI pb PA pa hostB.account hostB.contact rA rS = .ok mR ∧
    (NonzeroChallenge E mR.sigma →
    ∃ mat mA, handleAuthR E hostB mR rB' tB sB = (.ok (mat, .authI mA), .initial) ∧
      mat.us = fingerprint4 E pb.identityKey pb.forgingKey ∧ mat.them = fingerprint4 E pa.identityKey pa.forgingKey ∧
      RingVerifies E mR.sigma pb.forgingKey pa.identityKey mI.y
        ((exchangeOf mI mR pb pa hostB.account hostB.contact).transcriptR E)) := by
  obtain ⟨gy, vy⟩ := generated_good hc gB.ecdh
  obtain ⟨ge, ve⟩ := generated_good hc gB.ecdh0
  obtain ⟨gx, vx⟩ := generated_good hc gA.ecdh
  obtain ⟨gf, vf⟩ := generated_good hc gA.ecdh0
  obtain ⟨ka, kb, e1, e2, e3⟩ := mixed_mirror hc _ _ _ _ vx vy gA.dh gB.dh
  obtain ⟨fa, fb, f1, f2, _⟩ := mixed_mirror hc _ _ _ _ vf ve gA.dh0 gB.dh0
  have hoB := ownPayload_party hc hB
  let mI : IdentityMessage := ⟨PB, (ECDHKeyPair.generate E (rB.bytes [0] 57)).pub,
    (DH.Keypair.generate3 E.dh3 (rB.bytes [1] 80)).pub, (ECDHKeyPair.generate E (rB.bytes [2] 57)).pub,
    (DH.Keypair.generate3 E.dh3 (rB.bytes [3] 80)).pub⟩
  let stB : AwaitingAuthR := ⟨ECDHKeyPair.generate E (rB.bytes [0] 57), DH.Keypair.generate3 E.dh3 (rB.bytes [1] 80),
    PB, ECDHKeyPair.generate E (rB.bytes [2] 57), DH.Keypair.generate3 E.dh3 (rB.bytes [3] 80), mI⟩
  refine ⟨mI, .awaitingAuthR stB, transact_ok.mpr (by simp only [hoB, Res.bind_ok, Res.pure_def]; rfl), ?_⟩
  have giB : GoodKey E.curve hostB.identity.pub := hB.key ▸ hB.identity
  let ex : Exchange := ⟨PB, PA, pb, pa, mI.y, (ECDHKeyPair.generate E (rA.bytes [0] 57)).pub, mI.b,
    (DH.Keypair.generate3 E.dh3 (rA.bytes [1] 80)).pub, mI.ecdh0, mI.dh0, (ECDHKeyPair.generate E (rA.bytes [2] 57)).pub,
    (DH.Keypair.generate3 E.dh3 (rA.bytes [3] 80)).pub, hostB.account, hostB.contact⟩
  obtain ⟨sg, s1, s2⟩ := ring_sign_validate hc k hk hB.forging hA.identity gy
    (hown.elim (fun h => .inl ⟨h.1, hkA, h.2⟩) (fun h => .inr (.inr ⟨h.2, hkA, h.1⟩))) (ex.transcriptR E) rS
  let mR : AuthRMessage := ⟨PA, (ECDHKeyPair.generate E (rA.bytes [0] 57)).pub,
    (DH.Keypair.generate3 E.dh3 (rA.bytes [1] 80)).pub, sg, (ECDHKeyPair.generate E (rA.bytes [2] 57)).pub,
    (DH.Keypair.generate3 E.dh3 (rA.bytes [3] 80)).pub⟩
  have hfake : fakeAuthR E k mI pb PA pa hostB.account hostB.contact rA rS = .ok mR := by
    have s1' : RingSignature.sign E k pb.forgingKey pa.identityKey mI.y
      ((exchangeOf mI ⟨PA, (ECDHKeyPair.generate E (rA.bytes [0] 57)).pub, (DH.Keypair.generate3 E.dh3 (rA.bytes [1] 80)).pub, default,
        (ECDHKeyPair.generate E (rA.bytes [2] 57)).pub, (DH.Keypair.generate3 E.dh3 (rA.bytes [3] 80)).pub⟩ pb pa hostB.account
        hostB.contact).transcriptR E) rS = .ok sg := s1
    unfold fakeAuthR
    simp only [s1']
    rfl
  refine ⟨mR, hfake, fun hnz => ?_⟩
  have hvR : validateAuthR E mR = .ok pa := validateAuthR_ok.mpr ⟨hA.valid, vx, gA.dh, vf, gA.dh0⟩
  have kB : hostB.identity.pub = hostB.identity.pub ∧ hostB.identity.pub ≠ pa.forgingKey ∧ hostB.identity.pub ≠ mR.x :=
    ⟨rfl, by rw [← hB.key]; exact d2.symm, by rw [← hB.key]; exact d4.symm⟩
  obtain ⟨sg', t1, t2⟩ := ring_sign_validate hc hostB.identity hB.pair giB hA.forging gx
    (.inl kB) (ex.transcriptI E) (rB'.sub 0)
  have hfb := Mixed.next_ok f2
  have hfpe : fb.publicEcdh = mR.ecdh0 := by rw [hfb.2.2.2.2]; rfl
  have hfpd : fb.publicDh = mR.dh0 := by rw [hfb.2.2.2.2]; rfl
  obtain ⟨dB, hdB⟩ := first_rotation hc (s := fb) (root := kdf E 64 0x0b kb.k) (now := tB) (rB'.sub 1)
    (hfpe ▸ gf.on) (hfpe ▸ vf) (hfpd ▸ gA.dh0)
  let matB : MixedKeyMaterial := ⟨kdf E 8 0x04 kb.k, dB, fingerprint4 E pb.identityKey pb.forgingKey,
    fingerprint4 E pa.identityKey pa.forgingKey⟩
  have s2' : mR.sigma.validate E pb.forgingKey pa.identityKey stB.y.pub
      (tbytesR E (wPayload stB.payload) (wPayload mR.profile) stB.y.pub mR.x stB.b.pub mR.a
        (phi pa.ownerTag pb.ownerTag mR.ecdh0 mR.dh0 stB.ecdh0.pub stB.dh0.pub hostB.contact hostB.account)) = .ok () :=
    s2 hnz
  have hbob : answerAuthR E hostB mR stB rB' tB = .ok (matB, .authI ⟨sg'⟩) := by
    have t1' : RingSignature.sign E hostB.identity hostB.identity.pub pa.forgingKey mR.x
        (tbytesI E (wPayload stB.payload) (wPayload mR.profile) stB.y.pub mR.x stB.b.pub mR.a
          (phi pb.ownerTag pa.ownerTag stB.ecdh0.pub stB.dh0.pub mR.ecdh0 mR.dh0 hostB.account hostB.contact))
        (rB'.sub 0) = .ok sg' := t1
    have e2' : Mixed.new E stB.y stB.b mR.x mR.a = .ok kb := e2
    have f2' : Mixed.new E stB.ecdh0 stB.dh0 mR.ecdh0 mR.dh0 = .ok fb := f2
    have hv' : stB.payload.validate E = .ok pb := hB.valid
    unfold answerAuthR
    simp only [hvR, hv', s2', t1', e2', f2', hdB, Res.bind_ok, Res.pure_def]
    rfl
  have hver : RingVerifies E sg pb.forgingKey pa.identityKey mI.y
      ((exchangeOf mI mR pb pa hostB.account hostB.contact).transcriptR E) := (ring_validate_ok (s2 hnz)).1
  exact ⟨matB, ⟨sg'⟩, transact_ok.mpr (by simp only [hbob, Res.bind_ok, Res.pure_def]), rfl, rfl, hver⟩

/-- C101, the client that answers.  Alice has the published profile of Bob, who takes no part.  Alice makes up an Identity message of Bob,
her client answers it, and she makes up the last message, signed with a key pair `k` of her own: her forging key, or the ephemeral key of her
answer.  Then her own client accepts the session as one with Bob. -/
theorem C101_answers (E : Env) (hc : GoodCurve E.curve) (hostA : DAKEHost) (PA PB : ClientProfilePayload) (pa pb : ClientProfile)
    (hA : Party E hostA PA pa) (hB : Published E PB pb) (rB rA rS : Rand) (gB : GoodEphemeral E rB) (gA : GoodEphemeral E rA)
    (d1 : pb.forgingKey ≠ pa.identityKey) (d3 : (ECDHKeyPair.generate E (rB.bytes [0] 57)).pub ≠ pa.identityKey)
    (sA : DAKEState)
    (hsA : ∀ st, sA = .awaitingAuthR st → beNat (E.shake 32 (wMpi st.message.b)) ≤
      beNat (E.shake 32 (wMpi (DH.Keypair.generate3 E.dh3 (rB.bytes [1] 80)).pub)))
    (k : EdDSAKeyPair) (hk : k.pub = Point.mul E.curve E.curve.G k.sk) (hkB : k.pub ≠ pb.identityKey)
    (hown : (k.pub = pa.forgingKey ∧ k.pub ≠ (ECDHKeyPair.generate E (rA.bytes [0] 57)).pub) ∨
      (k.pub = (ECDHKeyPair.generate E (rA.bytes [0] 57)).pub ∧ k.pub ≠ pa.forgingKey)) (tA : Nat) :
    ∃ mR sA', handleIdentity E hostA (fakeIdentity E PB rB) rA sA = (.ok (.authR mR), sA') ∧
    ∃ mA, fakeAuthI E k (fakeIdentity E PB rB) pb mR pa hostA.contact hostA.account rS = .ok mA ∧
    (NonzeroChallenge E mA.sigma →
    ∃ mat, handleAuthI E hostA mA tA sA' = (.ok mat, sA') ∧
      mat.us = fingerprint4 E pa.identityKey pa.forgingKey ∧ mat.them = fingerprint4 E pb.identityKey pb.forgingKey ∧
      RingVerifies E mA.sigma pb.identityKey pa.forgingKey mR.x
        ((exchangeOf (fakeIdentity E PB rB) mR pb pa hostA.contact hostA.account).transcriptI E)) := by
  obtain ⟨gy, vy⟩ := generated_good hc gB.ecdh
  obtain ⟨ge, ve⟩ := generated_good hc gB.ecdh0
  obtain ⟨gx, vx⟩ := generated_good hc gA.ecdh
  obtain ⟨gf, vf⟩ := generated_good hc gA.ecdh0
  obtain ⟨ka, kb, e1, e2, e3⟩ := mixed_mirror hc _ _ _ _ vx vy gA.dh gB.dh
  obtain ⟨fa, fb, f1, f2, _⟩ := mixed_mirror hc _ _ _ _ vf ve gA.dh0 gB.dh0
  have hoA := ownPayload_party hc hA
  let mI : IdentityMessage := fakeIdentity E PB rB
  have hvI : validateIdentity E mI = .ok pb := validateIdentity_ok.mpr ⟨hB.valid, vy, gB.dh, ve, gB.dh0⟩
  have kA : hostA.identity.pub ≠ pb.forgingKey ∧ hostA.identity.pub = hostA.identity.pub ∧ hostA.identity.pub ≠ mI.y :=
    ⟨by rw [← hA.key]; exact d1.symm, rfl, by rw [← hA.key]; exact d3.symm⟩
  have giA : GoodKey E.curve hostA.identity.pub := hA.key ▸ hA.identity
  let ex : Exchange := ⟨PB, PA, pb, pa, mI.y, (ECDHKeyPair.generate E (rA.bytes [0] 57)).pub, mI.b,
    (DH.Keypair.generate3 E.dh3 (rA.bytes [1] 80)).pub, mI.ecdh0, mI.dh0, (ECDHKeyPair.generate E (rA.bytes [2] 57)).pub,
    (DH.Keypair.generate3 E.dh3 (rA.bytes [3] 80)).pub, hostA.contact, hostA.account⟩
  obtain ⟨sg, s1, s2⟩ := ring_sign_validate hc hostA.identity hA.pair hB.forging giA gy
    (.inr (.inl kA)) (ex.transcriptR E) (rA.sub 4)
  let mR : AuthRMessage := ⟨PA, (ECDHKeyPair.generate E (rA.bytes [0] 57)).pub,
    (DH.Keypair.generate3 E.dh3 (rA.bytes [1] 80)).pub, sg, (ECDHKeyPair.generate E (rA.bytes [2] 57)).pub,
    (DH.Keypair.generate3 E.dh3 (rA.bytes [3] 80)).pub⟩
  let stA : AwaitingAuthI := ⟨PA, PB, mR.x, mI.y, mR.a, mI.b, ka.k, ECDHKeyPair.generate E (rA.bytes [2] 57),
    DH.Keypair.generate3 E.dh3 (rA.bytes [3] 80), mI.ecdh0, mI.dh0⟩
  have hans : answerIdentity E hostA mI pb rA = .ok (.authR mR, .awaitingAuthI stA) := by
    have s1' : RingSignature.sign E hostA.identity pb.forgingKey hostA.identity.pub mI.y
        (tbytesR E (wPayload mI.profile) hostA.profile mI.y (ECDHKeyPair.generate E (rA.bytes [0] 57)).pub mI.b
          (DH.Keypair.generate3 E.dh3 (rA.bytes [1] 80)).pub
          (phi pa.ownerTag pb.ownerTag (ECDHKeyPair.generate E (rA.bytes [2] 57)).pub
            (DH.Keypair.generate3 E.dh3 (rA.bytes [3] 80)).pub mI.ecdh0 mI.dh0 hostA.account hostA.contact))
        (rA.sub 4) = .ok sg := by
      rw [hA.bytes]; exact s1
    have e1' : Mixed.new E (ECDHKeyPair.generate E (rA.bytes [0] 57)) (DH.Keypair.generate3 E.dh3 (rA.bytes [1] 80))
      mI.y mI.b = .ok ka := e1
    unfold answerIdentity
    simp only [hoA, hA.valid, Res.bind_ok, s1', e1', Res.pure_def]
    rfl
  refine ⟨mR, .awaitingAuthI stA, transact_ok.mpr ?_, ?_⟩
  · rw [hvI, Res.bind_ok]
    split
    · rename_i st
      exact (if_neg (Nat.not_lt.mpr (hsA st rfl))).trans hans
    · exact hans
  obtain ⟨sg', t1, t2⟩ := ring_sign_validate hc k hk hB.identity hA.forging gx
    (hown.elim (fun h => .inr (.inl ⟨hkB, h.1, h.2⟩)) (fun h => .inr (.inr ⟨hkB, h.2, h.1⟩))) (ex.transcriptI E) rS
  have hfake : fakeAuthI E k mI pb mR pa hostA.contact hostA.account rS = .ok ⟨sg'⟩ := by
    have t1' : RingSignature.sign E k pb.identityKey pa.forgingKey mR.x
      ((exchangeOf mI mR pb pa hostA.contact hostA.account).transcriptI E) rS = .ok sg' := t1
    unfold fakeAuthI
    simp only [t1']
  refine ⟨⟨sg'⟩, hfake, fun hnz' => ?_⟩
  let matA : MixedKeyMaterial := ⟨kdf E 8 0x04 ka.k, DoubleRatchet.init E .sender fa (kdf E 64 0x0b ka.k) tA,
    fingerprint4 E pa.identityKey pa.forgingKey, fingerprint4 E pb.identityKey pb.forgingKey⟩
  have t2' : sg'.validate E pb.identityKey pa.forgingKey stA.x
      (tbytesI E (wPayload stA.profileBob) (wPayload stA.profileAlice) stA.y stA.x stA.b stA.a
        (phi pb.ownerTag pa.ownerTag stA.ecdh0Other stA.dh0Other stA.ecdh0.pub stA.dh0.pub hostA.contact
          hostA.account)) = .ok () := t2 hnz'
  have hal : acceptAuthI E hostA ⟨sg'⟩ stA tA = .ok matA := by
    have f1' : Mixed.new E stA.ecdh0 stA.dh0 stA.ecdh0Other stA.dh0Other = .ok fa := f1
    have v1 : stA.profileAlice.validate E = .ok pa := hA.valid
    have v2 : stA.profileBob.validate E = .ok pb := hB.valid
    unfold acceptAuthI
    simp only [v1, v2, t2', f1', Res.bind_ok, Res.pure_def]
    rfl
  have hver : RingVerifies E sg' pb.identityKey pa.forgingKey mR.x
      ((exchangeOf mI mR pb pa hostA.contact hostA.account).transcriptI E) := (ring_validate_ok (t2 hnz')).1
  exact ⟨matA, transact_ok.mpr (by simp only [hal, Res.bind_ok, Res.pure_def]), rfl, rfl, hver⟩

/-- A client's published half. -/
theorem Party.published {E : Env} {host : DAKEHost} {P : ClientProfilePayload} {p : ClientProfile} (h : Party E host P p) :
    Published E P p := ⟨h.valid, h.identity, h.forging⟩

/-- An ephemeral key pair is a key pair to sign with. -/
theorem asSigner_pair (E : Env) (r : Bytes) : (asSigner (ECDHKeyPair.generate E r)).pub =
    Point.mul E.curve E.curve.G (asSigner (ECDHKeyPair.generate E r)).sk := rfl
theorem asSigner_pub (k : ECDHKeyPair) : (asSigner k).pub = k.pub := rfl

/-- The forging key pair of the toy client Alice. -/
def forgingA : EdDSAKeyPair := ⟨[], 3, Point.mul toyCurve toyCurve.G 3⟩

/-- The Auth-R message that Bob makes up and signs with the ephemeral key, and the Auth-I message that Alice makes up and signs with the
forging key. -/
@[irreducible] def madeUpR : AuthRMessage := ⟨payloadA, ⟨13, 21⟩, 13, ⟨12, 12, 12, 3, 6, 5⟩, ⟨2, 39⟩, 12⟩
@[irreducible] def madeUpI : AuthIMessage := ⟨⟨12, 12, 7, 0, 12, 10⟩⟩

theorem madeUpR_eq : fakeAuthR toyEnv (asSigner (ECDHKeyPair.generate toyEnv ((smallRand 4).bytes [0] 57))) toyIdentity profileB payloadA
    profileA hostB.account hostB.contact (smallRand 10) (smallRand 2) = .ok madeUpR ∧ NonzeroChallenge toyEnv madeUpR.sigma := by
  unfold NonzeroChallenge; decide +kernel
theorem madeUpI_eq : fakeIdentity toyEnv payloadB (smallRand 4) = toyIdentity ∧ fakeAuthI toyEnv forgingA toyIdentity profileB toyAuthR
    profileA hostA.contact hostA.account (smallRand 2) = .ok madeUpI ∧ NonzeroChallenge toyEnv madeUpI.sigma := by
  unfold NonzeroChallenge; decide +kernel

/-- The whole of `C101_begins` on the toy clients: nothing is left as a condition. -/
example : ∃ mat mA, handleAuthR toyEnv hostB madeUpR (smallRand 1) 5 toyBegan = (.ok (mat, .authI mA), .initial) ∧
    mat.them = fingerprint4 toyEnv profileA.identityKey profileA.forgingKey := by
  obtain ⟨mI, sB, h1, mR, h2, h3⟩ := C101_begins toyEnv toy_goodCurve hostB payloadA payloadB profileA profileB (Party.published partyA) partyB
    (smallRand 4) (smallRand 10) (smallRand 2) (smallRand 1) toy_good4 toy_good10 (by decide +kernel) (by decide +kernel)
    (asSigner (ECDHKeyPair.generate toyEnv ((smallRand 4).bytes [0] 57))) (asSigner_pair _ _) (by decide +kernel)
    (.inr ⟨asSigner_pub _, by decide +kernel⟩) 5
  rw [toy1] at h1
  simp only [Prod.mk.injEq, Res.ok.injEq, EncodedMessageType.identity.injEq] at h1
  obtain ⟨rfl, rfl⟩ := h1
  rw [madeUpR_eq.1] at h2
  cases h2
  obtain ⟨mat, mA, h4, _, h5, _⟩ := h3 madeUpR_eq.2
  exact ⟨mat, mA, h4, h5⟩

/-- The whole of `C101_answers` on the toy clients. -/
example : ∃ mat, handleAuthI toyEnv hostA madeUpI 6 toyAnswer = (.ok mat, toyAnswer) ∧
    mat.them = fingerprint4 toyEnv profileB.identityKey profileB.forgingKey := by
  obtain ⟨mR, sA', h1, mA, h2, h3⟩ := C101_answers toyEnv toy_goodCurve hostA payloadA payloadB profileA profileB partyA (Party.published partyB)
    (smallRand 4) (smallRand 10) (smallRand 2) toy_good4 toy_good10 (by decide +kernel) (by decide +kernel) .initial nofun
    forgingA (by simp only [forgingA]; rfl) (by decide +kernel) (.inl (by decide +kernel)) 6
  rw [madeUpI_eq.1] at h1 h2 h3
  rw [toy2] at h1
  simp only [Prod.mk.injEq, Res.ok.injEq, EncodedMessageType.authR.injEq] at h1
  obtain ⟨rfl, rfl⟩ := h1
  rw [madeUpI_eq.2.1] at h2
  cases h2
  obtain ⟨mat, h4, _, h5, _⟩ := h3 madeUpI_eq.2.2
  exact ⟨mat, h4, h5⟩

end Otrr.Props
