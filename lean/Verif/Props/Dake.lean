import Verif.Lemmas.Dake
import Verif.Lemmas.DakeToy
import Verif.Props.Profile
/-! C33 to C36, C58, C65, C69 and C70: the OTRv4 key exchange. -/

namespace Otrr.Props
open Otrr Otrr.Spec Otrr.DAKE

/-! ## C33 -/

theorem ownPayload_party {E : Env} (hc : GoodCurve E.curve) {host : DAKEHost} {P : ClientProfilePayload}
    {p : ClientProfile} (h : Party E host P p) : ownPayload E host = .ok P := by
  have h1 := readPayload_w hc.field h.wf []
  rw [List.append_nil, ← h.bytes] at h1
  unfold ownPayload
  rw [runDec_ok]
  refine ⟨[], ?_⟩
  rw [Dec.bind_ok h1, Dec.bind_ok (show decDone [] = .ok ((), []) from rfl)]
  rfl

/-- A generated public key that is not the neutral element is acceptable. -/
theorem generated_good {E : Env} (hc : GoodCurve E.curve) {r : Bytes}
    (h : (ECDHKeyPair.generate E r).pub ≠ Point.identity) :
    GoodKey E.curve (ECDHKeyPair.generate E r).pub ∧ Valid448 E (ECDHKeyPair.generate E r).pub :=
  have hg : GoodKey E.curve (ECDHKeyPair.generate E r).pub :=
    ⟨(mulG_good hc _).1, h, (mulG_good hc _).2⟩
  ⟨hg, valid448_iff.mp ((verify_iff hg.on).mpr hg)⟩

/-- Both clients compute the same mixed secret. -/
theorem mixed_mirror {E : Env} (hc : GoodCurve E.curve) (xa xb ya yb : Nat)
    (h1 : Valid448 E (Point.mul E.curve E.curve.G xa)) (h2 : Valid448 E (Point.mul E.curve E.curve.G xb))
    (h3 : Valid3072 E (DH.Keypair.new E.dh3 ya).pub) (h4 : Valid3072 E (DH.Keypair.new E.dh3 yb).pub) :
    ∃ sa sb,
      Mixed.new E ⟨xa, Point.mul E.curve E.curve.G xa⟩ (DH.Keypair.new E.dh3 ya)
        (Point.mul E.curve E.curve.G xb) (DH.Keypair.new E.dh3 yb).pub = .ok sa ∧
      Mixed.new E ⟨xb, Point.mul E.curve E.curve.G xb⟩ (DH.Keypair.new E.dh3 yb)
        (Point.mul E.curve E.curve.G xa) (DH.Keypair.new E.dh3 ya).pub = .ok sb ∧ sa.k = sb.k := by
  have a := Mixed.next_of (E := E) (third := true) (prev := List.replicate 32 0)
    (ecdh := ⟨xa, Point.mul E.curve E.curve.G xa⟩) (dh := DH.Keypair.new E.dh3 ya)
    (valid448_iff.mpr h2) (valid3072_iff.mpr h4) (shared_nonzero hc (mulG_good hc xb).1 h2 _) rfl
  have b := Mixed.next_of (E := E) (third := true) (prev := List.replicate 32 0)
    (ecdh := ⟨xb, Point.mul E.curve E.curve.G xb⟩) (dh := DH.Keypair.new E.dh3 yb)
    (valid448_iff.mpr h1) (valid3072_iff.mpr h3) (shared_nonzero hc (mulG_good hc xa).1 h1 _) rfl
  refine ⟨_, _, a, b, ?_⟩
  simp only [ECDHKeyPair.sharedSecret]
  rw [C64_shared_point E.curve hc xa xb, C64_shared_secret E.dh3 ya yb]

/-- The first rotation of the receiver of the first ratchet succeeds. -/
theorem first_rotation {E : Env} (hc : GoodCurve E.curve) {s : Mixed} {root : Bytes} {now : Nat} (rnd : Rand)
    (hP : OnCurve E.curve s.publicEcdh) (h1 : Valid448 E s.publicEcdh) (h2 : Valid3072 E s.publicDh) :
    ∃ d, (DoubleRatchet.init E .receiver s root now).rotateSender E rnd now = .ok d := by
  have a := Mixed.next_of (E := E) (third := true) (prev := s.brace)
    (ecdh := ECDHKeyPair.generate E (rnd.bytes [1] 57)) (dh := DH.Keypair.generate3 E.dh3 (rnd.bytes [0] 80))
    (valid448_iff.mpr h1) (valid3072_iff.mpr h2) (shared_nonzero hc hP h1 _) rfl
  have hi : incId (0 : UInt32) = .ok 1 := rfl
  simp only [DoubleRatchet.rotateSender, DoubleRatchet.init, Mixed.rotateKeypairs, Res.assert, decide_true, if_true,
    Res.bind_ok, show ((0 : UInt32) % 3 == 0) = true from rfl, a, Res.expect, hi, Res.pure_def]
  exact ⟨_, rfl⟩

/-- What `initiate` does. -/
theorem initiate_of {E : Env} {host : DAKEHost} {P : ClientProfilePayload} (h : ownPayload E host = .ok P) (r : Rand) :
    ∃ st, initiate E host r .initial = (.ok (.identity st.message), .awaitingAuthR st) ∧
      st.message = ⟨P, (ECDHKeyPair.generate E (r.bytes [0] 57)).pub, (DH.Keypair.generate3 E.dh3 (r.bytes [1] 80)).pub,
        (ECDHKeyPair.generate E (r.bytes [2] 57)).pub, (DH.Keypair.generate3 E.dh3 (r.bytes [3] 80)).pub⟩ :=
  ⟨⟨ECDHKeyPair.generate E (r.bytes [0] 57), DH.Keypair.generate3 E.dh3 (r.bytes [1] 80), P,
      ECDHKeyPair.generate E (r.bytes [2] 57), DH.Keypair.generate3 E.dh3 (r.bytes [3] 80), _⟩,
    transact_ok.mpr (by simp only [h, Res.bind_ok, Res.pure_def]), rfl⟩

/-- C33: two clients with accepted profiles, whose keys are pairwise different where a signature needs it, run
the exchange with each other's unmodified messages.  Bob begins, Alice may be in any state in which she does
not insist on her own Identity message.  Then all three messages are accepted, and both clients hold the same
session, with the fingerprints of both.  (`NonzeroChallenge` fails with probability 1/q.) -/
theorem C33_agree (E : Env) (hc : GoodCurve E.curve) (hostA hostB : DAKEHost) (PA PB : ClientProfilePayload)
    (pa pb : ClientProfile) (hA : Party E hostA PA pa) (hB : Party E hostB PB pb)
    (hn1 : hostA.account = hostB.contact) (hn2 : hostA.contact = hostB.account)
    (rB rA rB' : Rand) (gB : GoodEphemeral E rB) (gA : GoodEphemeral E rA)
    (d1 : pb.forgingKey ≠ pa.identityKey) (d2 : pa.forgingKey ≠ pb.identityKey)
    (d3 : (ECDHKeyPair.generate E (rB.bytes [0] 57)).pub ≠ pa.identityKey)
    (d4 : (ECDHKeyPair.generate E (rA.bytes [0] 57)).pub ≠ pb.identityKey)
    (sA : DAKEState)
    (hsA : ∀ st, sA = .awaitingAuthR st → beNat (E.shake 32 (wMpi st.message.b)) ≤
      beNat (E.shake 32 (wMpi (DH.Keypair.generate3 E.dh3 (rB.bytes [1] 80)).pub)))
    (tA tB : Nat) :
    ∃ mI sB, initiate E hostB rB .initial = (.ok (.identity mI), sB) ∧
    ∃ mR sA', handleIdentity E hostA mI rA sA = (.ok (.authR mR), sA') ∧
    (NonzeroChallenge E mR.sigma →
    ∃ matB mA, handleAuthR E hostB mR rB' tB sB = (.ok (matB, .authI mA), .initial) ∧
    (NonzeroChallenge E mA.sigma →
    ∃ matA sA'', handleAuthI E hostA mA tA sA' = (.ok matA, sA'') ∧ Agree4 E matA matB mI.dh0 ∧
      matA.us = fingerprint4 E pa.identityKey pa.forgingKey ∧ matA.them = fingerprint4 E pb.identityKey pb.forgingKey)) := by
  obtain ⟨gy, vy⟩ := generated_good hc gB.ecdh
  obtain ⟨ge, ve⟩ := generated_good hc gB.ecdh0
  obtain ⟨gx, vx⟩ := generated_good hc gA.ecdh
  obtain ⟨gf, vf⟩ := generated_good hc gA.ecdh0
  obtain ⟨ka, kb, e1, e2, e3⟩ := mixed_mirror hc _ _ _ _ vx vy gA.dh gB.dh
  obtain ⟨fa, fb, f1, f2, _⟩ := mixed_mirror hc _ _ _ _ vf ve gA.dh0 gB.dh0
  have hpB := fb.k
  have hoA := ownPayload_party hc hA
  have hoB := ownPayload_party hc hB
  -- Bob begins
  let mI : IdentityMessage := ⟨PB, (ECDHKeyPair.generate E (rB.bytes [0] 57)).pub,
    (DH.Keypair.generate3 E.dh3 (rB.bytes [1] 80)).pub, (ECDHKeyPair.generate E (rB.bytes [2] 57)).pub,
    (DH.Keypair.generate3 E.dh3 (rB.bytes [3] 80)).pub⟩
  let stB : AwaitingAuthR := ⟨ECDHKeyPair.generate E (rB.bytes [0] 57), DH.Keypair.generate3 E.dh3 (rB.bytes [1] 80),
    PB, ECDHKeyPair.generate E (rB.bytes [2] 57), DH.Keypair.generate3 E.dh3 (rB.bytes [3] 80), mI⟩
  refine ⟨mI, .awaitingAuthR stB, transact_ok.mpr (by simp only [hoB, Res.bind_ok, Res.pure_def]; rfl), ?_⟩
  -- Alice answers
  have hvI : validateIdentity E mI = .ok pb := validateIdentity_ok.mpr ⟨hB.valid, vy, gB.dh, ve, gB.dh0⟩
  have kA : hostA.identity.pub ≠ pb.forgingKey ∧ hostA.identity.pub = hostA.identity.pub ∧ hostA.identity.pub ≠ mI.y :=
    ⟨by rw [← hA.key]; exact d1.symm, rfl, by rw [← hA.key]; exact d3.symm⟩
  have giA : GoodKey E.curve hostA.identity.pub := hA.key ▸ hA.identity
  have giB : GoodKey E.curve hostB.identity.pub := hB.key ▸ hB.identity
  let ex : Exchange := ⟨PB, PA, pb, pa, mI.y, (ECDHKeyPair.generate E (rA.bytes [0] 57)).pub, mI.b,
    (DH.Keypair.generate3 E.dh3 (rA.bytes [1] 80)).pub, mI.ecdh0, mI.dh0, (ECDHKeyPair.generate E (rA.bytes [2] 57)).pub,
    (DH.Keypair.generate3 E.dh3 (rA.bytes [3] 80)).pub, hostB.account, hostA.account⟩
  obtain ⟨sg, s1, s2⟩ := ring_sign_validate hc hostA.identity hA.pair hB.forging giA gy
    (.inr (.inl kA)) (ex.transcriptR E) (rA.sub 4)
  let mR : AuthRMessage := ⟨PA, (ECDHKeyPair.generate E (rA.bytes [0] 57)).pub,
    (DH.Keypair.generate3 E.dh3 (rA.bytes [1] 80)).pub, sg, (ECDHKeyPair.generate E (rA.bytes [2] 57)).pub,
    (DH.Keypair.generate3 E.dh3 (rA.bytes [3] 80)).pub⟩
  let stA : AwaitingAuthI := ⟨PA, PB, mR.x, mI.y, mR.a, mI.b, ka.k, ECDHKeyPair.generate E (rA.bytes [2] 57),
    DH.Keypair.generate3 E.dh3 (rA.bytes [3] 80), mI.ecdh0, mI.dh0⟩
  have hans : answerIdentity E hostA mI pb rA = .ok (.authR mR, .awaitingAuthI stA) := by
    have s1' : RingSignature.sign E hostA.identity pb.forgingKey hostA.identity.pub mI.y
        (tbytesR E (wPayload mI.profile) hostA.profile mI.y (ECDHKeyPair.generate E (rA.bytes [0] 57)).pub mI.b
          (DH.Keypair.generate3 E.dh3 (rA.bytes [1] 80)).pub
          (phi pa.ownerTag pb.ownerTag (ECDHKeyPair.generate E (rA.bytes [2] 57)).pub
            (DH.Keypair.generate3 E.dh3 (rA.bytes [3] 80)).pub mI.ecdh0 mI.dh0 hostA.account hostA.contact))
        (rA.sub 4) = .ok sg := by
      rw [hA.bytes, hn2]; exact s1
    have e1' : Mixed.new E (ECDHKeyPair.generate E (rA.bytes [0] 57)) (DH.Keypair.generate3 E.dh3 (rA.bytes [1] 80))
      mI.y mI.b = .ok ka := e1
    unfold answerIdentity
    simp only [hoA, hA.valid, Res.bind_ok, s1', e1', Res.pure_def]
    rfl
  refine ⟨mR, .awaitingAuthI stA, transact_ok.mpr ?_, fun hnz => ?_⟩
  · rw [hvI, Res.bind_ok]
    split
    · rename_i st
      exact (if_neg (Nat.not_lt.mpr (hsA st rfl))).trans hans
    · exact hans
  -- Bob answers
  have hvR : validateAuthR E mR = .ok pa := validateAuthR_ok.mpr ⟨hA.valid, vx, gA.dh, vf, gA.dh0⟩
  have kB : hostB.identity.pub = hostB.identity.pub ∧ hostB.identity.pub ≠ pa.forgingKey ∧ hostB.identity.pub ≠ mR.x :=
    ⟨rfl, by rw [← hB.key]; exact d2.symm, by rw [← hB.key]; exact d4.symm⟩
  obtain ⟨sg', t1, t2⟩ := ring_sign_validate hc hostB.identity hB.pair giB hA.forging gx
    (.inl kB) (ex.transcriptI E) (rB'.sub 0)
  have hfb := Mixed.next_ok f2
  have hfpe : fb.publicEcdh = mR.ecdh0 := by rw [hfb.2.2.2.2]; rfl
  have hfpd : fb.publicDh = mR.dh0 := by rw [hfb.2.2.2.2]; rfl
  obtain ⟨dB, hdB⟩ := first_rotation hc (s := fb) (root := kdf E 64 0x0b kb.k) (now := tB) (rB'.sub 1)
    (hfpe ▸ gf.on) (hfpe ▸ vf) (hfpd ▸ gA.dh0)
  let matB : MixedKeyMaterial := ⟨kdf E 8 0x04 kb.k, dB, fingerprint4 E pb.identityKey pb.forgingKey,
    fingerprint4 E pa.identityKey pa.forgingKey⟩
  have hbob : answerAuthR E hostB mR stB rB' tB = .ok (matB, .authI ⟨sg'⟩) := by
    have s2' : mR.sigma.validate E pb.forgingKey pa.identityKey stB.y.pub
        (tbytesR E (wPayload stB.payload) (wPayload mR.profile) stB.y.pub mR.x stB.b.pub mR.a
          (phi pa.ownerTag pb.ownerTag mR.ecdh0 mR.dh0 stB.ecdh0.pub stB.dh0.pub hostB.contact hostB.account)) = .ok () := by
      rw [← hn1, hA.key]; exact s2 hnz
    have t1' : RingSignature.sign E hostB.identity hostB.identity.pub pa.forgingKey mR.x
        (tbytesI E (wPayload stB.payload) (wPayload mR.profile) stB.y.pub mR.x stB.b.pub mR.a
          (phi pb.ownerTag pa.ownerTag stB.ecdh0.pub stB.dh0.pub mR.ecdh0 mR.dh0 hostB.account hostB.contact))
        (rB'.sub 0) = .ok sg' := by
      rw [← hn1]; exact t1
    have e2' : Mixed.new E stB.y stB.b mR.x mR.a = .ok kb := e2
    have f2' : Mixed.new E stB.ecdh0 stB.dh0 mR.ecdh0 mR.dh0 = .ok fb := f2
    have hv' : stB.payload.validate E = .ok pb := hB.valid
    unfold answerAuthR
    simp only [hvR, hv', s2', t1', e2', f2', hdB, Res.bind_ok, Res.pure_def]
    rfl
  refine ⟨matB, ⟨sg'⟩, transact_ok.mpr (by simp only [hbob, Res.bind_ok, Res.pure_def]), fun hnz' => ?_⟩
  -- Alice accepts
  let matA : MixedKeyMaterial := ⟨kdf E 8 0x04 ka.k, DoubleRatchet.init E .sender fa (kdf E 64 0x0b ka.k) tA,
    fingerprint4 E pa.identityKey pa.forgingKey, fingerprint4 E pb.identityKey pb.forgingKey⟩
  have hal : acceptAuthI E hostA ⟨sg'⟩ stA tA = .ok matA := by
    have t2' : sg'.validate E pb.identityKey pa.forgingKey stA.x
        (tbytesI E (wPayload stA.profileBob) (wPayload stA.profileAlice) stA.y stA.x stA.b stA.a
          (phi pb.ownerTag pa.ownerTag stA.ecdh0Other stA.dh0Other stA.ecdh0.pub stA.dh0.pub hostA.contact
            hostA.account)) = .ok () := by
      rw [hn2, hB.key]; exact t2 hnz'
    have f1' : Mixed.new E stA.ecdh0 stA.dh0 stA.ecdh0Other stA.dh0Other = .ok fa := f1
    have v1 : stA.profileAlice.validate E = .ok pa := hA.valid
    have v2 : stA.profileBob.validate E = .ok pb := hB.valid
    unfold acceptAuthI
    simp only [v1, v2, t2', f1', Res.bind_ok, Res.pure_def]
    rfl
  refine ⟨matA, .awaitingAuthI stA, transact_ok.mpr (by simp only [hal, Res.bind_ok, Res.pure_def]), ?_⟩
  refine ⟨⟨by simp only [matA, matB, e3], ⟨rfl, rfl⟩, fun hf tagA tagB => ⟨⟨_, _, _, _, fa, fb, kdf E 64 0x0b ka.k, tA, tB, tB,
    rB'.sub 1, f1, f2, rfl, ?_, hf⟩, rfl, rfl⟩⟩, rfl, rfl⟩
  rw [e3]
  exact hdB

/-- The hypotheses of `C33_agree` hold of a concrete pair of clients, and the exchange runs to its end. -/
theorem toy_good4 : GoodEphemeral toyEnv (smallRand 4) :=
  ⟨by decide +kernel, ⟨by decide +kernel, by decide +kernel, by decide +kernel⟩, by decide +kernel,
    ⟨by decide +kernel, by decide +kernel, by decide +kernel⟩⟩

theorem toy_good10 : GoodEphemeral toyEnv (smallRand 10) :=
  ⟨by decide +kernel, ⟨by decide +kernel, by decide +kernel, by decide +kernel⟩, by decide +kernel,
    ⟨by decide +kernel, by decide +kernel, by decide +kernel⟩⟩

example : NonzeroChallenge toyEnv toyAuthR.sigma ∧ NonzeroChallenge toyEnv toyAuthI.sigma := by
  unfold NonzeroChallenge; decide +kernel

/-- The whole of C33 on the toy clients: nothing is left as a condition. -/
example : ∃ matA matB, handleAuthR toyEnv hostB toyAuthR (smallRand 1) 5 toyBegan = (.ok (matB, .authI toyAuthI), .initial) ∧
    handleAuthI toyEnv hostA toyAuthI 6 toyAnswer = (.ok matA, toyAnswer) ∧ Agree4 toyEnv matA matB toyIdentity.dh0 := by
  obtain ⟨mI, sB, h1, mR, sA', h2, h3⟩ := C33_agree toyEnv toy_goodCurve hostA hostB payloadA payloadB profileA
    profileB partyA partyB (by decide +kernel) (by decide +kernel) (smallRand 4) (smallRand 10) (smallRand 1) toy_good4
    toy_good10 (by decide +kernel) (by decide +kernel) (by decide +kernel) (by decide +kernel) .initial nofun 6 5
  rw [toy1] at h1
  simp only [Prod.mk.injEq, Res.ok.injEq, EncodedMessageType.identity.injEq] at h1
  obtain ⟨rfl, rfl⟩ := h1
  rw [toy2] at h2
  simp only [Prod.mk.injEq, Res.ok.injEq, EncodedMessageType.authR.injEq] at h2
  obtain ⟨rfl, rfl⟩ := h2
  obtain ⟨matB, mA, h4, h5⟩ := h3 (by unfold NonzeroChallenge; decide +kernel)
  obtain ⟨mat, h6⟩ := toy3
  rw [h6] at h4
  simp only [Prod.mk.injEq, Res.ok.injEq, EncodedMessageType.authI.injEq, and_true] at h4
  obtain ⟨rfl, rfl⟩ := h4
  obtain ⟨matA, sA'', h7, h8⟩ := h5 (by unfold NonzeroChallenge; decide +kernel)
  obtain ⟨matA', h9⟩ := toy4
  have := h9.symm.trans h7
  simp only [Prod.mk.injEq, Res.ok.injEq] at this
  obtain ⟨rfl, rfl⟩ := this
  exact ⟨matA', mat, h6, h9, h8.1⟩

/-- C33, the first data messages: once the exchange is complete, what either client sends first is delivered.
`C47_calm` does the rest: it holds for the states that two clients reach from here. -/
theorem C33_first_messages (E : Env) {matA matB : MixedKeyMaterial} {dh0 : Nat}
    (h : Agree4 E matA matB dh0) (hd : matB.ratchet.shared.dh.pub ≠ dh0) (tagA tagB : UInt32) :
    Calm4 E ⟨⟨tagA, tagB, matA.ratchet⟩, ⟨tagB, tagA, matB.ratchet⟩, [], []⟩ :=
  .start (h.ratchet hd tagA tagB)

/-! ## C34 -/

/-- C34, for the client that began: session material comes out only for an Auth-R message that answers an
Identity message this client sent: both profiles were accepted, the keys in the message are in the groups, and
the ring signature of (our forging key, the peer's identity key, our ephemeral key) over the transcript of
exactly this exchange verifies.  The fingerprints reported belong to these profiles. -/
theorem C34_authR (E : Env) (h : List DakeEv) (s s' : DAKEState) (hl : DakeLife E h s) (host : DAKEHost)
    (m : AuthRMessage) (rnd : Rand) (now : Nat) (mat : MixedKeyMaterial) (out : EncodedMessageType)
    (hs : handleAuthR E host m rnd now s = (.ok (mat, out), s')) :
    ∃ i bob alice, .began i ∈ h ∧ i.profile.validate E = .ok bob ∧ m.profile.validate E = .ok alice ∧
      Valid448 E m.x ∧ Valid3072 E m.a ∧ Valid448 E m.ecdh0 ∧ Valid3072 E m.dh0 ∧
      RingVerifies E m.sigma bob.forgingKey alice.identityKey i.y
        ((exchangeOf i m bob alice host.account host.contact).transcriptR E) ∧
      mat.us = fingerprint4 E bob.identityKey bob.forgingKey ∧
      mat.them = fingerprint4 E alice.identityKey alice.forgingKey := by
  have hi := life_inv hl
  have hs := transact_ok.mp hs
  split at hs
  · rename_i st _
    obtain ⟨h1, h2, _⟩ := hi
    simp only [answerAuthR, Res.bind_eq_ok, exUnit, Res.pure_def, Res.ok.injEq, Prod.mk.injEq] at hs
    obtain ⟨_, ⟨alice, hv, bob, hb, hr, _, _, _, _, _, _, _, _, rfl⟩, ⟨rfl, rfl⟩, rfl⟩ := hs
    obtain ⟨hva, hk⟩ := validateAuthR_ok.mp hv
    refine ⟨st.message, bob, alice, h1, by rw [h2]; exact hb, hva, hk.1, hk.2.1, hk.2.2.1, hk.2.2.2, ?_, rfl, rfl⟩
    rw [h2]
    exact (ring_validate_ok hr).1
  · simp at hs

/-- C34, for the client that answered: session material comes out only for an Auth-I message that completes an
exchange in which this client answered an Identity message with an Auth-R message: both profiles were accepted,
the peer's keys were in the groups, and the ring signature of (the peer's identity key, our forging key, our
ephemeral key) over the transcript of exactly this exchange verifies. -/
theorem C34_authI (E : Env) (h : List DakeEv) (s s' : DAKEState) (hl : DakeLife E h s) (host : DAKEHost)
    (m : AuthIMessage) (now : Nat) (mat : MixedKeyMaterial)
    (hs : handleAuthI E host m now s = (.ok mat, s')) :
    ∃ i r bob alice, .identity i (.ok (.authR r)) ∈ h ∧ i.profile.validate E = .ok bob ∧
      r.profile.validate E = .ok alice ∧
      Valid448 E i.y ∧ Valid3072 E i.b ∧ Valid448 E i.ecdh0 ∧ Valid3072 E i.dh0 ∧
      RingVerifies E m.sigma bob.identityKey alice.forgingKey r.x
        ((exchangeOf i r bob alice host.contact host.account).transcriptI E) ∧
      mat.us = fingerprint4 E alice.identityKey alice.forgingKey ∧
      mat.them = fingerprint4 E bob.identityKey bob.forgingKey := by
  have hi := life_inv hl
  have hs := transact_ok.mp hs
  split at hs
  · rename_i st
    obtain ⟨i, r, h1, e1, e2, e3, e4, e5, e6, e7, e8, e9, e10, _, v1, v2, v3, v4⟩ := hi
    simp only [acceptAuthI, Res.bind_eq_ok, exUnit, Res.pure_def, Res.ok.injEq, Prod.mk.injEq] at hs
    obtain ⟨_, ⟨alice, ha, bob, hb, hr, _, _, rfl⟩, rfl, rfl⟩ := hs
    refine ⟨i, r, bob, alice, h1, by rw [← e1]; exact hb, by rw [← e6]; exact ha, v1, v2, v3, v4, ?_, rfl, rfl⟩
    have := (ring_validate_ok hr).1
    rw [e1, e2, e3, e4, e5, e6, e7, e8, e9, e10] at this
    exact this
  · simp at hs

example : ∃ mat s', handleAuthR toyEnv hostB toyAuthR (smallRand 1) 5 toyBegan = (.ok (mat, .authI toyAuthI), s') ∧
    DakeLife toyEnv [.began toyIdentity] toyBegan := by
  obtain ⟨mat, h⟩ := toy3
  exact ⟨mat, _, h, toy_bob_life⟩

example : ∃ mat, handleAuthI toyEnv hostA toyAuthI 6 toyAnswer = (.ok mat, toyAnswer) ∧
    DakeLife toyEnv [.identity toyIdentity (.ok (.authR toyAuthR))] toyAnswer := by
  obtain ⟨mat, h⟩ := toy4
  exact ⟨mat, h, toy_alice_life⟩

/-! ## C35 -/

/-- C35, for the client that began the exchange: once it completed, every Auth-R and Auth-I message, in
particular the same one, is rejected and changes nothing. -/
theorem C35_partial (E : Env) (host : DAKEHost) (m : AuthRMessage) (rnd : Rand) (now : Nat) (s s' : DAKEState)
    (r : MixedKeyMaterial × EncodedMessageType) (hs : handleAuthR E host m rnd now s = (.ok r, s')) :
    (∀ host' m' rnd' now', handleAuthR E host' m' rnd' now' s' = (.err .incorrectState, s')) ∧
    (∀ host' m' now', handleAuthI E host' m' now' s' = (.err .incorrectState, s')) := by
  have hs := transact_ok.mp hs
  split at hs
  · simp only [Res.bind_eq_ok, Res.pure_def, Res.ok.injEq, Prod.mk.injEq] at hs
    obtain ⟨_, _, _, rfl⟩ := hs
    exact ⟨fun _ _ _ _ => rfl, fun _ _ _ => rfl⟩
  · simp at hs

/-- The client that answered accepts every Auth-I message that it accepted once again and again, and each time
it gets the session material of the start, with the ratchet in its first state. -/
theorem C35_replay (E : Env) (host : DAKEHost) (m : AuthIMessage) (now now' : Nat) (s s' : DAKEState)
    (mat : MixedKeyMaterial) (hs : handleAuthI E host m now s = (.ok mat, s')) :
    handleAuthI E host m now' s' =
      (.ok { mat with ratchet := { mat.ratchet with created := now' } }, s') := by
  have hs := transact_ok.mp hs
  split at hs
  · rename_i st
    simp only [acceptAuthI, Res.bind_eq_ok, exUnit, Res.pure_def, Res.ok.injEq, Prod.mk.injEq] at hs
    obtain ⟨_, ⟨alice, ha, bob, hb, hr, first, hf, rfl⟩, rfl, rfl⟩ := hs
    refine transact_ok.mpr ?_
    simp only [acceptAuthI, ha, hb, hr, hf, Res.bind_ok, Res.pure_def]
    rfl
  · simp at hs

/-- C35 is false of the code for the client that answered: in a history that begins without an exchange, an
Auth-I message completes it, and the same Auth-I message completes it once more, with the same SSID. -/
theorem C35_violated : ∃ (E : Env) (h : List DakeEv) (s : DAKEState) (host : DAKEHost) (m : AuthIMessage)
    (mat mat' : MixedKeyMaterial), DakeLife E (h ++ [.authI m (.ok mat)]) s ∧
      handleAuthI E host m 7 s = (.ok mat', s) ∧ mat'.ssid = mat.ssid := by
  obtain ⟨mat, h⟩ := toy4
  exact ⟨toyEnv, _, toyAnswer, hostA, toyAuthI, mat, _, .authI toy_alice_life h (by simp), C35_replay _ _ _ _ 7 _ _ _ h, rfl⟩

/-! ## C58 -/

/-- C58 is false of the code: a profile that expired 1000 seconds after the beginning of 1970 is accepted in an
Identity message.  Validating a received profile does not look at the time. -/
theorem C58_violated : ∃ (E : Env) (host : DAKEHost) (m : IdentityMessage) (rnd : Rand) (bob : ClientProfile)
    (r : AuthRMessage) (s : DAKEState), m.profile.validate E = .ok bob ∧ bob.expiration = 1000 ∧
      handleIdentity E host m rnd .initial = (.ok (.authR r), s) :=
  ⟨toyEnv, hostA, toyIdentity, smallRand 10, profileB, toyAuthR, toyAnswer, by decide +kernel, rfl, toy2⟩

/-- C58, as far as it holds: a client's own profile, when it is made or restored, must not have expired. -/
theorem C58_partial (E : Env) (now : Nat) (tag : UInt32) (ik fk : Point) (vs : List Version) (exp : UInt64)
    (lk : Option DSAPublicKey) (p : ClientProfile) (h : ClientProfile.new E now tag ik fk vs exp lk = .ok p) :
    exp.toNat < 2 ^ 63 ∧ now < exp.toNat ∧ p.expiration = exp := by
  simp only [ClientProfile.new, ClientProfile.validate, Res.bind_eq_ok, exUnit, Res.pure_def, Res.ok.injEq] at h
  obtain ⟨⟨_, _, _, _, _, h1⟩, rfl⟩ := h
  split at h1
  · simp at h1
  · rename_i hx
    simp only [expired, Bool.or_eq_true, decide_eq_true_eq, not_or, not_le, ge_iff_le] at hx
    exact ⟨hx.1, hx.2, rfl⟩

example : ∃ p, ClientProfile.new toyEnv 999 0x100 (EdDSAKeyPair.generate toyEnv [4]).pub toyCurve.G [.v4] 1000 .none = .ok p :=
  ⟨⟨0x100, (EdDSAKeyPair.generate toyEnv [4]).pub, toyCurve.G, [.v4], 1000, .none⟩, by decide +kernel⟩

/-! ## C65 -/

/-- C65 fails for the client that answered the last exchange: once an Auth-I message was accepted, in every later
state of this context, whatever happens, `initiate` fails. -/
theorem C65_stuck (E : Env) (h : List DakeEv) (s : DAKEState) (hl : DakeLife E h s)
    (hd : ∃ m mat, DakeEv.authI m (.ok mat) ∈ h) (host : DAKEHost) (rnd : Rand) :
    initiate E host rnd s = (.err .incorrectState, s) := by
  have key : ∃ st, s = .awaitingAuthI st := by
    clear host rnd
    induction hl with
    | start => obtain ⟨_, _, h⟩ := hd; simp at h
    | began _ hs ih =>
      obtain ⟨m, mat, hd⟩ := hd
      obtain ⟨st, rfl⟩ := ih ⟨m, mat, by simpa using hd⟩
      have := transact_ok.mp hs
      simp at this
    | @identity h s s' host m rnd r _ hs hp ih =>
      obtain ⟨m', mat, hd⟩ := hd
      obtain ⟨st, rfl⟩ := ih ⟨m', mat, by simpa using hd⟩
      cases r with
      | panic => exact absurd rfl hp
      | err e => exact ⟨st, (transact_err.mp hs).2⟩
      | ok r =>
        obtain ⟨bob, _, ⟨st', h1, _⟩ | h1⟩ := handleIdentity_ok hs
        · cases h1
        · obtain ⟨_, st', _, _, _, _, _, h2, _⟩ := answerIdentity_ok h1
          exact ⟨st', h2⟩
    | @authR h s s' host m rnd now r _ hs hp ih =>
      obtain ⟨m', mat, hd⟩ := hd
      obtain ⟨st, rfl⟩ := ih ⟨m', mat, by simpa using hd⟩
      have h1 : handleAuthR E host m rnd now (.awaitingAuthI st) = (.err .incorrectState, .awaitingAuthI st) := rfl
      rw [h1] at hs
      exact ⟨st, (Prod.mk.inj hs).2.symm⟩
    | @authI h s s' host m now r _ hs hp ih =>
      cases r with
      | panic => exact absurd rfl hp
      | err e =>
        obtain ⟨m', mat, hd⟩ := hd
        obtain ⟨st, rfl⟩ := ih ⟨m', mat, by simpa using hd⟩
        exact ⟨st, (transact_err.mp hs).2⟩
      | ok r =>
        have hs := transact_ok.mp hs
        split at hs
        · simp only [Res.bind_eq_ok, Res.pure_def, Res.ok.injEq, Prod.mk.injEq] at hs
          obtain ⟨_, _, _, rfl⟩ := hs
          exact ⟨_, rfl⟩
        · simp at hs
  obtain ⟨st, rfl⟩ := key
  rfl

/-- C65 is false of the code: a client that completed an exchange by accepting Auth-I cannot begin another. -/
theorem C65_violated : ∃ (E : Env) (h : List DakeEv) (s : DAKEState) (m : AuthIMessage) (mat : MixedKeyMaterial),
    DakeLife E (h ++ [.authI m (.ok mat)]) s ∧
      ∀ host rnd, initiate E host rnd s = (.err .incorrectState, s) := by
  obtain ⟨mat, h⟩ := toy4
  have hl := DakeLife.authI toy_alice_life h (by simp)
  exact ⟨toyEnv, _, toyAnswer, toyAuthI, mat, hl, C65_stuck _ _ _ hl ⟨toyAuthI, mat, by simp⟩⟩

/-- C65, as far as it holds: the client that began the last exchange can begin the next, if its profile decodes.
(And the client that answered can answer the next: `C33_agree` holds for every such state of Alice.) -/
theorem C65_partial (E : Env) (host host' : DAKEHost) (m : AuthRMessage) (rnd rnd' : Rand) (now : Nat)
    (s s' : DAKEState) (r : MixedKeyMaterial × EncodedMessageType)
    (hs : handleAuthR E host m rnd now s = (.ok r, s')) (P : ClientProfilePayload)
    (hP : readPayload E host'.profile = .ok (P, [])) :
    ∃ i s'', initiate E host' rnd' s' = (.ok (.identity i), s'') ∧ i.profile = P := by
  have hs := transact_ok.mp hs
  split at hs
  · simp only [Res.bind_eq_ok, Res.pure_def, Res.ok.injEq, Prod.mk.injEq] at hs
    obtain ⟨_, _, _, rfl⟩ := hs
    have ho : ownPayload E host' = .ok P := by
      unfold ownPayload
      rw [runDec_ok]
      refine ⟨[], ?_⟩
      rw [Dec.bind_ok hP, Dec.bind_ok (show decDone [] = .ok ((), []) from rfl)]
      rfl
    obtain ⟨st, h1, h2⟩ := initiate_of ho rnd'
    exact ⟨_, _, h1, by rw [h2]⟩
  · simp at hs

example : ∃ mat, handleAuthR toyEnv hostB toyAuthR (smallRand 1) 5 toyBegan = (.ok mat, .initial) ∧
    readPayload toyEnv hostB.profile = .ok (payloadB, []) := by
  obtain ⟨mat, h⟩ := toy3
  refine ⟨_, h, ?_⟩
  have := readPayload_w toy_goodCurve.field partyB.wf []
  rwa [List.append_nil, ← partyB.bytes] at this

/-! ## C69 -/

/-- C69, as far as it holds: if both clients begin at the same time and their Identity messages cross, then the one whose D-H key has
the larger hash insists on its message, the other yields, and the exchange runs to its end as in `C33_agree`, provided that
the Identity message that the first repeats does not arrive.  What is missing: see `C69_repeat` and `C69_violated`. -/
theorem C69_simultaneous_partial (E : Env) (hc : GoodCurve E.curve) (hostA hostB : DAKEHost) (PA PB : ClientProfilePayload)
    (pa pb : ClientProfile) (hA : Party E hostA PA pa) (hB : Party E hostB PB pb)
    (hn1 : hostA.account = hostB.contact) (hn2 : hostA.contact = hostB.account)
    (rA₀ rB rA rB' rnd : Rand) (gA₀ : GoodEphemeral E rA₀) (gB : GoodEphemeral E rB) (gA : GoodEphemeral E rA)
    (d1 : pb.forgingKey ≠ pa.identityKey) (d2 : pa.forgingKey ≠ pb.identityKey)
    (d3 : (ECDHKeyPair.generate E (rB.bytes [0] 57)).pub ≠ pa.identityKey)
    (d4 : (ECDHKeyPair.generate E (rA.bytes [0] 57)).pub ≠ pb.identityKey) (tA tB : Nat) :
    ∃ mA₀ sA, initiate E hostA rA₀ .initial = (.ok (.identity mA₀), sA) ∧
    ∃ mI sB, initiate E hostB rB .initial = (.ok (.identity mI), sB) ∧
    (beNat (E.shake 32 (wMpi mA₀.b)) < beNat (E.shake 32 (wMpi mI.b)) →
    handleIdentity E hostB mA₀ rnd sB = (.ok (.identity mI), sB) ∧
    ∃ mR sA', handleIdentity E hostA mI rA sA = (.ok (.authR mR), sA') ∧
    (NonzeroChallenge E mR.sigma →
    ∃ matB mA, handleAuthR E hostB mR rB' tB sB = (.ok (matB, .authI mA), .initial) ∧
    (NonzeroChallenge E mA.sigma →
    ∃ matA sA'', handleAuthI E hostA mA tA sA' = (.ok matA, sA'') ∧ Agree4 E matA matB mI.dh0 ∧
      matA.us = fingerprint4 E pa.identityKey pa.forgingKey ∧ matA.them = fingerprint4 E pb.identityKey pb.forgingKey))) := by
  have hoA := ownPayload_party hc hA
  have hoB := ownPayload_party hc hB
  obtain ⟨stA, iA, eA⟩ := initiate_of hoA rA₀
  obtain ⟨stB, iB, eB⟩ := initiate_of hoB rB
  refine ⟨_, _, iA, _, _, iB, fun hlt => ⟨?_, ?_⟩⟩
  · have hv : validateIdentity E stA.message = .ok pa := by
      rw [eA]
      exact validateIdentity_ok.mpr ⟨hA.valid, (generated_good hc gA₀.ecdh).2, gA₀.dh, (generated_good hc gA₀.ecdh0).2, gA₀.dh0⟩
    refine transact_ok.mpr ?_
    rw [hv, Res.bind_ok]
    exact if_pos hlt
  · obtain ⟨mI, sB, h1, h2⟩ := C33_agree E hc hostA hostB PA PB pa pb hA hB hn1 hn2 rB rA rB' gB gA d1 d2 d3 d4
      (.awaitingAuthR stA) (by intro st h; cases h; rw [eB] at hlt; exact Nat.le_of_lt hlt) tA tB
    rw [iB] at h1
    simp only [Prod.mk.injEq, Res.ok.injEq, EncodedMessageType.identity.injEq] at h1
    obtain ⟨rfl, rfl⟩ := h1
    exact h2

theorem toy_good8 : GoodEphemeral toyEnv (smallRand 8) :=
  ⟨by decide +kernel, ⟨by decide +kernel, by decide +kernel, by decide +kernel⟩, by decide +kernel,
    ⟨by decide +kernel, by decide +kernel, by decide +kernel⟩⟩

/-- The toy clients begin at the same time; Alice's key has the smaller hash. -/
example : ∃ mA₀ sA mI sB mR sA', initiate toyEnv hostA (smallRand 8) .initial = (.ok (.identity mA₀), sA) ∧
    initiate toyEnv hostB (smallRand 4) .initial = (.ok (.identity mI), sB) ∧
    handleIdentity toyEnv hostB mA₀ (smallRand 9) sB = (.ok (.identity mI), sB) ∧
    handleIdentity toyEnv hostA mI (smallRand 10) sA = (.ok (.authR mR), sA') := by
  obtain ⟨mA₀, sA, h1, mI, sB, h2, h3⟩ := C69_simultaneous_partial toyEnv toy_goodCurve hostA hostB payloadA payloadB profileA
    profileB partyA partyB (by decide +kernel) (by decide +kernel) (smallRand 8) (smallRand 4) (smallRand 10) (smallRand 1)
    (smallRand 9) toy_good8 toy_good4 toy_good10 (by decide +kernel) (by decide +kernel) (by decide +kernel)
    (by decide +kernel) 6 5
  have e1 : mA₀.b = 2 := by
    obtain ⟨st, i1, i2⟩ := initiate_of (ownPayload_party toy_goodCurve partyA) (smallRand 8)
    rw [i1] at h1
    simp only [Prod.mk.injEq, Res.ok.injEq, EncodedMessageType.identity.injEq] at h1
    rw [← h1.1, i2]
    decide +kernel
  have e2 : mI.b = 8 := by
    rw [toy1] at h2
    simp only [Prod.mk.injEq, Res.ok.injEq, EncodedMessageType.identity.injEq] at h2
    rw [← h2.1]
    decide +kernel
  obtain ⟨h4, mR, sA', h5, _⟩ := h3 (by rw [e1, e2]; decide +kernel)
  exact ⟨mA₀, sA, mI, sB, mR, sA', h1, h2, h4, h5⟩

/-- C69: a client that answered an Identity message and gets an Identity message again answers with new keys, and forgets those of its first
answer. -/
theorem C69_repeat (E : Env) (host : DAKEHost) (m : IdentityMessage) (rnd : Rand) (st : AwaitingAuthI) (out : EncodedMessageType) (s' : DAKEState)
    (h : handleIdentity E host m rnd (.awaitingAuthI st) = (.ok out, s')) :
    ∃ r st', out = .authR r ∧ s' = .awaitingAuthI st' ∧ st'.x = r.x ∧ st'.a = r.a ∧ r.x = (ECDHKeyPair.generate E (rnd.bytes [0] 57)).pub ∧
      r.a = (DH.Keypair.generate3 E.dh3 (rnd.bytes [1] 80)).pub := by
  have h := transact_ok.mp h
  simp only [Res.bind_eq_ok, answerIdentity, Res.pure_def, Res.ok.injEq, Prod.mk.injEq] at h
  obtain ⟨_, _, p, _, own, _, sg, _, k, _, rfl, rfl⟩ := h
  exact ⟨_, _, rfl, rfl, rfl, rfl, rfl, rfl⟩

/-- The toy client that answered gets the Identity message again. -/
example : ∃ mI mR sA, handleIdentity toyEnv hostA mI (smallRand 10) .initial = (.ok (.authR mR), .awaitingAuthI sA) ∧
    handleIdentity toyEnv hostA mI (smallRand 10) (.awaitingAuthI sA) = (.ok (.authR mR), .awaitingAuthI sA) := by
  obtain ⟨mI, sB, _, mR, sA', h2, _⟩ := C33_agree toyEnv toy_goodCurve hostA hostB payloadA payloadB profileA profileB partyA partyB (by decide +kernel)
    (by decide +kernel) (smallRand 4) (smallRand 10) (smallRand 1) toy_good4 toy_good10 (by decide +kernel) (by decide +kernel) (by decide +kernel)
    (by decide +kernel) .initial nofun 0 0
  have h3 := transact_ok.mp h2
  simp only [Res.bind_eq_ok, answerIdentity, Res.pure_def, Res.ok.injEq, Prod.mk.injEq] at h3
  obtain ⟨b, hb, p, hp, own, ho, sg, hs, k, hk, h4, rfl⟩ := h3
  refine ⟨mI, mR, _, h2, transact_ok.mpr ?_⟩
  simp only [Res.bind_eq_ok, answerIdentity, Res.pure_def, Res.ok.injEq, Prod.mk.injEq]
  exact ⟨b, hb, p, hp, own, ho, sg, hs, k, hk, h4, rfl⟩

end Otrr.Props
